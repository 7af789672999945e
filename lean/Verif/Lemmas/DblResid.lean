import Verif.Lemmas.DblChol

/-! # The residual of the computed solution -/

set_option linter.unusedSectionVars false

namespace Rodeo.Dbl

open Spec Finset

variable {K : Type} [Field K] [LinearOrder K] [IsStrictOrderedRing K] [FloorRing K]

/-- The three error bounds together. -/
theorem resid {n : Nat} {F L : Nat → Nat → K} {b X Y : Nat → K} {g t : K} (hg : 0 ≤ g)
    (h1 : ∀ i, i < n → |b i - ∑ k ∈ range n, L i k * Y k| ≤ g * ∑ k ∈ range n, |L i k * Y k| + t)
    (h2 : ∀ k, k < n → |Y k - ∑ j ∈ range n, L j k * X j| ≤ g * ∑ j ∈ range n, |L j k * X j| + t)
    (h3 : ∀ i j, i < n → j < n → |F i j - ∑ k ∈ range n, L i k * L j k| ≤
      g * ∑ k ∈ range n, |L i k * L j k| + t) {i : Nat} (hi : i < n) :
    |b i - ∑ j ∈ range n, F i j * X j| ≤
      (3 * g + g * g) * ∑ j ∈ range n, (∑ k ∈ range n, |L i k * L j k|) * |X j| +
        t * ((1 + g) * ∑ k ∈ range n, |L i k| + 1 + ∑ j ∈ range n, |X j|) := by
  -- the exact product
  have e1 : ∑ k ∈ range n, L i k * (∑ j ∈ range n, L j k * X j) =
      ∑ j ∈ range n, (∑ k ∈ range n, L i k * L j k) * X j := by
    simp only [mul_sum, sum_mul]
    rw [sum_comm]
    exact sum_congr rfl fun j _ => sum_congr rfl fun k _ => by ring
  have e2 : ∑ k ∈ range n, |L i k| * (∑ j ∈ range n, |L j k * X j|) =
      ∑ j ∈ range n, (∑ k ∈ range n, |L i k * L j k|) * |X j| := by
    simp only [mul_sum, sum_mul]
    rw [sum_comm]
    exact sum_congr rfl fun j _ => sum_congr rfl fun k _ => by rw [abs_mul, abs_mul]; ring
  set W := ∑ j ∈ range n, (∑ k ∈ range n, |L i k * L j k|) * |X j| with hW
  set Λ := ∑ k ∈ range n, |L i k| with hΛ
  have e : b i - ∑ j ∈ range n, F i j * X j = (b i - ∑ k ∈ range n, L i k * Y k) +
      (∑ k ∈ range n, L i k * (Y k - ∑ j ∈ range n, L j k * X j)) -
      ∑ j ∈ range n, (F i j - ∑ k ∈ range n, L i k * L j k) * X j := by
    have a1 : ∑ k ∈ range n, L i k * (Y k - ∑ j ∈ range n, L j k * X j) =
        ∑ k ∈ range n, L i k * Y k - ∑ k ∈ range n, L i k * (∑ j ∈ range n, L j k * X j) := by
      rw [← sum_sub_distrib]
      exact sum_congr rfl fun k _ => by ring
    have a2 : ∑ j ∈ range n, (F i j - ∑ k ∈ range n, L i k * L j k) * X j =
        ∑ j ∈ range n, F i j * X j - ∑ j ∈ range n, (∑ k ∈ range n, L i k * L j k) * X j := by
      rw [← sum_sub_distrib]
      exact sum_congr rfl fun k _ => by ring
    rw [a1, a2, e1]; ring
  -- the second part
  have p2 : |∑ k ∈ range n, L i k * (Y k - ∑ j ∈ range n, L j k * X j)| ≤ g * W + t * Λ := by
    refine (abs_sum_le_sum_abs _ _).trans ?_
    rw [← e2, hΛ, mul_sum, mul_sum, ← sum_add_distrib]
    refine sum_le_sum fun k hk => ?_
    rw [mem_range] at hk
    rw [abs_mul]
    calc |L i k| * |Y k - ∑ j ∈ range n, L j k * X j|
        ≤ |L i k| * (g * ∑ j ∈ range n, |L j k * X j| + t) :=
          mul_le_mul_of_nonneg_left (h2 k hk) (abs_nonneg _)
      _ = g * (|L i k| * ∑ j ∈ range n, |L j k * X j|) + t * |L i k| := by ring
  -- the first part
  have p1 : ∑ k ∈ range n, |L i k * Y k| ≤ (1 + g) * W + t * Λ := by
    rw [← e2, hΛ, mul_sum, mul_sum, ← sum_add_distrib]
    refine sum_le_sum fun k hk => ?_
    rw [mem_range] at hk
    rw [abs_mul]
    have q1 : |Y k| ≤ (1 + g) * ∑ j ∈ range n, |L j k * X j| + t := by
      have q2 := h2 k hk
      have q3 : |∑ j ∈ range n, L j k * X j| ≤ ∑ j ∈ range n, |L j k * X j| := abs_sum_le_sum_abs _ _
      have q4 := abs_sub_abs_le_abs_sub (Y k) (∑ j ∈ range n, L j k * X j)
      linarith
    calc |L i k| * |Y k| ≤ |L i k| * ((1 + g) * ∑ j ∈ range n, |L j k * X j| + t) :=
          mul_le_mul_of_nonneg_left q1 (abs_nonneg _)
      _ = (1 + g) * (|L i k| * ∑ j ∈ range n, |L j k * X j|) + t * |L i k| := by ring
  -- the third part
  have p3 : |∑ j ∈ range n, (F i j - ∑ k ∈ range n, L i k * L j k) * X j| ≤
      g * W + t * ∑ j ∈ range n, |X j| := by
    refine (abs_sum_le_sum_abs _ _).trans ?_
    rw [hW, mul_sum, mul_sum, ← sum_add_distrib]
    refine sum_le_sum fun j hj => ?_
    rw [mem_range] at hj
    rw [abs_mul]
    calc |F i j - ∑ k ∈ range n, L i k * L j k| * |X j|
        ≤ (g * ∑ k ∈ range n, |L i k * L j k| + t) * |X j| :=
          mul_le_mul_of_nonneg_right (h3 i j hi hj) (abs_nonneg _)
      _ = g * ((∑ k ∈ range n, |L i k * L j k|) * |X j|) + t * |X j| := by ring
  have p4 := h1 i hi
  have p5 : g * ∑ k ∈ range n, |L i k * Y k| ≤ g * ((1 + g) * W + t * Λ) := mul_le_mul_of_nonneg_left p1 hg
  rw [e]
  refine (abs_sub _ _).trans ((add_le_add (abs_add_le _ _) le_rfl).trans ?_)
  linarith

/-- The rows of the factor are bounded by the diagonal. -/
theorem rows_le {n : Nat} {F L : Nat → Nat → K} {g t M B : K} (hg1 : g < 1)
    (h3 : ∀ i, i < n → |F i i - ∑ k ∈ range n, L i k * L i k| ≤
      g * ∑ k ∈ range n, |L i k * L i k| + t) (hM : ∀ i, i < n → F i i ≤ M) (hB : M + t ≤ (1 - g) * B)
    {i j : Nat} (hi : i < n) (hj : j < n) : ∑ k ∈ range n, |L i k * L j k| ≤ B := by
  have row : ∀ i, i < n → ∑ k ∈ range n, L i k * L i k ≤ B := by
    intro i hi
    have h := h3 i hi
    have e : ∑ k ∈ range n, |L i k * L i k| = ∑ k ∈ range n, L i k * L i k :=
      sum_congr rfl fun k _ => abs_mul_self _
    rw [e] at h
    have h4 := (abs_le.1 h).1
    have h5 := hM i hi
    by_contra hc
    push Not at hc
    have h6 : (1 - g) * B < (1 - g) * ∑ k ∈ range n, L i k * L i k :=
      mul_lt_mul_of_pos_left hc (by linarith)
    linarith
  have h4 : ∑ k ∈ range n, |L i k * L j k| ≤
      ∑ k ∈ range n, (1 / 2 * (L i k * L i k) + 1 / 2 * (L j k * L j k)) := by
    refine sum_le_sum fun k _ => abs_le.2 ⟨?_, ?_⟩
    · nlinarith [mul_self_nonneg (L i k + L j k)]
    · nlinarith [mul_self_nonneg (L i k - L j k)]
  rw [sum_add_distrib, ← mul_sum, ← mul_sum] at h4
  have := row i hi
  have := row j hj
  linarith

theorem entries_le {n : Nat} {L : Nat → K} {B : K} (h : ∑ k ∈ range n, |L k * L k| ≤ B) :
    ∑ k ∈ range n, |L k| ≤ n + B := by
  have : ∑ k ∈ range n, |L k| ≤ ∑ k ∈ range n, (1 + |L k * L k|) := by
    refine sum_le_sum fun k _ => ?_
    rw [abs_mul]
    nlinarith [mul_self_nonneg (|L k| - 1), abs_nonneg (L k)]
  rw [sum_add_distrib, sum_const, card_range, nsmul_eq_mul, mul_one] at this
  linarith

theorem tau_le {n : Nat} (hn : n ≤ 2 ^ 32) : (tau n : K) ≤ 2 ^ (-561 : ℤ) := by
  have h1 : (n : K) ≤ 2 ^ (512 : ℤ) := by
    have h2 : (n : K) ≤ ((2 ^ 32 : Nat) : K) := by exact_mod_cast hn
    have h3 : ((2 ^ 32 : Nat) : K) = 2 ^ (32 : ℤ) := by norm_num
    rw [h3] at h2
    exact h2.trans (zp_mono (by norm_num))
  have h2 := eta_pos (K := K)
  calc (tau n : K) ≤ 2 * eta * (2 ^ (512 : ℤ) + 2 ^ (512 : ℤ)) := by
        unfold tau
        exact mul_le_mul_of_nonneg_left (add_le_add h1 le_rfl) (by positivity)
    _ = 2 ^ (2 : ℤ) * (2 ^ (-1075 : ℤ) * 2 ^ (512 : ℤ)) := by
        unfold eta
        rw [show (2 : K) ^ (2 : ℤ) = 2 * 2 by norm_num]
        ring
    _ = 2 ^ (-561 : ℤ) := by rw [← zp_add, ← zp_add]; norm_num

/-- The sizes of the terms. -/
theorem resid_size {n : Nat} {M S P W : K} (hn0 : 0 < n) (hn : n ≤ 2 ^ 32) (hM1 : 2 ^ (-100 : ℤ) ≤ M)
    (hM2 : M ≤ 2 ^ (100 : ℤ)) (hS : 0 ≤ S)
    (hW : W ≤ (M + tau n) / (1 - gam (n + 2)) * S) (hP : P ≤ n + (M + tau n) / (1 - gam (n + 2))) :
    (3 * gam (n + 2) + gam (n + 2) * gam (n + 2)) * W + tau n * ((1 + gam (n + 2)) * P + 1 + S) ≤
      25 / 8 * ((n : K) + 2) / 2 ^ 53 * M * S + 2 ^ (-400 : ℤ) := by
  have hg := gam_nonneg (K := K) (n + 2)
  have hgl := gam_le2 (K := K) (n := n + 2) (by omega)
  push_cast at hgl
  have hnK : (n : K) ≤ 2 ^ 32 := by
    have h2 : (n : K) ≤ ((2 ^ 32 : Nat) : K) := by exact_mod_cast hn
    exact h2.trans (le_of_eq (by norm_num))
  have hn1 : (1 : K) ≤ n := by exact_mod_cast hn0
  set h : K := ((n : K) + 2) / 2 ^ 53 with hh
  have hh0 : 3 / 2 ^ 53 ≤ h := div_le_div_of_nonneg_right (by linarith) (by norm_num)
  have hh1 : h ≤ 1 / 2 ^ 20 := by
    rw [hh, div_le_iff₀ (by norm_num)]
    refine (add_le_add hnK le_rfl).trans ?_
    norm_num
  have ht := tau_le (K := K) hn
  have ht0 := tau_nonneg (K := K) n
  have hM0 : 0 < M := (zp _).trans_le hM1
  have htM : tau n ≤ h / 2 ^ 10 * M := by
    refine ht.trans ?_
    have a1 : (2 : K) ^ (-561 : ℤ) ≤ 2 ^ (-63 : ℤ) * 2 ^ (-100 : ℤ) := by
      rw [← zp_add]; exact zp_mono (by norm_num)
    have a2 : (2 : K) ^ (-63 : ℤ) ≤ h / 2 ^ 10 := by
      have : (2 : K) ^ (-63 : ℤ) = 1 / 2 ^ 63 := by rw [zpow_neg, one_div, ← zp_nat]; rfl
      rw [this]
      linarith
    exact a1.trans (mul_le_mul a2 hM1 (zp _).le (by linarith))
  generalize (gam (n + 2) : K) = g at *
  have h1g : 0 < 1 - g := by linarith
  set B := (M + tau n) / (1 - g) with hB
  have hBM : B ≤ (1 + 2 * h) * M := by
    rw [hB, div_le_iff₀ h1g]
    have a1 : (1 + 2 * h) * M * (1 - (1 + 1 / 2 ^ 10) * h) ≤ (1 + 2 * h) * M * (1 - g) :=
      mul_le_mul_of_nonneg_left (by linarith) (by positivity)
    have a2 : h * h * M ≤ 1 / 2 ^ 20 * h * M := by
      refine mul_le_mul_of_nonneg_right ?_ hM0.le
      exact mul_le_mul_of_nonneg_right hh1 (by linarith)
    have a3 : 0 ≤ h * M := mul_nonneg (by linarith) hM0.le
    linarith
  have hB0 : 0 ≤ B := div_nonneg (by linarith) h1g.le
  -- the main term
  have m1 : (3 * g + g * g) * W ≤ (301 / 100 * h) * ((1 + 2 * h) * M * S) := by
    have a1 : (3 * g + g * g) * W ≤ (3 * g + g * g) * (B * S) :=
      mul_le_mul_of_nonneg_left hW (by positivity)
    have a2 : 3 * g + g * g ≤ 301 / 100 * h := by
      have : g * g ≤ 1 / 2 ^ 10 * g := mul_le_mul_of_nonneg_right (by linarith) hg
      linarith
    refine a1.trans (mul_le_mul a2 (mul_le_mul_of_nonneg_right hBM hS) (by positivity) (by positivity))
  have m2 : (301 / 100 * h) * ((1 + 2 * h) * M * S) ≤ 31 / 10 * h * (M * S) := by
    have a1 : (301 / 100 * h) * (1 + 2 * h) ≤ 31 / 10 * h := by
      have b1 : h * h ≤ 1 / 2 ^ 20 * h := mul_le_mul_of_nonneg_right hh1 (by linarith)
      linarith
    have := mul_le_mul_of_nonneg_right a1 (mul_nonneg hM0.le hS)
    linarith
  have m3 : tau n * S ≤ h / 2 ^ 10 * M * S := mul_le_mul_of_nonneg_right htM hS
  -- the remainder
  have m4 : tau n * ((1 + g) * P + 1) ≤ 2 ^ (-400 : ℤ) := by
    have a1 : (1 + g) * P ≤ 2 * ((n : K) + B) := by
      have b0 : 0 ≤ (n : K) + B := by linarith
      have b1 : (1 + g) * P ≤ (1 + g) * (n + B) := mul_le_mul_of_nonneg_left hP (by linarith)
      have b2 : (1 + g) * (n + B) ≤ 2 * (n + B) := mul_le_mul_of_nonneg_right (by linarith) b0
      linarith
    have hB2 : B ≤ 2 * 2 ^ (100 : ℤ) := hBM.trans (mul_le_mul (by linarith) hM2 hM0.le (by norm_num))
    have e100 : (2 : K) ^ (100 : ℤ) = 2 ^ 100 := zp_nat 100
    rw [e100] at hB2
    have a2 : (1 + g) * P + 1 ≤ 2 ^ (110 : ℤ) := by
      rw [show (2 : K) ^ (110 : ℤ) = 2 ^ 110 from zp_nat 110]
      have : (2 : K) * (2 ^ 32 + 2 * 2 ^ 100) + 1 ≤ 2 ^ 110 := by norm_num
      linarith
    calc tau n * ((1 + g) * P + 1) ≤ tau n * 2 ^ (110 : ℤ) := mul_le_mul_of_nonneg_left a2 ht0
      _ ≤ 2 ^ (-561 : ℤ) * 2 ^ (110 : ℤ) := mul_le_mul_of_nonneg_right ht (zp _).le
      _ = 2 ^ (-451 : ℤ) := by rw [← zp_add]; norm_num
      _ ≤ 2 ^ (-400 : ℤ) := zp_mono (by norm_num)
  have e4 : 25 / 8 * ((n : K) + 2) / 2 ^ 53 * M * S = 25 / 8 * h * (M * S) := by rw [hh]; ring
  rw [e4]
  have m5 : 0 ≤ h * (M * S) := mul_nonneg (by linarith) (mul_nonneg hM0.le hS)
  have e5 : tau n * ((1 + g) * P + 1 + S) = tau n * ((1 + g) * P + 1) + tau n * S := by ring
  rw [e5]
  linarith

/-! ## The equations with full sums -/

theorem lower_sum {n a : Nat} (h : a < n) {G : Nat → Nat → K} (f : Nat → K) :
    ∑ k ∈ range n, lowerPart G a k * f k = ∑ k ∈ range (a + 1), G a k * f k := by
  rw [sum_range_cut h (f := fun k => lowerPart G a k * f k)
    (by intro k hk; simp only [lowerPart]; rw [if_neg (by omega), zero_mul])]
  exact sum_congr rfl fun k hk => by
    rw [mem_range] at hk; simp only [lowerPart]; rw [if_pos (by omega)]

theorem lower_sum_abs {n a : Nat} (h : a < n) {G : Nat → Nat → K} (f : Nat → K) :
    ∑ k ∈ range n, |lowerPart G a k * f k| = ∑ k ∈ range (a + 1), |G a k * f k| := by
  rw [sum_range_cut h (f := fun k => |lowerPart G a k * f k|)
    (by intro k hk; simp only [lowerPart]; rw [if_neg (by omega), zero_mul, abs_zero])]
  exact sum_congr rfl fun k hk => by
    rw [mem_range] at hk; simp only [lowerPart]; rw [if_pos (by omega)]

theorem range_Ico_sum {n a : Nat} (h : a ≤ n) {f : Nat → K} (hf : ∀ k, k < a → f k = 0) :
    ∑ k ∈ range n, f k = ∑ k ∈ Ico a n, f k := by
  rw [range_eq_Ico, ← sum_Ico_consecutive f (Nat.zero_le a) h, sum_eq_zero, zero_add]
  intro k hk
  rw [mem_Ico] at hk
  exact hf k hk.2

theorem near_full {n : Nat} {F G : Nat → Nat → K} (hsym : Symm n F) (hI : NearInv n F G n) :
    ∀ i j, i < n → j < n →
      |F i j - ∑ k ∈ range n, lowerPart G i k * lowerPart G j k| ≤
        gam (n + 2) * ∑ k ∈ range n, |lowerPart G i k * lowerPart G j k| + tau n := by
  have low : ∀ i j, i < n → j ≤ i →
      |F i j - ∑ k ∈ range n, lowerPart G i k * lowerPart G j k| ≤
        gam (n + 2) * ∑ k ∈ range n, |lowerPart G i k * lowerPart G j k| + tau n := by
    intro i j hi hj
    have h := (hI i hi).1 j hj
    unfold NearEq at h
    have e1 : ∑ k ∈ range n, lowerPart G i k * lowerPart G j k = ∑ k ∈ range (j + 1), G i k * G j k := by
      rw [sum_congr rfl fun k _ => mul_comm (lowerPart G i k) (lowerPart G j k), lower_sum (by omega)]
      exact sum_congr rfl fun k hk => by
        rw [mem_range] at hk; simp only [lowerPart]; rw [if_pos (by omega), mul_comm]
    have e2 : ∑ k ∈ range n, |lowerPart G i k * lowerPart G j k| = ∑ k ∈ range (j + 1), |G i k * G j k| := by
      rw [sum_congr rfl fun k _ => by rw [mul_comm (lowerPart G i k) (lowerPart G j k)],
        lower_sum_abs (by omega)]
      exact sum_congr rfl fun k hk => by
        rw [mem_range] at hk; simp only [lowerPart]; rw [if_pos (by omega), mul_comm]
    rw [e1, e2]
    exact h
  intro i j hi hj
  by_cases h : j ≤ i
  · exact low i j hi h
  · have := low j i hj (by omega)
    rw [hsym i j hi hj]
    have e1 : ∑ k ∈ range n, lowerPart G i k * lowerPart G j k =
      ∑ k ∈ range n, lowerPart G j k * lowerPart G i k := sum_congr rfl fun k _ => mul_comm _ _
    have e2 : ∑ k ∈ range n, |lowerPart G i k * lowerPart G j k| =
      ∑ k ∈ range n, |lowerPart G j k * lowerPart G i k| := sum_congr rfl fun k _ => by rw [mul_comm]
    rw [e1, e2]
    exact this

/-- The residual of the solver. -/
theorem solveSystem_near {A : Mat K} {n : Nat} {F : Nat → Nat → K} {sqrt : K → K} (hs : IsSqrt sqrt)
    (hA : IsMat A n n F) (hsym : Symm n F) (hn : n ≤ 2 ^ 32)
    (hF : ∀ i j, i < n → j < n → IsDouble (F i j)) {b : List K} (hb : b.length = n) (hbd : Doubles b)
    {M : K} (hM : ∀ i, i < n → F i i ≤ M) (hM1 : 2 ^ (-100 : ℤ) ≤ M) (hM2 : M ≤ 2 ^ (100 : ℤ)) :
    Post (solveSystem sqrt A b) (fun x => x.length = n ∧ ∀ i, i < n →
      |vecFun b i - ∑ j ∈ range n, F i j * vecFun x j| ≤
        25 / 8 * ((n : K) + 2) / 2 ^ 53 * M * ∑ j ∈ range n, |vecFun x j| + 2 ^ (-400 : ℤ)) := by
  unfold solveSystem
  refine Post.bind (cholesky_near hs hA hn hF) ?_
  rintro ⟨L, ret⟩ hr
  dsimp only at hr ⊢
  split_ifs with hret
  · exact Post.error
  obtain ⟨-, G, hL, hI⟩ := hr hret
  refine (solveCholesky_near hn hL ?_ hb hbd).mono ?_
  · intro i hi
    obtain ⟨-, h1, h2⟩ := hI i hi
    rwa [abs_of_nonneg h1]
  · rintro x ⟨hx, Y, hY, hX⟩
    refine ⟨hx, fun i hi => ?_⟩
    have h3 := near_full hsym hI
    have hg := gam_nonneg (K := K) (n + 2)
    have hgl := gam_le (K := K) (n := n + 2) (by omega)
    have hg1 : gam (n + 2) < (1 : K) := by
      refine hgl.trans_lt ?_
      rw [div_lt_one (by norm_num)]
      have : ((n + 2 : Nat) : K) ≤ ((2 ^ 40 : Nat) : K) := by exact_mod_cast (by omega : n + 2 ≤ 2 ^ 40)
      exact this.trans_lt (by norm_num)
    have hrow := fun i j hi hj => rows_le (i := i) (j := j) hg1 (fun i hi => h3 i i hi hi) hM
      (B := (M + tau n) / (1 - gam (n + 2))) (le_of_eq (by
        have : (1 : K) - gam (n + 2) ≠ 0 := by linarith
        field_simp)) hi hj
    refine (resid (L := lowerPart G) (b := vecFun b) (X := vecFun x) (Y := Y) hg ?_ ?_ h3 hi).trans ?_
    · intro a ha
      rw [lower_sum ha, lower_sum_abs ha]
      exact hY a ha
    · intro a ha
      have e1 : ∑ j ∈ range n, lowerPart G j a * vecFun x j = ∑ j ∈ Ico a n, G j a * vecFun x j := by
        rw [range_Ico_sum ha.le (by intro k hk; simp only [lowerPart]; rw [if_neg (by omega), zero_mul])]
        exact sum_congr rfl fun k hk => by
          rw [mem_Ico] at hk; simp only [lowerPart]; rw [if_pos hk.1]
      have e2 : ∑ j ∈ range n, |lowerPart G j a * vecFun x j| = ∑ j ∈ Ico a n, |G j a * vecFun x j| := by
        rw [range_Ico_sum ha.le (by
          intro k hk; simp only [lowerPart]; rw [if_neg (by omega), zero_mul, abs_zero])]
        exact sum_congr rfl fun k hk => by
          rw [mem_Ico] at hk; simp only [lowerPart]; rw [if_pos hk.1]
      rw [e1, e2]
      exact hX a ha
    · refine resid_size (by omega) hn hM1 hM2 (sum_nonneg fun _ _ => abs_nonneg _) ?_
        (entries_le (hrow i i hi hi))
      rw [mul_sum]
      refine sum_le_sum fun j hj => ?_
      rw [mem_range] at hj
      exact mul_le_mul_of_nonneg_right (hrow i j hi hj) (abs_nonneg _)

end Rodeo.Dbl
