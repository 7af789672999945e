import Verif.Lemmas.DblTrip
import Verif.Lemmas.Chol
import Verif.Model.DblLin
import Mathlib.Algebra.Order.BigOperators.Ring.Finset

/-! # Error bounds of sums and dot products in doubles -/

set_option linter.unusedSectionVars false

namespace Rodeo.Dbl

open Spec Finset

variable {K : Type} [Field K] [LinearOrder K] [IsStrictOrderedRing K] [FloorRing K]

/-- Half the least double. -/
def eta : K := 2 ^ (-1075 : ℤ)

theorem eta_pos : (0 : K) < eta := zp _

/-- The error bound of `n` operations. -/
def gam (n : Nat) : K := (1 + eps) ^ n - 1

theorem one_le_pow_eps (n : Nat) : (1 : K) ≤ (1 + eps) ^ n :=
  one_le_pow₀ (by have := eps_pos (K := K); linarith)

theorem gam_nonneg (n : Nat) : (0 : K) ≤ gam n := by
  unfold gam; have := one_le_pow_eps (K := K) n; linarith

theorem gam_mono {m n : Nat} (h : m ≤ n) : (gam m : K) ≤ gam n := by
  unfold gam
  have : (1 + eps : K) ^ m ≤ (1 + eps) ^ n :=
    pow_le_pow_right₀ (by have := eps_pos (K := K); linarith) h
  linarith

theorem gam_succ (n : Nat) : (gam (n + 1) : K) = (1 + eps) * gam n + eps := by
  unfold gam; rw [pow_succ]; ring

theorem gam_one : (gam 1 : K) = eps := by unfold gam; ring

/-- For fewer than `2 ^ 40` operations. -/
theorem gam_le {n : Nat} (h : n ≤ 2 ^ 40) : (gam n : K) ≤ n / 2 ^ 52 := by
  have he := eps_pos (K := K)
  have key : ∀ k : Nat, k ≤ 2 ^ 40 → (gam k : K) ≤ 2 * k * eps := by
    intro k
    induction k with
    | zero => intro _; unfold gam; simp
    | succ k ih =>
      intro hk
      have h1 := ih (by omega)
      rw [gam_succ]
      have h2 : (1 + eps : K) * gam k ≤ (1 + eps) * (2 * k * eps) := mul_le_mul_of_nonneg_left h1 (by linarith)
      have h3 : (2 * k * eps : K) ≤ 1 := by
        have hk' : (k : K) ≤ 2 ^ 40 := by
          have : (k : K) ≤ ((2 ^ 40 : Nat) : K) := by exact_mod_cast (by omega : k ≤ 2 ^ 40)
          refine this.trans (le_of_eq (by norm_num))
        have e : (2 * k * eps : K) = k * (2 / 2 ^ 53) := by unfold eps; ring
        rw [e]
        calc (k : K) * (2 / 2 ^ 53) ≤ 2 ^ 40 * (2 / 2 ^ 53) := mul_le_mul_of_nonneg_right hk' (by positivity)
          _ ≤ 1 := by norm_num
      have h4 : (eps : K) * (2 * k * eps) ≤ eps * 1 := mul_le_mul_of_nonneg_left h3 he.le
      push_cast
      linarith
  refine (key n h).trans (le_of_eq ?_)
  unfold eps
  field_simp

/-- For fewer than `2 ^ 40` operations, with a constant near one. -/
theorem gam_le2 {n : Nat} (h : n ≤ 2 ^ 40) : (gam n : K) ≤ (1 + 1 / 2 ^ 10) * (n / 2 ^ 53) := by
  have he := eps_pos (K := K)
  have key : ∀ k : Nat, k ≤ 2 ^ 40 → (gam k : K) ≤ (1 + 1 / 2 ^ 10) * (k * eps) := by
    intro k
    induction k with
    | zero => intro _; unfold gam; simp
    | succ k ih =>
      intro hk
      have h1 := ih (by omega)
      have h2 := gam_le (K := K) (n := k) (by omega)
      have h3 : (k : K) ≤ 2 ^ 40 := by
        have : (k : K) ≤ ((2 ^ 40 : Nat) : K) := by exact_mod_cast (by omega : k ≤ 2 ^ 40)
        refine this.trans (le_of_eq (by norm_num))
      have h4 : (gam k : K) ≤ 1 / 2 ^ 10 := by
        refine h2.trans ?_
        rw [div_le_iff₀ (by norm_num)]
        refine h3.trans ?_
        norm_num
      rw [gam_succ]
      push_cast
      have h5 := mul_le_mul_of_nonneg_left h4 he.le
      linarith
  have := key n h
  have e : (n : K) / 2 ^ 53 = n * eps := by unfold eps; ring
  rwa [e]

theorem pow_eps_le {n : Nat} (h : n ≤ 2 ^ 40) : (1 + eps : K) ^ n ≤ 2 := by
  have h1 := gam_le (K := K) h
  have hk' : (n : K) ≤ 2 ^ 40 := by
    have : (n : K) ≤ ((2 ^ 40 : Nat) : K) := by exact_mod_cast h
    refine this.trans (le_of_eq (by norm_num))
  have h2 : (n : K) / 2 ^ 52 ≤ 1 := by
    rw [div_le_one (by positivity)]
    exact hk'.trans (by norm_num)
  unfold gam at h1
  linarith

/-! ## One operation, relative to its result -/

theorem eps_zp : (eps : K) = 2 ^ (-53 : ℤ) := by unfold eps; rw [zpow_neg]; norm_num

/-- In the normal range. -/
theorem fl_err_normal {x : K} (hx1 : 2 ^ (-1022 : ℤ) ≤ |x|) : |fl x - x| ≤ eps * |fl x| := by
  have he := eps_pos (K := K)
  have hx : x ≠ 0 := by
    rintro rfl
    rw [abs_zero] at hx1
    exact absurd hx1 (not_le.2 (zp _))
  have hlog : -1022 ≤ Int.log 2 |x| := by
    by_contra hc
    push Not at hc
    have h1 := (log_bounds hx).2
    have h2 : (2 : K) ^ (Int.log 2 |x| + 1) ≤ 2 ^ (-1022 : ℤ) := zp_mono (by omega)
    exact absurd (h1.trans_le h2) (not_lt.2 hx1)
  have hulp : ulpExp x = Int.log 2 |x| - 52 := max_eq_left (by omega)
  refine (fl_err_ulp x).trans ?_
  have hlow := (log_bounds hx).1
  generalize Int.log 2 |x| = e at *
  have hd : IsDouble ((2 : K) ^ e) := ⟨1, e, by norm_num, by omega, by simp⟩
  have hfl : (2 : K) ^ e ≤ |fl x| := by
    rcases le_or_gt 0 x with hp | hp
    · rw [abs_of_nonneg hp] at hlow
      exact (double_le_fl hd hlow).trans (le_abs_self _)
    · rw [abs_of_neg hp] at hlow
      have h1 := fl_le_double (isDouble_neg hd) (by linarith : x ≤ -2 ^ e)
      have h2 := neg_abs_le (fl x)
      linarith
  have e1 : (2 : K) ^ (ulpExp x - 1) = eps * 2 ^ e := by
    rw [hulp, eps_zp, ← zp_add]; congr 1; ring
  rw [e1]
  exact mul_le_mul_of_nonneg_left hfl he.le

theorem fl_err_res (x : K) : |fl x - x| ≤ eps * |fl x| + eta := by
  have h0 : 0 ≤ eps * |fl x| := mul_nonneg (eps_pos (K := K)).le (abs_nonneg _)
  have h1 := eta_pos (K := K)
  rcases le_or_gt (2 ^ (-1022 : ℤ)) |x| with h | h
  · have := fl_err_normal h; linarith
  · refine (fl_err x).trans (max_le ?_ ?_)
    · rw [div53, eps_zp]
      have h2 : (2 : K) ^ (-53 : ℤ) * |x| ≤ 2 ^ (-53 : ℤ) * 2 ^ (-1022 : ℤ) :=
        mul_le_mul_of_nonneg_left h.le (zp _).le
      have h3 : (2 : K) ^ (-53 : ℤ) * 2 ^ (-1022 : ℤ) = eta := by
        unfold eta; rw [← zp_add]; norm_num
      rw [h3] at h2
      rw [eps_zp] at h0
      linarith
    · unfold eta at h1 ⊢; linarith

theorem fl_grid_res {x : K} (h : ∃ n : ℤ, x = (n : K) * 2 ^ (-1074 : ℤ)) : |fl x - x| ≤ eps * |fl x| := by
  obtain ⟨n, hn⟩ := h
  rcases lt_or_ge |x| (2 ^ (-1074 + 53 : ℤ)) with h | h
  · rw [fl_small n (-1074) le_rfl hn h, sub_self, abs_zero]
    exact mul_nonneg eps_pos.le (abs_nonneg _)
  · refine (fl_err_normal ?_)
    exact le_trans (zp_mono (by norm_num)) h

theorem fl_add_res {a b : K} (ha : IsDouble a) (hb : IsDouble b) :
    |fl (a + b) - (a + b)| ≤ eps * |fl (a + b)| := fl_grid_res (add_grid ha hb)

theorem fl_sub_res {a b : K} (ha : IsDouble a) (hb : IsDouble b) :
    |fl (a - b) - (a - b)| ≤ eps * |fl (a - b)| := by
  have := fl_add_res ha (isDouble_neg hb)
  rwa [← sub_eq_add_neg] at this

theorem fl_add_rel {a b : K} (ha : IsDouble a) (hb : IsDouble b) :
    |fl (a + b) - (a + b)| ≤ eps * |a + b| := by
  have := fl_add_err ha hb
  rwa [div53] at this

/-- The absolute and relative error of a product or quotient. -/
theorem fl_rel (x : K) : |fl x - x| ≤ eps * |x| + eta := by
  have h0 : 0 ≤ eps * |x| := mul_nonneg (eps_pos (K := K)).le (abs_nonneg _)
  have h1 := eta_pos (K := K)
  refine (fl_err x).trans (max_le ?_ ?_)
  · rw [div53]; linarith
  · unfold eta at h1 ⊢; linarith

/-! ## Loops -/

theorem forFromTo_post {σ : Type} {body : Nat → σ → Res σ} (Inv : Nat → σ → Prop) {a b : Nat} {s : σ}
    (hab : a ≤ b) (h0 : Inv a s) (hs : ∀ j s, a ≤ j → j < b → Inv j s → Post (body j s) (Inv (j + 1))) :
    Post (Mat.forFromTo a b body s) (Inv b) := by
  have main : ∀ k i s, a ≤ i → Inv i s → i + k ≤ b → Post (loopFrom body i k s) (Inv (i + k)) := by
    intro k
    induction k with
    | zero => intro i s _ h _; exact Post.ok h
    | succ k ih =>
      intro i s ha h hk
      unfold loopFrom
      cases hb : body i s with
      | error e => exact Post.error
      | ok s' =>
        have := ih (i + 1) s' (by omega) (hs i s ha (by omega) h s' hb) (by omega)
        rwa [show i + (k + 1) = i + 1 + k by omega]
  have := main (b - a) a s le_rfl h0 (by omega)
  rwa [show a + (b - a) = b by omega] at this

theorem forRange_post' {σ : Type} {body : Nat → σ → Res σ} (Inv : Nat → σ → Prop) {n : Nat} {s : σ}
    (h0 : Inv 0 s) (hs : ∀ j s, j < n → Inv j s → Post (body j s) (Inv (j + 1))) :
    Post (forRange n body s) (Inv n) :=
  forFromTo_post (a := 0) Inv (Nat.zero_le n) h0 (fun j s _ h => hs j s h)

/-- One more term. -/
theorem sum_step {a j : Nat} {s : K} {x : Nat → K} (h1 : a ≤ j) (hs : IsDouble s) (hx : IsDouble (x j))
    (hI : |s - ∑ k ∈ Ico a j, x k| ≤ gam (j - a) * ∑ k ∈ Ico a j, |x k|) :
    |fl (s + x j) - ∑ k ∈ Ico a (j + 1), x k| ≤ gam (j + 1 - a) * ∑ k ∈ Ico a (j + 1), |x k| := by
  have he := eps_pos (K := K)
  rw [sum_Ico_succ_top h1, sum_Ico_succ_top h1, show j + 1 - a = j - a + 1 by omega, gam_succ]
  have h3 := fl_add_rel hs hx
  set S := ∑ k ∈ Ico a j, x k with hS
  set T := ∑ k ∈ Ico a j, |x k| with hT
  have hST : |S| ≤ T := abs_sum_le_sum_abs _ _
  have hg := gam_nonneg (K := K) (j - a)
  have e : fl (s + x j) - (S + x j) = (fl (s + x j) - (s + x j)) + (s - S) := by ring
  rw [e]
  refine (abs_add_le _ _).trans ?_
  have h4 : |s + x j| ≤ |s - S| + T + |x j| := by
    have e2 : s + x j = (s - S) + (S + x j) := by ring
    rw [e2]
    have := abs_add_le (s - S) (S + x j)
    have := abs_add_le S (x j)
    linarith
  have h5 : eps * |s + x j| ≤ eps * (|s - S| + T + |x j|) := mul_le_mul_of_nonneg_left h4 he.le
  have h6 : (1 + eps) * |s - S| ≤ (1 + eps) * (gam (j - a) * T) := mul_le_mul_of_nonneg_left hI (by linarith)
  have h7 : 0 ≤ (1 + eps) * gam (j - a) * |x j| := by positivity
  linarith

/-- The error of a computed sum of doubles. -/
theorem sum_post {a b : Nat} {f : Nat → Res K} {x : Nat → K} (hab : a ≤ b)
    (hf : ∀ k, a ≤ k → k < b → Post (f k) (fun v => v = x k)) (hx : ∀ k, a ≤ k → k < b → IsDouble (x k)) :
    Post (sumFrom a b f) (fun s => IsDouble s ∧
      |s - ∑ k ∈ Ico a b, x k| ≤ gam (b - a) * ∑ k ∈ Ico a b, |x k|) := by
  unfold sumFrom
  refine forFromTo_post (fun j s => IsDouble s ∧
    |s - ∑ k ∈ Ico a j, x k| ≤ gam (j - a) * ∑ k ∈ Ico a j, |x k|) hab ?_ ?_
  · simp [isDouble_zero]
  · rintro j s h1 h2 ⟨hs, hI⟩
    refine Post.bind (hf j h1 h2) ?_
    rintro v rfl
    intro r hr
    obtain rfl := dbl_ok hr
    exact ⟨fl_isDouble _, sum_step h1 hs (hx j h1 h2) hI⟩

/-- A sum of doubles that is not huge is computed without overflow. -/
theorem sum_total {a b : Nat} {f : Nat → Res K} {x : Nat → K} (hab : a ≤ b) (hn : b - a ≤ 2 ^ 40)
    (hf : ∀ k, a ≤ k → k < b → f k = .ok (x k)) (hx : ∀ k, a ≤ k → k < b → IsDouble (x k))
    (hT : ∑ k ∈ Ico a b, |x k| ≤ 2 ^ (1021 : ℤ)) : ∃ s, sumFrom a b f = .ok s := by
  unfold sumFrom
  obtain ⟨s, e, -⟩ := loopFrom_inv' (body := fun k s => do
      let v ← f k
      add s v) (s := (0 : K)) (fun j s => IsDouble s ∧
    |s - ∑ k ∈ Ico a j, x k| ≤ gam (j - a) * ∑ k ∈ Ico a j, |x k|) hab (by simp [isDouble_zero]) (by
    rintro j s h1 h2 ⟨hs, hI⟩
    refine bind_okP (hf j h1 h2) ⟨fl (s + x j), ?_, fl_isDouble _, sum_step h1 hs (hx j h1 h2) hI⟩
    unfold add
    refine dbl_of_le (n := 1023) (by norm_num) le_rfl ?_
    have hg : gam (j - a) ≤ (1 : K) := by
      have := pow_eps_le (K := K) (n := j - a) (by omega)
      unfold gam; linarith
    have hle : ∑ k ∈ Ico a (j + 1), |x k| ≤ ∑ k ∈ Ico a b, |x k| :=
      sum_le_sum_of_subset_of_nonneg (Ico_subset_Ico_right h2) fun _ _ _ => abs_nonneg _
    rw [sum_Ico_succ_top h1] at hle
    have hST : |∑ k ∈ Ico a j, x k| ≤ ∑ k ∈ Ico a j, |x k| := abs_sum_le_sum_abs _ _
    have h0 : 0 ≤ ∑ k ∈ Ico a j, |x k| := sum_nonneg fun _ _ => abs_nonneg _
    have h3 : gam (j - a) * ∑ k ∈ Ico a j, |x k| ≤ 1 * ∑ k ∈ Ico a j, |x k| :=
      mul_le_mul_of_nonneg_right hg h0
    generalize ∑ k ∈ Ico a j, |x k| = T at *
    generalize ∑ k ∈ Ico a j, x k = S at *
    have e2 : s + x j = (s - S) + (S + x j) := by ring
    rw [e2]
    have h4 := abs_add_le (s - S) (S + x j)
    have h5 := abs_add_le S (x j)
    have h6 : |s - S + (S + x j)| ≤ (T + |x j|) + (T + |x j|) := by
      have := abs_nonneg (x j)
      linarith
    have hD := hle.trans hT
    refine h6.trans ((add_le_add hD hD).trans ?_)
    rw [← two_mul, show (2 : K) * 2 ^ (1021 : ℤ) = 2 ^ (1022 : ℤ) by
      rw [show (1022 : ℤ) = 1 + 1021 by norm_num, zp_add, zpow_one]]
    exact zp_mono (by norm_num))
  exact ⟨s, e⟩

/-- The error of a computed dot product. -/
theorem dot_post {a b : Nat} {f : Nat → Res K} {x y : Nat → K} (hab : a ≤ b)
    (hf : ∀ k, a ≤ k → k < b → Post (f k) (fun v => v = fl (x k * y k))) :
    Post (sumFrom a b f) (fun s => IsDouble s ∧ |s - ∑ k ∈ Ico a b, x k * y k| ≤
      gam (b - a + 1) * ∑ k ∈ Ico a b, |x k * y k| + (b - a : Nat) * (1 + eps) ^ (b - a) * eta) := by
  refine (sum_post hab hf (fun k _ _ => fl_isDouble _)).mono ?_
  rintro s ⟨hs, h⟩
  refine ⟨hs, ?_⟩
  have he := eps_pos (K := K)
  have hg := gam_nonneg (K := K) (b - a)
  set n := b - a with hn
  have hcard : ∑ _k ∈ Ico a b, (eta : K) = (n : Nat) * eta := by
    rw [sum_const, Nat.card_Ico, nsmul_eq_mul]
  have h1 : |∑ k ∈ Ico a b, fl (x k * y k) - ∑ k ∈ Ico a b, x k * y k| ≤
      eps * ∑ k ∈ Ico a b, |x k * y k| + n * eta := by
    rw [← sum_sub_distrib]
    refine (abs_sum_le_sum_abs _ _).trans ?_
    rw [mul_sum, ← hcard, ← sum_add_distrib]
    exact sum_le_sum fun k _ => fl_rel _
  have h2 : ∑ k ∈ Ico a b, |fl (x k * y k)| ≤ (1 + eps) * ∑ k ∈ Ico a b, |x k * y k| + n * eta := by
    rw [mul_sum, ← hcard, ← sum_add_distrib]
    refine sum_le_sum fun k _ => ?_
    have h3 := fl_rel (x k * y k)
    have h4 := abs_sub_abs_le_abs_sub (fl (x k * y k)) (x k * y k)
    linarith
  set T := ∑ k ∈ Ico a b, |x k * y k| with hT
  have h3 : gam n * ∑ k ∈ Ico a b, |fl (x k * y k)| ≤ gam n * ((1 + eps) * T + n * eta) :=
    mul_le_mul_of_nonneg_left h2 hg
  have e : s - ∑ k ∈ Ico a b, x k * y k = (s - ∑ k ∈ Ico a b, fl (x k * y k)) +
      (∑ k ∈ Ico a b, fl (x k * y k) - ∑ k ∈ Ico a b, x k * y k) := by ring
  rw [e]
  refine (abs_add_le _ _).trans ?_
  have e2 : gam (n + 1) * T + n * (1 + eps) ^ n * eta =
      gam n * ((1 + eps) * T + n * eta) + (eps * T + n * eta) := by
    rw [gam_succ]; unfold gam; ring
  rw [e2]
  exact add_le_add (h.trans h3) h1

theorem two_pow_cast (n : ℕ) : (2 : K) ^ n = 2 ^ (n : ℤ) := (zpow_natCast _ _).symm

/-- A sum of products below 2 ^ 1000 that is accumulated term by term. -/
theorem products_total {n : Nat} {f : Nat → Res K} {x y : Nat → K} (hn : n < 2 ^ 32)
    (hf : ∀ k, k < n → f k = mul (x k) (y k)) (hT : ∑ k ∈ range n, |x k * y k| ≤ 2 ^ 1000) :
    ∃ s, sumFrom 0 n f = .ok s ∧ IsDouble s ∧ |s - ∑ k ∈ range n, x k * y k| ≤
      ((n : K) + 1) / 2 ^ 52 * ∑ k ∈ range n, |x k * y k| + n / 2 ^ 1074 := by
  rw [range_eq_Ico] at hT ⊢
  have hone : ∀ k, k < n → |x k * y k| ≤ 2 ^ 1000 := fun k hk =>
    (single_le_sum (f := fun k => |x k * y k|) (fun _ _ => abs_nonneg _)
      (mem_Ico.2 ⟨Nat.zero_le k, hk⟩)).trans hT
  have e1000 : (2 : K) ^ 1000 = 2 ^ (1000 : ℤ) := two_pow_cast 1000
  have hf2 : ∀ k, 0 ≤ k → k < n → f k = .ok (fl (x k * y k)) := fun k _ hk => by
    rw [hf k hk]
    exact dbl_of_le (n := 1000) (by norm_num) (by norm_num) (e1000 ▸ hone k hk)
  have hh : n ≤ 2 ^ 40 := by omega
  have hfl : ∑ k ∈ Ico 0 n, |fl (x k * y k)| ≤ 2 ^ (1021 : ℤ) := by
    have h1 : ∑ k ∈ Ico 0 n, |fl (x k * y k)| ≤ ∑ k ∈ Ico 0 n, ((1 + eps) * |x k * y k| + eta) := by
      refine sum_le_sum fun k _ => ?_
      have h3 := fl_rel (x k * y k)
      have h4 := abs_sub_abs_le_abs_sub (fl (x k * y k)) (x k * y k)
      linarith
    rw [sum_add_distrib, ← mul_sum, sum_const, Nat.card_Ico, nsmul_eq_mul] at h1
    have h2 : (1 + eps : K) ≤ 2 := by unfold eps; norm_num
    have h3 : (1 + eps : K) * ∑ k ∈ Ico 0 n, |x k * y k| ≤ 2 * 2 ^ 1000 :=
      mul_le_mul h2 hT (sum_nonneg fun _ _ => abs_nonneg _) (by norm_num)
    have h4 : ((n - 0 : Nat) : K) * eta ≤ 2 ^ 40 * 1 := by
      refine mul_le_mul ?_ ?_ eta_pos.le (by positivity)
      · have : ((n - 0 : Nat) : K) ≤ ((2 ^ 40 : Nat) : K) := by exact_mod_cast (by omega : n - 0 ≤ 2 ^ 40)
        exact this.trans (le_of_eq (by norm_num))
      · unfold eta
        rw [← zpow_zero (2 : K)]
        exact zp_mono (by norm_num)
    refine (h1.trans (add_le_add h3 h4)).trans ?_
    rw [e1000]
    have h5 : (2 : K) ^ 40 * 1 ≤ 2 * 2 ^ (1000 : ℤ) := by
      have h6 : (2 : K) ^ (40 : ℤ) ≤ 2 ^ (1000 : ℤ) := zp_mono (by norm_num)
      have h7 : (2 : K) ^ (40 : ℤ) = 2 ^ 40 := (two_pow_cast 40).symm
      rw [h7] at h6
      rw [mul_one]
      exact h6.trans (le_mul_of_one_le_left (zp _).le (by norm_num))
    have h8 : (2 : K) * 2 ^ (1000 : ℤ) + 2 * 2 ^ (1000 : ℤ) = 2 ^ (1002 : ℤ) := by
      rw [show (1002 : ℤ) = 2 + 1000 by norm_num, zp_add]
      rw [← add_mul]
      congr 1
      norm_num
    refine (add_le_add_right h5 _).trans (h8.le.trans (zp_mono (by norm_num)))
  obtain ⟨s, e⟩ := sum_total (Nat.zero_le n) (by omega) hf2 (fun k _ _ => fl_isDouble _) hfl
  obtain ⟨h1, h2⟩ := dot_post (x := x) (y := y) (Nat.zero_le n)
    (fun k h1 h2 => by rw [hf2 k h1 h2]; exact Post.ok rfl) s e
  refine ⟨s, e, h1, h2.trans (add_le_add ?_ ?_)⟩
  · refine mul_le_mul_of_nonneg_right ?_ (sum_nonneg fun _ _ => abs_nonneg _)
    have := gam_le (K := K) (n := n - 0 + 1) (by omega)
    rw [Nat.sub_zero] at this ⊢
    exact this.trans (le_of_eq (by push_cast; rfl))
  · have h3 := pow_eps_le (K := K) (n := n - 0) (by omega)
    have h4 : ((n - 0 : Nat) : K) * (1 + eps) ^ (n - 0) * eta ≤ (n : K) * 2 * eta := by
      rw [Nat.sub_zero] at h3 ⊢
      exact mul_le_mul_of_nonneg_right (mul_le_mul_of_nonneg_left h3 (Nat.cast_nonneg n)) eta_pos.le
    refine h4.trans (le_of_eq ?_)
    have : (eta : K) = 1 / 2 ^ 1075 := by
      unfold eta; rw [zpow_neg, one_div, two_pow_cast 1075]; rfl
    rw [this, show (1075 : ℕ) = 1 + 1074 from rfl, pow_add]
    field_simp

end Rodeo.Dbl
