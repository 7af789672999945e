import Verif.Lemmas.DblSum
import Verif.Spec.Mat
import Mathlib.Data.Rat.Floor

/-! # C115: sums, means and products of vectors and matrices in double arithmetic -/

set_option linter.unusedSectionVars false

namespace Rodeo

open Spec Dbl Finset

variable {K : Type} [Field K] [LinearOrder K] [IsStrictOrderedRing K] [FloorRing K]

theorem rawAt_vecFun {v : List K} {i : Nat} (h : i < v.length) : rawAt v i = .ok (vecFun v i) := by
  rw [rawAt_ok_of_lt h]; simp [vecFun, h]

/-- C115: the dot product of two vectors of the same length whose products are not huge is computed
without overflow, with an error of at most `(n + 1) 2 ^ (-52)` of the sum of the absolute products, plus
`n` times the smallest positive double. -/
theorem C115_dot {v w : List K} {n : Nat} (hv : v.length = n) (hw : w.length = n) (hn : n < 2 ^ 32)
    (hT : ∑ i ∈ range n, |vecFun v i * vecFun w i| ≤ 2 ^ 1000) :
    ∃ s, Dbl.dot v w = .ok s ∧ IsDouble s ∧ |s - ∑ i ∈ range n, vecFun v i * vecFun w i| ≤
      ((n : K) + 1) / 2 ^ 52 * ∑ i ∈ range n, |vecFun v i * vecFun w i| + n / 2 ^ 1074 := by
  unfold Dbl.dot
  rw [if_neg (by omega), hv]
  refine products_total hn ?_ hT
  intro k hk
  exact bind_eq (rawAt_vecFun (by omega)) (bind_eq (rawAt_vecFun (by omega)) rfl)

/-- C115: vectors of different lengths are refused. -/
theorem C115_dot_refused {v w : List K} (h : v.length ≠ w.length) :
    Dbl.dot v w = .error .invalidArgument := by
  unfold Dbl.dot; rw [if_pos h]

/-- C115: each entry of a computed matrix-vector product has the accuracy of a dot product. -/
theorem C115_matVec {A : Mat K} {n m : Nat} {F : Nat → Nat → K} (hA : IsMat A n m F) {v : List K}
    (hv : v.length = m) (hm : m < 2 ^ 32)
    (hT : ∀ i, i < n → ∑ j ∈ range m, |F i j * vecFun v j| ≤ 2 ^ 1000) :
    ∃ r, Dbl.matVecProduct A v = .ok r ∧ r.length = n ∧ ∀ i, i < n →
      |vecFun r i - ∑ j ∈ range m, F i j * vecFun v j| ≤
        ((m : K) + 1) / 2 ^ 52 * ∑ j ∈ range m, |F i j * vecFun v j| + m / 2 ^ 1074 := by
  obtain ⟨hr, hc, -, -⟩ := id hA
  unfold Dbl.matVecProduct
  rw [if_neg (by omega), hr, hc]
  have row : ∀ i, i < n → ∃ s, (sumFrom 0 m fun j => do
      let a ← rawAt A.buf (j * n + i)
      let b ← vat v j
      mul a b) = .ok s ∧ IsDouble s ∧ |s - ∑ j ∈ range m, F i j * vecFun v j| ≤
        ((m : K) + 1) / 2 ^ 52 * ∑ j ∈ range m, |F i j * vecFun v j| + m / 2 ^ 1074 := fun i hi =>
    products_total hm (fun j hj => bind_eq (hA.raw hi hj rfl) (bind_eq (Mat.vat_vecFun (by omega)) rfl)) (hT i hi)
  choose! g hg using row
  refine ⟨_, tab_ok (g := g) fun i hi => (hg i hi).1, by simp, fun i hi => ?_⟩
  have : vecFun ((List.range n).map g) i = g i := by simp [vecFun, hi]
  rw [this]
  exact (hg i hi).2.2

/-- C115: the mean of a nonempty vector of doubles. -/
theorem C115_mean {v : List K} {n : Nat} (hv : v.length = n) (h0 : 0 < n) (hn : n < 2 ^ 32)
    (hd : Doubles v) (hT : ∑ i ∈ range n, |vecFun v i| ≤ 2 ^ 1000) :
    ∃ s, Dbl.mean v = .ok s ∧ IsDouble s ∧ |s - (∑ i ∈ range n, vecFun v i) / n| ≤
      ((n : K) + 1) / 2 ^ 52 * ((∑ i ∈ range n, |vecFun v i|) / n) + 1 / 2 ^ 1075 := by
  unfold Dbl.mean
  rw [if_neg (by omega), hv]
  rw [range_eq_Ico] at hT ⊢
  have hf : ∀ k, 0 ≤ k → k < n → rawAt v k = .ok (vecFun v k) := fun k _ hk => rawAt_vecFun (by omega)
  have hx : ∀ k, 0 ≤ k → k < n → IsDouble (vecFun v k) := fun k _ hk => by
    have : vecFun v k = v[k]'(by omega) := by simp [vecFun, hv, hk]
    rw [this]
    exact hd _ (List.getElem_mem _)
  have hT2 : ∑ i ∈ Ico 0 n, |vecFun v i| ≤ 2 ^ (1021 : ℤ) := by
    refine hT.trans ?_
    rw [two_pow_cast]
    exact zp_mono (by norm_num)
  obtain ⟨s, e⟩ := sum_total (Nat.zero_le n) (by omega) hf hx hT2
  obtain ⟨h1, h2⟩ := sum_post (Nat.zero_le n) (fun k h1 h2 => by rw [hf k h1 h2]; exact Post.ok rfl) hx s e
  rw [Nat.sub_zero] at h2
  have hn0 : (0 : K) < n := by exact_mod_cast h0
  have hn1 : (1 : K) ≤ n := by exact_mod_cast h0
  have hST : |∑ k ∈ Ico 0 n, vecFun v k| ≤ ∑ k ∈ Ico 0 n, |vecFun v k| := abs_sum_le_sum_abs _ _
  have hT0 : 0 ≤ ∑ k ∈ Ico 0 n, |vecFun v k| := sum_nonneg fun _ _ => abs_nonneg _
  have hg1 : gam n ≤ (1 : K) := by
    have := pow_eps_le (K := K) (n := n) (by omega)
    unfold gam; linarith
  have hg := gam_le (K := K) (n := n + 1) (by omega)
  rw [gam_succ] at hg
  push_cast at hg
  generalize ∑ k ∈ Ico 0 n, |vecFun v k| = T at *
  generalize ∑ k ∈ Ico 0 n, vecFun v k = S at *
  have hs : |s| ≤ |s - S| + T := by
    have := abs_add_le (s - S) S
    rw [sub_add_cancel] at this
    linarith
  have hsT : |s| ≤ T + T := by
    have : gam n * T ≤ 1 * T := mul_le_mul_of_nonneg_right hg1 hT0
    linarith
  have hq : |s / n| ≤ T + T := by
    rw [abs_div, abs_of_pos hn0]
    exact (div_le_self (abs_nonneg _) hn1).trans hsT
  refine ⟨fl (s / n), bind_eq e ?_, fl_isDouble _, ?_⟩
  · unfold Dbl.div
    rw [if_neg hn0.ne']
    refine dbl_of_le (n := 1022) (by norm_num) (by norm_num) (hq.trans ((add_le_add hT2 hT2).trans (le_of_eq ?_)))
    rw [show (1022 : ℤ) = 1 + 1021 by norm_num, zp_add, zpow_one, two_mul]
  · have h3 := fl_rel (s / n : K)
    have e2 : fl (s / n) - S / n = (fl (s / n) - s / n) + (s - S) / n := by ring
    rw [e2]
    have h4 : |s / n| ≤ (|s - S| + T) / n := by
      rw [abs_div, abs_of_pos hn0]
      exact div_le_div_of_nonneg_right hs hn0.le
    have h5 : |(s - S) / n| ≤ gam n * T / n := by
      rw [abs_div, abs_of_pos hn0]
      exact div_le_div_of_nonneg_right h2 hn0.le
    have h5' : |s - S| / n ≤ gam n * T / n := div_le_div_of_nonneg_right h2 hn0.le
    have he := eps_pos (K := K)
    have h6 : eps * |s / n| ≤ eps * (gam n * T / n + T / n) :=
      mul_le_mul_of_nonneg_left (h4.trans (by rw [add_div]; linarith)) he.le
    have h7 : ((1 + eps) * gam n + eps) * (T / n) ≤ (n + 1) / 2 ^ 52 * (T / n) :=
      mul_le_mul_of_nonneg_right hg (div_nonneg hT0 hn0.le)
    have e3 : ((1 + eps) * gam n + eps) * (T / n) = gam n * T / n + eps * (gam n * T / n + T / n) := by ring
    have e4 : (eta : K) = 1 / 2 ^ 1075 := by
      unfold eta; rw [zpow_neg, one_div, two_pow_cast 1075]; rfl
    rw [← e4]
    refine (abs_add_le _ _).trans ?_
    linarith

/-- C115: the mean of no numbers is refused. -/
theorem C115_mean_refused : Dbl.mean ([] : List K) = .error .runtimeError := rfl

/-- 0.1 + 0.2 + 0.3 is computed as 0.6000000000000001. -/
example : Dbl.dot (K := ℚ) [fl (1 / 10), fl (2 / 10), fl (3 / 10)] [1, 1, 1] = .ok (fl (6000000000000001 / 10 ^ 16)) ∧
    fl (6000000000000001 / 10 ^ 16 : ℚ) ≠ fl (6 / 10) := by decide +kernel

/-- The theorem applies to it. -/
example : ∃ s, Dbl.dot (K := ℚ) [fl (1 / 10), fl (2 / 10), fl (3 / 10)] [1, 1, 1] = .ok s ∧ IsDouble s ∧
    |s - ∑ i ∈ range 3, vecFun [fl (1 / 10), fl (2 / 10), fl (3 / 10)] i * vecFun [1, 1, 1] i| ≤
      (((3 : Nat) : ℚ) + 1) / 2 ^ 52 *
        ∑ i ∈ range 3, |vecFun [fl (1 / 10), fl (2 / 10), fl (3 / 10)] i * vecFun [1, 1, 1] i| +
        ((3 : Nat) : ℚ) / 2 ^ 1074 :=
  C115_dot rfl rfl (by norm_num) (by decide +kernel)

example : ∃ s, Dbl.mean (K := ℚ) [fl (1 / 10), fl (2 / 10), fl (3 / 10)] = .ok s ∧ IsDouble s ∧
    |s - (∑ i ∈ range 3, vecFun [fl (1 / 10), fl (2 / 10), fl (3 / 10)] i) / ((3 : Nat) : ℚ)| ≤
      (((3 : Nat) : ℚ) + 1) / 2 ^ 52 *
        ((∑ i ∈ range 3, |vecFun [fl (1 / 10), fl (2 / 10), fl (3 / 10)] i|) / ((3 : Nat) : ℚ)) + 1 / 2 ^ 1075 :=
  C115_mean rfl (by norm_num) (by norm_num) (by
    intro x hx
    simp only [List.mem_cons, List.not_mem_nil, or_false] at hx
    rcases hx with rfl | rfl | rfl <;> exact fl_isDouble _) (by decide +kernel)

end Rodeo
