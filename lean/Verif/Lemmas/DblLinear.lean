import Verif.Model.DblLinear
import Verif.Spec.DblLinear
import Verif.Lemmas.Linear
import Verif.Props.DblLU
import Verif.Props.DblSum
import Mathlib.Algebra.BigOperators.Field

set_option linter.unusedSectionVars false

namespace Rodeo.Dbl
open Spec Finset

variable {K : Type} [Field K] [LinearOrder K] [IsStrictOrderedRing K] [FloorRing K]

theorem tiny_eq : (2 : K) ^ 124 * (1 / 2 ^ 1074) = 1 / 2 ^ 950 := by
  rw [show (1074 : ℕ) = 124 + 950 from rfl, pow_add, one_div, mul_inv, ← mul_assoc,
    mul_inv_cancel₀ (by positivity), one_mul, one_div]

theorem regressor_eq (X : Nat → Nat → K) : regressor X = augFun X := rfl

/-! ## Products -/

/-- The product of two matrices whose products of entries are not huge. -/
theorem matMatProduct_near {A B : Mat K} {n m q : Nat} {F G : Nat → Nat → K}
    (hA : IsMat A n m F) (hB : IsMat B m q G) (hm : m < 2 ^ 32)
    (hT : ∀ i j, i < n → j < q → ∑ k ∈ range m, |F i k * G k j| ≤ 2 ^ 1000) :
    ∃ C P, matMatProduct A B = .ok C ∧ IsMat C n q P ∧ ∀ i j, i < n → j < q → IsDouble (P i j) ∧
      |P i j - ∑ k ∈ range m, F i k * G k j| ≤
        ((m : K) + 1) / 2 ^ 52 * ∑ k ∈ range m, |F i k * G k j| + m / 2 ^ 1074 := by
  obtain ⟨hr, hc, -, -⟩ := id hA
  obtain ⟨hr', hc', -, -⟩ := id hB
  have ent : ∀ i j, i < n → j < q → ∃ s, (sumFrom 0 m fun k => do
      let a ← rawAt A.buf (k * n + i)
      let b ← rawAt B.buf (j * m + k)
      mul a b) = .ok s ∧ IsDouble s ∧ |s - ∑ k ∈ range m, F i k * G k j| ≤
        ((m : K) + 1) / 2 ^ 52 * ∑ k ∈ range m, |F i k * G k j| + m / 2 ^ 1074 := fun i j hi hj =>
    products_total hm (fun k hk => bind_eq (hA.raw hi hk rfl) (bind_eq (hB.raw hk hj rfl) rfl)) (hT i j hi hj)
  choose! P hP using ent
  have main : OkP (matMatProduct A B) (fun C => IsMat C n q P) := by
    unfold matMatProduct
    rw [if_neg (by omega), hr, hc, hr', hc']
    refine OkP.bind (Mat.okP_for (fun c d => Rep2 d n q (fun i j =>
        if i < c then some (P i j) else some 0)) ?_ ?_) ?_
    · exact (rep2_zeros _ _).start (by omega)
    · intro c d hc' hd
      refine (Mat.okP_for (fun r d => Rep2 d n q (fun i j =>
        if i < c ∨ (i = c ∧ j < r) then some (P i j) else some 0)) ?_ ?_).mono ?_
      · exact hd.cond (by omega)
      · intro r d hr' hd
        refine bind_okP (hP c r hc' hr').1 ?_
        exact hd.wr_next c r hc' hr' rfl rfl (by omega)
      · intro d hd
        exact hd.cond (by omega)
    · intro d hd
      refine OkP.bind (Mat.okP_freeze (hd.done (by omega))) ?_
      intro l hl
      exact okP_ok hl
  obtain ⟨C, e, h⟩ := main
  exact ⟨C, P, e, h, fun i j hi hj => (hP i j hi hj).2⟩

/-- A matrix-vector product that has been computed. -/
theorem matVecProduct_post {A : Mat K} {n m : Nat} {F : Nat → Nat → K} (hA : IsMat A n m F) {v : List K}
    (hv : v.length = m) (hm : m ≤ 2 ^ 32) :
    Post (matVecProduct A v) (fun r => r.length = n ∧ ∀ i, i < n → IsDouble (vecFun r i) ∧
      |vecFun r i - ∑ j ∈ range m, F i j * vecFun v j| ≤
        ((m : K) + 1) / 2 ^ 52 * ∑ j ∈ range m, |F i j * vecFun v j| + m / 2 ^ 1074) := by
  obtain ⟨hr, hc, -, -⟩ := id hA
  unfold matVecProduct
  rw [if_neg (by omega), hr, hc]
  intro r h
  obtain ⟨h1, h2⟩ := tab_inv h
  refine ⟨h1, fun i hi => ?_⟩
  obtain ⟨a, e1, e2⟩ := h2 i hi
  have e3 : vecFun r i = a := by simp [vecFun, e2]
  rw [e3]
  have h4 := dot_post (a := 0) (b := m) (x := fun j => F i j) (y := fun j => vecFun v j) (Nat.zero_le _)
    (f := fun j => do
      let a ← rawAt A.buf (j * n + i)
      let b ← vat v j
      mul a b) (fun k _ hk => by
        rw [bind_eq (hA.raw hi hk rfl) (bind_eq (Mat.vat_vecFun (by omega)) rfl)]
        intro s hs
        exact dbl_ok hs) a e1
  rw [← range_eq_Ico, Nat.sub_zero] at h4
  refine ⟨h4.1, h4.2.trans ?_⟩
  refine add_le_add (mul_le_mul_of_nonneg_right ?_ (sum_nonneg fun _ _ => abs_nonneg _)) ?_
  · have := gam_le (K := K) (n := m + 1) (by omega)
    push_cast at this
    exact this
  · have h5 := pow_eps_le (K := K) (n := m) (by omega)
    have h6 : (1 + eps : K) ^ m * eta ≤ 2 * eta := mul_le_mul_of_nonneg_right h5 eta_pos.le
    rw [two_eta_eq] at h6
    rw [mul_assoc, div_eq_mul_one_div]
    exact mul_le_mul_of_nonneg_left h6 (by positivity)

/-- The diagonal raised by a number. -/
theorem addDiagonal_ok {A : Mat K} {n : Nat} {F : Nat → Nat → K} (hA : IsMat A n n F) (e : K)
    (h : ∀ i, i < n → dbl (F i i + e) = .ok (fl (F i i + e))) : OkP (addEpsilonToDiagonal A e)
      (fun B => IsMat B n n (fun i j => if i = j then fl (F i j + e) else F i j)) := by
  obtain ⟨hr, hc, hl, hb⟩ := Mat.isMat_iff.1 hA
  unfold addEpsilonToDiagonal
  rw [hr, hc, Nat.min_self]
  refine OkP.bind (Mat.okP_for (fun k d => Rep2 d n n (fun i j =>
      if i = j ∧ i < k then some (fl (F i j + e)) else some (F i j))) ?_ ?_) ?_
  · exact (rep2_map_some hl hb).start (by omega)
  · intro i d hi hd
    refine bind_okP (hd.rd (i := i) (j := i) (v := F i i) hi hi rfl ?_) ?_
    · rw [if_neg (by omega)]
    · refine bind_okP (h i hi) ?_
      exact hd.wr_next (T := fun i j => some (fl (F i j + e))) i i hi hi rfl rfl (by omega)
  · intro d hd
    have : Rep2 d n n (fun i j => some (if i = j then fl (F i j + e) else F i j)) := by
      refine hd.congr (fun i j hi _ => ?_)
      by_cases h : i = j
      · rw [if_pos ⟨h, hi⟩, if_pos h]
      · rw [if_neg (by omega), if_neg h]
    refine OkP.bind (Mat.okP_freeze this) ?_
    intro l hl
    exact okP_ok hl

/-! ## The normal matrix -/

/-- The entries of the regularized normal matrix. -/
def normalMat (n : Nat) (X : Nat → Nat → K) (lambda : K) (i j : Nat) : K :=
  if i = j then (∑ k ∈ range n, augFun X k i * augFun X k j) + lambda
    else ∑ k ∈ range n, augFun X k i * augFun X k j

theorem aug_abs_le {n dim : Nat} {X : Nat → Nat → K} (hX : ∀ i j, i < n → j < dim → |X i j| ≤ 1)
    {k j : Nat} (hk : k < n) (hj : j < dim + 1) : |augFun X k j| ≤ 1 := by
  unfold augFun
  split_ifs with h
  · simp
  · exact hX k (j - 1) hk (by omega)

theorem gram_abs_le {n dim : Nat} {X : Nat → Nat → K} (hX : ∀ i j, i < n → j < dim → |X i j| ≤ 1)
    {i j : Nat} (hi : i < dim + 1) (hj : j < dim + 1) :
    ∑ k ∈ range n, |augFun X k i * augFun X k j| ≤ n := by
  refine (sum_le_sum (g := fun _ => (1 : K)) fun k hk => ?_).trans (le_of_eq (by simp))
  rw [abs_mul]
  have h1 := aug_abs_le hX (mem_range.1 hk) hi
  have h2 := aug_abs_le hX (mem_range.1 hk) hj
  exact mul_le_one₀ h1 (abs_nonneg _) h2

theorem gram_alg {N u z lambda g P M : K} (hN : 0 ≤ N) (hNs : N ≤ 2 ^ 25) (hu : u = 1 / 2 ^ 52)
    (hz : z ≤ 1 / 2 ^ 100) (hg : |g| ≤ N) (hl0 : 0 ≤ lambda) (hl : lambda ≤ 1 / 4)
    (hP : |P - g| ≤ (N + 1) * u * N + N * z) (hM : |M - (P + lambda)| ≤ 1 / 2 ^ 53 * |P + lambda|) :
    |P + lambda| ≤ N + 1 ∧ |P| ≤ N + 1 ∧ |M - (g + lambda)| ≤ (N + 2) ^ 2 * u ∧ |P - g| ≤ (N + 2) ^ 2 * u := by
  have h1 : N * z ≤ N * (1 / 2 ^ 100) := mul_le_mul_of_nonneg_left hz hN
  have h2 : N * N ≤ 2 ^ 25 * N := mul_le_mul_of_nonneg_right hNs hN
  subst hu
  have h3 : |P - g| ≤ 1 / 2 := by norm_num at *; linarith
  have e1 : |P| ≤ |P - g| + |g| := by
    have := abs_add_le (P - g) g
    rwa [sub_add_cancel] at this
  have e2 : |P + lambda| ≤ |P| + lambda := by
    have := abs_add_le P lambda
    rwa [abs_of_nonneg hl0] at this
  have e3 : |M - (g + lambda)| ≤ |M - (P + lambda)| + |P - g| := by
    have := abs_add_le (M - (P + lambda)) (P - g)
    rwa [show M - (P + lambda) + (P - g) = M - (g + lambda) by ring] at this
  have h4 : |P + lambda| ≤ N + 1 := by linarith
  refine ⟨h4, by linarith, ?_, ?_⟩
  · norm_num at *
    nlinarith
  · norm_num at *
    nlinarith

/-- The computed normal matrix. -/
theorem normal_near {A T : Mat K} {n dim : Nat} {X : Nat → Nat → K} {lambda : K}
    (hX : ∀ i j, i < n → j < dim → |X i j| ≤ 1) (hn : n ≤ 2 ^ 25) (hl0 : 0 < lambda) (hl : lambda ≤ 1 / 4)
    (hld : IsDouble lambda) (hA : IsMat A n (dim + 1) (augFun X))
    (hT : IsMat T (dim + 1) n (fun i j => augFun X j i)) :
    ∃ C M F, matMatProduct T A = .ok C ∧ addEpsilonToDiagonal C lambda = .ok M ∧
      IsMat M (dim + 1) (dim + 1) F ∧ ∀ i j, i < dim + 1 → j < dim + 1 → IsDouble (F i j) ∧ |F i j| ≤ n + 1 ∧
        |F i j - normalMat n X lambda i j| ≤ (n + 2) ^ 2 / 2 ^ 52 := by
  have hn2 : (n : K) ≤ 2 ^ 25 := by exact_mod_cast hn
  have e1000 : (2 : K) ^ 25 ≤ 2 ^ 1000 := pow_le_pow_right₀ (by norm_num) (by norm_num)
  obtain ⟨C, P, eC, hC, hP⟩ := matMatProduct_near hT hA (by omega) (fun i j hi hj =>
    (gram_abs_le hX hi hj).trans (hn2.trans e1000))
  have hz : (1 : K) / 2 ^ 1074 ≤ 1 / 2 ^ 100 :=
    one_div_le_one_div_of_le (by positivity) (pow_le_pow_right₀ (by norm_num) (by norm_num))
  have hP2 : ∀ i j, i < dim + 1 → j < dim + 1 →
      |P i j - ∑ k ∈ range n, augFun X k i * augFun X k j| ≤
        ((n : K) + 1) * (1 / 2 ^ 52) * n + n * (1 / 2 ^ 1074) := by
    intro i j hi hj
    refine (hP i j hi hj).2.trans (add_le_add ?_ (le_of_eq (by ring)))
    rw [div_eq_mul_one_div]
    exact mul_le_mul_of_nonneg_left (gram_abs_le hX hi hj) (by positivity)
  have hg : ∀ i j, i < dim + 1 → j < dim + 1 → |∑ k ∈ range n, augFun X k i * augFun X k j| ≤ n := fun i j hi hj =>
    (abs_sum_le_sum_abs _ _).trans (gram_abs_le hX hi hj)
  have key : ∀ i j, i < dim + 1 → j < dim + 1 → |P i j + lambda| ≤ n + 1 ∧ |P i j| ≤ n + 1 ∧
      |fl (P i j + lambda) - ((∑ k ∈ range n, augFun X k i * augFun X k j) + lambda)| ≤ ((n : K) + 2) ^ 2 * (1 / 2 ^ 52) ∧
      |P i j - ∑ k ∈ range n, augFun X k i * augFun X k j| ≤ ((n : K) + 2) ^ 2 * (1 / 2 ^ 52) := fun i j hi hj =>
    gram_alg (Nat.cast_nonneg n) hn2 rfl hz (hg i j hi hj) hl0.le hl (hP2 i j hi hj)
      (fl_add_rel (hP i j hi hj).1 hld)
  obtain ⟨M, eM, hM⟩ := addDiagonal_ok hC lambda (fun i hi => by
    refine dbl_of_le (n := 1000) (by norm_num) (by norm_num) ?_
    rw [show (2 : K) ^ (1000 : ℤ) = 2 ^ 1000 from (two_pow_cast 1000).symm]
    refine ((key i i hi hi).1.trans ?_).trans (pow_le_pow_right₀ (by norm_num) (by norm_num : 26 ≤ 1000))
    have h26 : (2 : K) ^ 25 + 1 ≤ 2 ^ 26 := by norm_num
    linarith)
  refine ⟨C, M, _, eC, eM, hM, fun i j hi hj => ?_⟩
  obtain ⟨k1, k2, k3, k4⟩ := key i j hi hj
  unfold normalMat
  by_cases h : i = j
  · rw [if_pos h, if_pos h]
    refine ⟨fl_isDouble _, ?_, k3.trans (le_of_eq (by ring))⟩
    have hd : IsDouble ((n : K) + 1) := by
      have := isDouble_nat (K := K) (n := n + 1) (by omega)
      push_cast at this
      exact this
    exact fl_abs_le_dbl hd k1
  · rw [if_neg h, if_neg h]
    exact ⟨(hP i j hi hj).1, k2, k4.trans (le_of_eq (by ring))⟩

/-- The normal equations in terms of the normal matrix. -/
theorem normalResidual_eq {n dim : Nat} (X : Nat → Nat → K) (y w : Nat → K) (lambda : K) {i : Nat} (hi : i < dim + 1) :
    normalResidual n dim X y lambda w i =
      ∑ j ∈ range (dim + 1), normalMat n X lambda i j * w j - ∑ k ∈ range n, augFun X k i * y k := by
  unfold normalResidual normalMat
  rw [regressor_eq]
  simp only [affine_eq]
  have e1 : ∀ j, (if i = j then (∑ k ∈ range n, augFun X k i * augFun X k j) + lambda
      else ∑ k ∈ range n, augFun X k i * augFun X k j) * w j =
      (∑ k ∈ range n, augFun X k i * augFun X k j) * w j + (if i = j then lambda * w j else 0) := by
    intro j; split_ifs <;> ring
  simp only [e1, sum_add_distrib]
  rw [sum_ite_eq, if_pos (mem_range.2 hi)]
  have e2 : ∑ j ∈ range (dim + 1), (∑ k ∈ range n, augFun X k i * augFun X k j) * w j =
      ∑ k ∈ range n, augFun X k i * ∑ j ∈ range (dim + 1), augFun X k j * w j := by
    simp only [sum_mul, mul_sum]
    rw [sum_comm]
    refine sum_congr rfl fun k _ => sum_congr rfl fun j _ => by ring
  rw [e2]
  simp only [mul_sub, sum_sub_distrib]
  ring

/-! ## The residual -/

/-- The sources of the residual of `w`, the product of a computed inverse with a computed right-hand side. -/
theorem residual_split {p : Nat} {M Mh G : Nat → Nat → K} {c ch w rho del : Nat → K} {e B ec : K} {i : Nat} (hi : i < p)
    (h1 : ∀ j, j < p → |Mh i j - M i j| ≤ e) (h2 : ∀ j, j < p → |Mh i j| ≤ B)
    (h3 : ∀ l, l < p → |∑ j ∈ range p, Mh i j * G j l - if i = l then 1 else 0| ≤ rho l)
    (h4 : ∀ j, j < p → |w j - ∑ l ∈ range p, G j l * ch l| ≤ del j) (h5 : |ch i - c i| ≤ ec) :
    |∑ j ∈ range p, M i j * w j - c i| ≤ e * ∑ j ∈ range p, |w j| + B * ∑ j ∈ range p, del j +
      ∑ l ∈ range p, rho l * |ch l| + ec := by
  have hB : 0 ≤ B := (abs_nonneg _).trans (h2 i hi)
  have e1 : ∑ l ∈ range p, (∑ j ∈ range p, Mh i j * G j l - if i = l then 1 else 0) * ch l =
      ∑ j ∈ range p, Mh i j * ∑ l ∈ range p, G j l * ch l - ch i := by
    simp only [sub_mul, sum_sub_distrib, ite_mul, one_mul, zero_mul]
    rw [sum_ite_eq, if_pos (mem_range.2 hi)]
    congr 1
    simp only [sum_mul, mul_sum]
    rw [sum_comm]
    refine sum_congr rfl fun k _ => sum_congr rfl fun j _ => by ring
  have e2 : ∑ j ∈ range p, M i j * w j - c i = -∑ j ∈ range p, (Mh i j - M i j) * w j +
      ∑ j ∈ range p, Mh i j * (w j - ∑ l ∈ range p, G j l * ch l) +
      ∑ l ∈ range p, (∑ j ∈ range p, Mh i j * G j l - if i = l then 1 else 0) * ch l + (ch i - c i) := by
    rw [e1]
    simp only [sub_mul, mul_sub, sum_sub_distrib]
    ring
  rw [e2]
  refine (abs_add_le _ _).trans (add_le_add ((abs_add_le _ _).trans (add_le_add
    ((abs_add_le _ _).trans (add_le_add ?_ ?_)) ?_)) h5)
  · rw [abs_neg, mul_sum]
    refine (abs_sum_le_sum_abs _ _).trans (sum_le_sum fun j hj => ?_)
    rw [abs_mul]
    exact mul_le_mul_of_nonneg_right (h1 j (mem_range.1 hj)) (abs_nonneg _)
  · rw [mul_sum]
    refine (abs_sum_le_sum_abs _ _).trans (sum_le_sum fun j hj => ?_)
    rw [abs_mul]
    exact mul_le_mul (h2 j (mem_range.1 hj)) (h4 j (mem_range.1 hj)) (abs_nonneg _) hB
  · refine (abs_sum_le_sum_abs _ _).trans (sum_le_sum fun j hj => ?_)
    rw [abs_mul]
    exact mul_le_mul_of_nonneg_right (h3 j (mem_range.1 hj)) (abs_nonneg _)

/-- The bounds of the sources added. `P` is the number of weights, `Q = 2 ^ P`, `N` the number of samples plus 1,
`g` the sum of the entries of the inverse, `S` that of the outputs. -/
theorem ridge_alg {P Q N g S z t : K} (hP : 1 ≤ P) (hPs : P ≤ 2 ^ 32) (hQ : 2 ≤ Q) (hPQ : 4 ≤ P * Q) (hN : 1 ≤ N) (hg : 0 ≤ g)
    (hS : t ≤ S) (ht : 0 < t) (ht1 : t ≤ 1) (hz0 : 0 ≤ z)
    (hz : 2 ^ 124 * z ≤ t) :
    N * ((P + 1) / 2 ^ 52 * (2 * S * g) + P * (P * z)) +
      2 * S * (P / 2 ^ 50 * (Q * N) * g + (P * P + (P + Q * N) * (g + 2 * (P * P))) * z) + N / 2 ^ 51 * S ≤
    P * Q * N / 2 ^ 48 * (g + 1) * S := by
  have hS0 : 0 < S := lt_of_lt_of_le ht hS
  have hP0 : 0 < P := by linarith
  have hQ0 : 0 < Q := by linarith
  have hN0 : 0 < N := by linarith
  have hPQN : 1 ≤ P * Q * N := by nlinarith
  -- with U = P Q N S
  have hU0 : 0 < P * Q * N * S := by positivity
  have hzS : 2 ^ 124 * z ≤ S := hz.trans hS
  have a1 : N * (P + 1) * S ≤ P * Q * N * S := by
    have : P + 1 ≤ P * Q := by nlinarith
    have := mul_le_mul_of_nonneg_left this (mul_pos hN0 hS0).le
    linarith
  have a1g := mul_le_mul_of_nonneg_right a1 hg
  have a2 : N * (P * (P * z)) * 2 ^ 92 ≤ P * Q * N * S := by
    have h1 : P * z ≤ 2 ^ 32 * z := mul_le_mul_of_nonneg_right hPs hz0
    have h2 : P * z * 2 ^ 92 ≤ S := by norm_num at *; linarith
    have h3 : P * z * 2 ^ 92 ≤ Q * S := h2.trans (le_mul_of_one_le_left hS0.le (by linarith))
    have := mul_le_mul_of_nonneg_left h3 (mul_pos hN0 hP0).le
    linarith
  have a3 : (P * P + (P + Q * N) * (g + 2 * (P * P))) * z * 2 ^ 55 ≤ P * Q * N * (g + 1) := by
    have b1 : P * P ≤ 2 ^ 32 * P := mul_le_mul_of_nonneg_right hPs hP0.le
    have b2 : P ≤ P * Q * N := by
      rw [mul_assoc]
      exact le_mul_of_one_le_right hP0.le (by nlinarith)
    have b3 : Q * N ≤ P * Q * N := by
      rw [mul_assoc]
      exact le_mul_of_one_le_left (by positivity) hP
    have b4 : g + 2 * (P * P) ≤ 2 ^ 65 * (g + 1) := by
      have : P * P ≤ 2 ^ 32 * 2 ^ 32 := mul_le_mul hPs hPs hP0.le (by positivity)
      norm_num at *
      linarith
    have b5 : (P + Q * N) * (g + 2 * (P * P)) ≤ (2 * (P * Q * N)) * (2 ^ 65 * (g + 1)) :=
      mul_le_mul (by linarith) b4 (by positivity) (by positivity)
    have b6 : P * P ≤ 2 ^ 32 * (P * Q * N * (g + 1)) := by
      have : P * Q * N ≤ P * Q * N * (g + 1) := le_mul_of_one_le_right (by positivity) (by linarith)
      linarith
    have b7 : P * P + (P + Q * N) * (g + 2 * (P * P)) ≤ 2 ^ 67 * (P * Q * N * (g + 1)) := by
      have : 0 ≤ P * Q * N * (g + 1) := by positivity
      norm_num at *
      linarith
    have b8 := mul_le_mul_of_nonneg_right b7 hz0
    have b9 : P * Q * N * (g + 1) * (2 ^ 124 * z) ≤ P * Q * N * (g + 1) * 1 :=
      mul_le_mul_of_nonneg_left (hz.trans ht1) (by positivity)
    have b10 : 0 ≤ P * Q * N * (g + 1) * z := by positivity
    generalize P * Q * N * (g + 1) = V at *
    norm_num at *
    linarith
  have a3S := mul_le_mul_of_nonneg_right a3 hS0.le
  have a4 : N * S * 4 ≤ P * Q * N * S := by
    have := mul_le_mul_of_nonneg_right hPQ (mul_pos hN0 hS0).le
    linarith
  have hUg : 0 ≤ P * Q * N * S * g := by positivity
  have e1 : N * ((P + 1) / 2 ^ 52 * (2 * S * g) + P * (P * z)) +
      2 * S * (P / 2 ^ 50 * (Q * N) * g + (P * P + (P + Q * N) * (g + 2 * (P * P))) * z) + N / 2 ^ 51 * S =
      N * (P + 1) * S * g / 2 ^ 51 + N * (P * (P * z)) + P * Q * N * S * g / 2 ^ 49 +
      2 * ((P * P + (P + Q * N) * (g + 2 * (P * P))) * z * S) + N * S / 2 ^ 51 := by ring
  have e2 : P * Q * N / 2 ^ 48 * (g + 1) * S = (P * Q * N * S * g + P * Q * N * S) / 2 ^ 48 := by ring
  have e3 : (P * P + (P + Q * N) * (g + 2 * (P * P))) * z * 2 ^ 55 * S =
    (P * P + (P + Q * N) * (g + 2 * (P * P))) * z * S * 2 ^ 55 := by ring
  have e4 : P * Q * N * (g + 1) * S = P * Q * N * S * g + P * Q * N * S := by ring
  rw [e1, e2]
  rw [e3, e4] at a3S
  clear e1 e2 e3 e4 a3
  generalize (P * P + (P + Q * N) * (g + 2 * (P * P))) * z * S = V at *
  generalize N * (P * (P * z)) = V2 at *
  generalize N * (P + 1) * S * g = V3 at *
  generalize N * S = V4 at *
  generalize P * Q * N * S * g = V5 at *
  generalize P * Q * N * S = U at *
  norm_num at a1g a2 a3S a4 ⊢
  linarith

/-- The right-hand side. -/
theorem rhs_alg {N S e z t : K} (hN : 1 ≤ N) (hNs : N ≤ 2 ^ 26) (hS : 0 ≤ S) (ht : 0 < t) (hz0 : 0 ≤ z) (hz : 2 ^ 124 * z ≤ t)
    (he : e ≤ N / 2 ^ 52 * S + (N - 1) * z) : e ≤ N / 2 ^ 51 * (S + t) ∧ e ≤ S + 2 * t := by
  have h1 : (N - 1) * z ≤ N * z := mul_le_mul_of_nonneg_right (by linarith) hz0
  have h2 : N * (2 ^ 124 * z) ≤ N * t := mul_le_mul_of_nonneg_left hz (by linarith)
  have h3 : N * S ≤ 2 ^ 26 * S := mul_le_mul_of_nonneg_right hNs hS
  have h4 : N * z ≤ 2 ^ 26 * z := mul_le_mul_of_nonneg_right hNs hz0
  have h5 : 0 ≤ N * z := by positivity
  have h6 : 0 ≤ N * S := by positivity
  have h7 : 0 ≤ N * t := by positivity
  have e1 : N / 2 ^ 51 * (S + t) = N * S / 2 ^ 51 + N * t / 2 ^ 51 := by ring
  have e2 : N / 2 ^ 52 * S = N * S / 2 ^ 52 := by ring
  have e3 : N * (2 ^ 124 * z) = 2 ^ 124 * (N * z) := by ring
  rw [e1]
  rw [e2] at he
  rw [e3] at h2
  generalize N * S = V at *
  generalize N * t = V1 at *
  generalize N * z = V2 at *
  norm_num at *
  constructor <;> linarith

/-- Weights that have been computed. -/
theorem ridgeWeights_post {m : LinearModel K} {n dim : Nat} {X : Nat → Nat → K} {lambda : K}
    (hdata : IsMat m.data.X n dim X) (hy : m.data.y.length = n) (hdim : m.dimension = dim) (hcnt : m.numberOfSamples = n)
    (hreg : m.regularization = some lambda) (hX : ∀ i j, i < n → j < dim → |X i j| ≤ 1) (hn0 : 0 < n) (hn : n ≤ 2 ^ 25)
    (hd0 : 0 < dim) (hd : dim < 2 ^ 32) (hl0 : 0 < lambda) (hl : lambda ≤ 1 / 4) (hld : IsDouble lambda)
    (hyS : ∑ i ∈ range n, |vecFun m.data.y i| ≤ 2 ^ 1000) :
    ∃ (M : Mat K) (F : Nat → Nat → K) (v : List K), IsMat M (dim + 1) (dim + 1) F ∧ (∀ i j, i < dim + 1 → j < dim + 1 → IsDouble (F i j) ∧ |F i j| ≤ n + 1 ∧
        |F i j - normalMat n X lambda i j| ≤ (n + 2) ^ 2 / 2 ^ 52) ∧
      v.length = dim + 1 ∧
      (∀ l, l < dim + 1 → |vecFun v l| ≤ 2 * (∑ i ∈ range n, |vecFun m.data.y i| + 1 / 2 ^ 950)) ∧
      ridgeWeights m = (invert M >>= fun inv => matVecProduct inv v) ∧
      Post (ridgeWeights m) (fun w => w.length = dim + 1 ∧ ∃ C G, invert M = .ok C ∧ IsMat C (dim + 1) (dim + 1) G ∧
        ∀ i, i < dim + 1 → IsDouble (vecFun w i) ∧
          |normalResidual n dim X (vecFun m.data.y) lambda (vecFun w) i| ≤
            ridgeError n dim (vecFun m.data.y) (vecFun w) G) := by
  obtain ⟨A, eA, hA⟩ := LinearModel.augmented_ok hdata
  obtain ⟨T, eT, hT⟩ := Mat.transpose_ok hA
  obtain ⟨C0, M, F, eC0, eM, hM, hF⟩ := normal_near hX hn hl0 hl hld hA hT
  have hn2 : (n : K) ≤ 2 ^ 25 := by exact_mod_cast hn
  have hrow : ∀ i, i < dim + 1 → ∑ j ∈ range n, |augFun X j i * vecFun m.data.y j| ≤ ∑ j ∈ range n, |vecFun m.data.y j| :=
    fun i hi => sum_le_sum fun k hk => by
      rw [abs_mul]
      exact mul_le_of_le_one_left (abs_nonneg _) (aug_abs_le hX (mem_range.1 hk) hi)
  obtain ⟨v, ev, hv1, hv2⟩ := C115_matVec hT hy (by omega) (fun i hi => (hrow i hi).trans hyS)
  have e0 : ridgeWeights m = (do
      let inv ← invert M
      matVecProduct inv v) := by
    unfold ridgeWeights
    rw [hcnt, hdim, bind_eq eA rfl, bind_eq eT rfl, bind_eq eC0 rfl, hreg]
    simp only
    rw [bind_eq eM rfl]
    cases invert M with
    | error e => rfl
    | ok C =>
      show (matVecProduct T m.data.y >>= fun v => matVecProduct C v) = matVecProduct C v
      exact bind_eq ev rfl
  -- constants
  set y := vecFun m.data.y with hyy
  set S := ∑ i ∈ range n, |y i| with hSd
  set t : K := 1 / 2 ^ 950 with htd
  set z : K := 1 / 2 ^ 1074 with hzd
  have hS0 : 0 ≤ S := sum_nonneg fun _ _ => abs_nonneg _
  have ht0 : 0 < t := by positivity
  have ht1 : t ≤ 1 := by
    rw [htd, div_le_one (by positivity)]
    exact one_le_pow₀ (by norm_num)
  have hz0 : 0 ≤ z := by positivity
  have hz : 2 ^ 124 * z ≤ t := tiny_eq.le
  have hN1 : (1 : K) ≤ n + 1 := by linarith [Nat.cast_nonneg (α := K) n]
  have h26 : (2 : K) ^ 25 + 1 ≤ 2 ^ 26 := by norm_num
  -- the right-hand side
  have hc : ∀ l, l < dim + 1 → |vecFun v l - ∑ k ∈ range n, augFun X k l * y k| ≤ (n + 1) / 2 ^ 51 * (S + t) ∧
      |vecFun v l| ≤ 2 * (S + t) := by
    intro l hl
    have h1 : |vecFun v l - ∑ k ∈ range n, augFun X k l * y k| ≤ ((n : K) + 1) / 2 ^ 52 * S + ((n : K) + 1 - 1) * z := by
      refine (hv2 l hl).trans (add_le_add (mul_le_mul_of_nonneg_left (hrow l hl) (by positivity)) (le_of_eq ?_))
      rw [hzd]; ring
    obtain ⟨h2, h3⟩ := rhs_alg hN1 (by linarith) hS0 ht0 hz0 hz h1
    refine ⟨h2, ?_⟩
    have h4 := abs_add_le (vecFun v l - ∑ k ∈ range n, augFun X k l * y k) (∑ k ∈ range n, augFun X k l * y k)
    rw [sub_add_cancel] at h4
    have h5 := (abs_sum_le_sum_abs (fun k => augFun X k l * y k) (range n)).trans (hrow l hl)
    linarith
  refine ⟨M, F, v, hM, hF, hv1, fun l hl => (hc l hl).2, e0, ?_⟩
  rw [e0]
  cases hC : invert M with
  | error e => exact Post.error
  | ok C =>
    have hB : IsDouble ((n : K) + 1) := by
      have := isDouble_nat (K := K) (n := n + 1) (by omega)
      push_cast at this
      exact this
    obtain ⟨G, hG, hinv, -⟩ := C130_inverse hM (by omega) hB (fun i j hi hj => ⟨(hF i j hi hj).1, (hF i j hi hj).2.1⟩) hC
    refine (matVecProduct_post hG hv1 (by omega)).mono ?_
    rintro w ⟨hw1, hw2⟩
    refine ⟨hw1, C, G, rfl, hG, fun i hi => ⟨(hw2 i hi).1, ?_⟩⟩
    set g := ∑ i ∈ range (dim + 1), ∑ j ∈ range (dim + 1), |G i j| with hgd
    have hg0 : 0 ≤ g := sum_nonneg fun _ _ => sum_nonneg fun _ _ => abs_nonneg _
    rw [normalResidual_eq X y _ lambda hi]
    have hsp := residual_split (M := normalMat n X lambda) (Mh := F) (G := G) (ch := vecFun v) (w := vecFun w) hi
      (c := fun l => ∑ k ∈ range n, augFun X k l * y k)
      (fun j hj => (hF i j hi hj).2.2) (fun j hj => (hF i j hi hj).2.1) (fun l hl => hinv i l hi hl)
      (fun j hj => (hw2 j hj).2) (hc i hi).1
    refine hsp.trans ?_
    unfold ridgeError
    rw [add_assoc, add_assoc]
    refine add_le_add le_rfl ?_
    have hcol : ∑ l ∈ range (dim + 1), ∑ k ∈ range (dim + 1), |G k l| = g := by rw [sum_comm]
    have hdel : ∑ j ∈ range (dim + 1), ((((dim + 1 : Nat) : K) + 1) / 2 ^ 52 * ∑ l ∈ range (dim + 1), |G j l * vecFun v l| +
        ((dim + 1 : Nat) : K) / 2 ^ 1074) ≤
        (((dim + 1 : Nat) : K) + 1) / 2 ^ 52 * (2 * (S + t) * g) + ((dim + 1 : Nat) : K) * (((dim + 1 : Nat) : K) * z) := by
      rw [sum_add_distrib, sum_const, card_range, nsmul_eq_mul, ← mul_sum]
      refine add_le_add (mul_le_mul_of_nonneg_left ?_ (by positivity)) (le_of_eq (by rw [hzd]; ring))
      rw [hgd, mul_sum]
      refine sum_le_sum fun j hj => ?_
      rw [mul_sum]
      refine sum_le_sum fun l hl => ?_
      rw [abs_mul, mul_comm]
      exact mul_le_mul_of_nonneg_right (hc l (mem_range.1 hl)).2 (abs_nonneg _)
    have hrho : ∑ l ∈ range (dim + 1), (((dim + 1 : Nat) : K) / 2 ^ 50 * (2 ^ (dim + 1) * ((n : K) + 1)) *
        ∑ k ∈ range (dim + 1), |G k l| + (((dim + 1 : Nat) : K) + (((dim + 1 : Nat) : K) + 2 ^ (dim + 1) * ((n : K) + 1)) *
          ∑ k ∈ range (dim + 1), (|G k l| + 2)) / 2 ^ 1074) * |vecFun v l| ≤
        2 * (S + t) * (((dim + 1 : Nat) : K) / 2 ^ 50 * (2 ^ (dim + 1) * ((n : K) + 1)) * g +
          (((dim + 1 : Nat) : K) * ((dim + 1 : Nat) : K) + (((dim + 1 : Nat) : K) + 2 ^ (dim + 1) * ((n : K) + 1)) *
            (g + 2 * (((dim + 1 : Nat) : K) * ((dim + 1 : Nat) : K)))) * z) := by
      refine (sum_le_sum fun l hl => mul_le_mul_of_nonneg_left (hc l (mem_range.1 hl)).2 ?_).trans ?_
      · have : 0 ≤ ∑ k ∈ range (dim + 1), |G k l| := sum_nonneg fun _ _ => abs_nonneg _
        have h2 : 0 ≤ ∑ k ∈ range (dim + 1), (|G k l| + 2) := sum_nonneg fun _ _ => by positivity
        positivity
      · rw [← sum_mul, mul_comm]
        refine mul_le_mul_of_nonneg_left (le_of_eq ?_) (by positivity)
        simp only [sum_add_distrib, ← mul_sum, ← sum_div, hcol, sum_const, card_range, nsmul_eq_mul]
        rw [hzd]
        push_cast
        ring
    have hBd := mul_le_mul_of_nonneg_left hdel (by linarith : (0 : K) ≤ n + 1)
    have hP1 : (1 : K) ≤ ((dim + 1 : Nat) : K) := by exact_mod_cast Nat.succ_le_succ (Nat.zero_le dim)
    have hP2 : (2 : K) ≤ ((dim + 1 : Nat) : K) := by exact_mod_cast (by omega : 2 ≤ dim + 1)
    have hQ : (2 : K) ≤ 2 ^ (dim + 1) := by
      have := pow_le_pow_right₀ (by norm_num : (1 : K) ≤ 2) (by omega : 1 ≤ dim + 1)
      rwa [pow_one] at this
    have halg := ridge_alg (P := ((dim + 1 : Nat) : K)) (Q := 2 ^ (dim + 1)) (N := (n : K) + 1) (g := g) (S := S + t) (z := z) (t := t)
      hP1 (by exact_mod_cast (by omega : dim + 1 ≤ 2 ^ 32)) hQ (by nlinarith) hN1 hg0 (by linarith) ht0 ht1 hz0 hz
    have e9 : ((dim + 1 : Nat) : K) = (dim : K) + 1 := by push_cast; ring
    have fin := (add_le_add (add_le_add hBd hrho) (le_refl (((n : K) + 1) / 2 ^ 51 * (S + t)))).trans halg
    rw [add_assoc] at fin
    refine fin.trans (le_of_eq ?_)
    rw [e9]

/-! ## The least squares error near the solution -/

/-- The regularized error at another point. -/
theorem ridgeLoss_expand (n dim : Nat) (X : Nat → Nat → K) (y w d : Nat → K) (lambda : K) :
    ridgeLoss n dim X y lambda (fun j => w j + d j) = ridgeLoss n dim X y lambda w +
      2 * ∑ j ∈ range (dim + 1), d j * normalResidual n dim X y lambda w j +
      (∑ i ∈ range n, (∑ j ∈ range (dim + 1), augFun X i j * d j) ^ 2 + lambda * ∑ j ∈ range (dim + 1), d j ^ 2) := by
  unfold ridgeLoss normalResidual
  rw [regressor_eq]
  simp only [affine_eq]
  have e1 : ∑ j ∈ range (dim + 1), d j * (∑ k ∈ range n, augFun X k j *
      (∑ j ∈ range (dim + 1), augFun X k j * w j - y k) + lambda * w j) =
      ∑ k ∈ range n, (∑ j ∈ range (dim + 1), augFun X k j * d j) * (∑ j ∈ range (dim + 1), augFun X k j * w j - y k) +
        lambda * ∑ j ∈ range (dim + 1), d j * w j := by
    simp only [mul_add, sum_add_distrib]
    congr 1
    · simp only [sum_mul, mul_sum]
      rw [sum_comm]
      exact sum_congr rfl fun k _ => sum_congr rfl fun j _ => by
        ring
    · rw [mul_sum]
      exact sum_congr rfl fun j _ => by ring
  rw [e1]
  have e2 : ∀ i, ∑ j ∈ range (dim + 1), augFun X i j * (w j + d j) =
      ∑ j ∈ range (dim + 1), augFun X i j * w j + ∑ j ∈ range (dim + 1), augFun X i j * d j := by
    intro i
    simp only [mul_add, sum_add_distrib]
  simp only [e2]
  have e3 : ∑ i ∈ range n, (y i - (∑ j ∈ range (dim + 1), augFun X i j * w j + ∑ j ∈ range (dim + 1), augFun X i j * d j)) ^ 2 =
      ∑ i ∈ range n, (y i - ∑ j ∈ range (dim + 1), augFun X i j * w j) ^ 2 +
      2 * ∑ k ∈ range n, (∑ j ∈ range (dim + 1), augFun X k j * d j) * (∑ j ∈ range (dim + 1), augFun X k j * w j - y k) +
      ∑ i ∈ range n, (∑ j ∈ range (dim + 1), augFun X i j * d j) ^ 2 := by
    rw [mul_sum, ← sum_add_distrib, ← sum_add_distrib]
    exact sum_congr rfl fun i _ => by ring
  have e4 : ∑ j ∈ range (dim + 1), (w j + d j) ^ 2 = ∑ j ∈ range (dim + 1), w j ^ 2 +
      2 * ∑ j ∈ range (dim + 1), d j * w j + ∑ j ∈ range (dim + 1), d j ^ 2 := by
    rw [mul_sum, ← sum_add_distrib, ← sum_add_distrib]
    exact sum_congr rfl fun i _ => by ring
  rw [e3, e4]; ring

/-- Weights with a small residual have nearly the least error. -/
theorem ridgeLoss_near {n dim : Nat} {X : Nat → Nat → K} {y w : Nat → K} {lambda : K} (hl : 0 < lambda) (w' : Nat → K) :
    ridgeLoss n dim X y lambda w ≤ ridgeLoss n dim X y lambda w' +
      (∑ j ∈ range (dim + 1), normalResidual n dim X y lambda w j ^ 2) / lambda := by
  have e := ridgeLoss_expand n dim X y w (fun j => w' j - w j) lambda
  simp only [add_sub_cancel] at e
  have p1 : 0 ≤ ∑ i ∈ range n, (∑ j ∈ range (dim + 1), augFun X i j * (w' j - w j)) ^ 2 :=
    sum_nonneg fun i _ => sq_nonneg _
  have p2 : 0 ≤ ∑ j ∈ range (dim + 1), (2 * ((w' j - w j) * normalResidual n dim X y lambda w j) + lambda * (w' j - w j) ^ 2 +
      normalResidual n dim X y lambda w j ^ 2 / lambda) := by
    refine sum_nonneg fun j _ => ?_
    have h : 2 * ((w' j - w j) * normalResidual n dim X y lambda w j) + lambda * (w' j - w j) ^ 2 +
      normalResidual n dim X y lambda w j ^ 2 / lambda =
        (lambda * (w' j - w j) + normalResidual n dim X y lambda w j) ^ 2 / lambda := by
      field_simp
      ring
    rw [h]; positivity
  rw [sum_add_distrib, sum_add_distrib, ← mul_sum, ← mul_sum, ← sum_div] at p2
  rw [e]
  linarith

/-- Weights with a small residual are near the minimizer. -/
theorem ridge_near {n dim : Nat} {X : Nat → Nat → K} {y w u : Nat → K} {lambda : K} (hl : 0 < lambda)
    (hu : IsRidge n dim X y lambda u) :
    lambda ^ 2 * ∑ j ∈ range (dim + 1), (u j - w j) ^ 2 ≤
      4 * ∑ j ∈ range (dim + 1), normalResidual n dim X y lambda w j ^ 2 := by
  have e := ridgeLoss_expand n dim X y w (fun j => u j - w j) lambda
  simp only [add_sub_cancel] at e
  have p1 : 0 ≤ ∑ i ∈ range n, (∑ j ∈ range (dim + 1), augFun X i j * (u j - w j)) ^ 2 :=
    sum_nonneg fun i _ => sq_nonneg _
  have h1 := (hu w).1
  have h2 : 2 * ∑ j ∈ range (dim + 1), (u j - w j) * normalResidual n dim X y lambda w j +
      lambda * ∑ j ∈ range (dim + 1), (u j - w j) ^ 2 ≤ 0 := by linarith
  have h3 := mul_le_mul_of_nonneg_left h2 hl.le
  have h4 : ∑ j ∈ range (dim + 1), lambda ^ 2 * (u j - w j) ^ 2 ≤ ∑ j ∈ range (dim + 1),
      (2 * lambda ^ 2 * (u j - w j) ^ 2 + 4 * lambda * ((u j - w j) * normalResidual n dim X y lambda w j) +
        4 * normalResidual n dim X y lambda w j ^ 2) := by
    refine sum_le_sum fun j _ => ?_
    nlinarith [sq_nonneg (lambda * (u j - w j) + 2 * normalResidual n dim X y lambda w j)]
  simp only [sum_add_distrib, ← mul_sum] at h4
  nlinarith

/-! ## The regularized normal matrix is far from singular -/

/-- The quadratic form of a matrix near the regularized normal matrix. -/
theorem normal_coercive {n p : Nat} {X F : Nat → Nat → K} {lambda e : K} (x : Nat → K)
    (hF : ∀ i j, i < p → j < p → |F i j - normalMat n X lambda i j| ≤ e) :
    lambda * ∑ i ∈ range p, x i ^ 2 ≤ ∑ i ∈ range p, |x i| * |∑ j ∈ range p, F i j * x j| + e * (∑ i ∈ range p, |x i|) ^ 2 := by
  have h1 : ∑ i ∈ range p, x i * ∑ j ∈ range p, normalMat n X lambda i j * x j =
      ∑ k ∈ range n, (∑ j ∈ range p, augFun X k j * x j) ^ 2 + lambda * ∑ i ∈ range p, x i ^ 2 := by
    have e1 : ∀ i ∈ range p, x i * ∑ j ∈ range p, normalMat n X lambda i j * x j =
        ∑ k ∈ range n, (augFun X k i * x i) * ∑ j ∈ range p, augFun X k j * x j + lambda * x i ^ 2 := by
      intro i hi
      have e2 : ∀ j, normalMat n X lambda i j * x j = (∑ k ∈ range n, augFun X k i * augFun X k j) * x j +
          (if i = j then lambda * x j else 0) := by
        intro j; unfold normalMat; split_ifs <;> ring
      simp only [e2, sum_add_distrib]
      rw [sum_ite_eq, if_pos hi, mul_add]
      congr 1
      · simp only [sum_mul, mul_sum]
        rw [sum_comm]
        exact sum_congr rfl fun k _ => sum_congr rfl fun j _ => by ring
      · ring
    rw [sum_congr rfl e1, sum_add_distrib, ← mul_sum, sum_comm]
    congr 1
    exact sum_congr rfl fun k _ => by rw [← sum_mul, sq]
  have h2 : 0 ≤ ∑ k ∈ range n, (∑ j ∈ range p, augFun X k j * x j) ^ 2 := sum_nonneg fun _ _ => sq_nonneg _
  have h3 : ∑ i ∈ range p, x i * ∑ j ∈ range p, normalMat n X lambda i j * x j ≤
      ∑ i ∈ range p, (|x i| * |∑ j ∈ range p, F i j * x j| + |x i| * (e * ∑ j ∈ range p, |x j|)) := by
    refine sum_le_sum fun i hi => ?_
    have e1 : ∑ j ∈ range p, normalMat n X lambda i j * x j = ∑ j ∈ range p, F i j * x j -
        ∑ j ∈ range p, (F i j - normalMat n X lambda i j) * x j := by
      rw [← sum_sub_distrib]
      exact sum_congr rfl fun j _ => by ring
    have e2 : |∑ j ∈ range p, (F i j - normalMat n X lambda i j) * x j| ≤ e * ∑ j ∈ range p, |x j| := by
      rw [mul_sum]
      refine (abs_sum_le_sum_abs _ _).trans (sum_le_sum fun j hj => ?_)
      rw [abs_mul]
      exact mul_le_mul_of_nonneg_right (hF i j (mem_range.1 hi) (mem_range.1 hj)) (abs_nonneg _)
    refine (le_abs_self _).trans ?_
    rw [abs_mul, ← mul_add]
    refine mul_le_mul_of_nonneg_left ?_ (abs_nonneg _)
    rw [e1]
    exact (abs_sub _ _).trans (add_le_add le_rfl e2)
  rw [h1, sum_add_distrib, ← sum_mul] at h3
  linarith

/-- What a vector that is nearly mapped to a small one satisfies. -/
theorem small_image {n p : Nat} {X F : Nat → Nat → K} {lambda e a b : K} {x : Nat → K} (hl : 0 < lambda)
    (ha : 0 ≤ a)
    (hF : ∀ i j, i < p → j < p → |F i j - normalMat n X lambda i j| ≤ e)
    (himg : ∑ i ∈ range p, |x i| * |∑ j ∈ range p, F i j * x j| ≤ a * ∑ i ∈ range p, |x i| + b * (∑ i ∈ range p, |x i|) ^ 2)
    (hsmall : p * (b + e) ≤ lambda / 2) (hbe : 0 ≤ b + e) :
    lambda ^ 2 * ∑ i ∈ range p, x i ^ 2 ≤ 4 * a ^ 2 * p ∧ lambda * ∑ i ∈ range p, |x i| ≤ 2 * a * p := by
  have h1 := normal_coercive x hF
  set s := ∑ i ∈ range p, x i ^ 2 with hs
  set S := ∑ i ∈ range p, |x i| with hS
  have hs0 : 0 ≤ s := sum_nonneg fun _ _ => sq_nonneg _
  have hS0 : 0 ≤ S := sum_nonneg fun _ _ => abs_nonneg _
  have hcs : S ^ 2 ≤ p * s := by
    have := sq_sum_le_card_mul_sum_sq (s := range p) (f := fun i => |x i|)
    simp only [sq_abs, card_range] at this
    exact this
  have h2 : lambda * s ≤ a * S + (b + e) * S ^ 2 := by linarith
  have h3 : (b + e) * S ^ 2 ≤ (b + e) * (p * s) := mul_le_mul_of_nonneg_left hcs hbe
  have h4 : p * (b + e) * s ≤ lambda / 2 * s := mul_le_mul_of_nonneg_right hsmall hs0
  have h5 : lambda * s ≤ 2 * a * S := by linarith
  have h6 : (lambda * s) ^ 2 ≤ (2 * a * S) ^ 2 := pow_le_pow_left₀ (by positivity) h5 2
  have h7 : 4 * a ^ 2 * S ^ 2 ≤ 4 * a ^ 2 * (p * s) := mul_le_mul_of_nonneg_left hcs (by positivity)
  have h8 : lambda ^ 2 * s ≤ 4 * a ^ 2 * p := by
    rcases eq_or_lt_of_le hs0 with h0 | h0
    · rw [← h0, mul_zero]; positivity
    · refine le_of_mul_le_mul_right ?_ h0
      nlinarith
  refine ⟨h8, ?_⟩
  have h9 : (lambda * S) ^ 2 ≤ (2 * a * p) ^ 2 := by
    have h10 : lambda ^ 2 * S ^ 2 ≤ lambda ^ 2 * (p * s) := mul_le_mul_of_nonneg_left hcs (by positivity)
    have h11 : p * (lambda ^ 2 * s) ≤ p * (4 * a ^ 2 * p) := mul_le_mul_of_nonneg_left h8 (Nat.cast_nonneg _)
    nlinarith
  exact (pow_le_pow_iff_left₀ (by positivity) (by positivity) two_ne_zero).1 h9

end Rodeo.Dbl
