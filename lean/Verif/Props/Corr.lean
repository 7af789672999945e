import Verif.Lemmas.Corr
import Mathlib.Analysis.SpecialFunctions.Pow.Deriv
import Mathlib.Analysis.SpecialFunctions.ExpDeriv
import Mathlib.Analysis.Calculus.Deriv.Abs
import Mathlib.Analysis.InnerProductSpace.NormPow

set_option linter.unusedSectionVars false

/-! # Correlation matrices and correlation derivatives (C51, C52) -/

namespace Rodeo
open Rodeo.Spec Rodeo.Corr Rodeo.Mat Finset

theorem Corr.vecFun_nonneg {v : List ℝ} (h : ∀ t ∈ v, 0 ≤ t) (k : Nat) : 0 ≤ vecFun v k := by
  unfold vecFun
  by_cases hk : k < v.length
  · simp only [List.getD, List.getElem?_eq_getElem hk, Option.getD_some]
    exact h _ (List.getElem_mem hk)
  · simp [List.getD, hk]

theorem Corr.gaussCorr_pos (m : Nat) (t x y : Nat → ℝ) : 0 < gaussCorr m t x y := Real.exp_pos _

theorem Corr.gaussCorr_le_one {m : Nat} {t : Nat → ℝ} (ht : ∀ k, 0 ≤ t k) (x y : Nat → ℝ) :
    gaussCorr m t x y ≤ 1 := by
  rw [gaussCorr, Real.exp_le_one_iff, neg_nonpos]
  exact sum_nonneg (fun k _ => mul_nonneg (ht k) (sq_nonneg _))

theorem Corr.gaussCorr_comm (m : Nat) (t x y : Nat → ℝ) : gaussCorr m t x y = gaussCorr m t y x := by
  unfold gaussCorr
  congr 2
  exact sum_congr rfl (fun k _ => by ring)

theorem Corr.gaussCorr_self (m : Nat) (t x : Nat → ℝ) : gaussCorr m t x x = 1 := by
  simp [gaussCorr]

theorem Corr.expCorr_pos (m : Nat) (t g x y : Nat → ℝ) : 0 < expCorr m t g x y := Real.exp_pos _

theorem Corr.expCorr_le_one {m : Nat} {t : Nat → ℝ} (ht : ∀ k, 0 ≤ t k) (g x y : Nat → ℝ) :
    expCorr m t g x y ≤ 1 := by
  rw [expCorr, Real.exp_le_one_iff, neg_nonpos]
  exact sum_nonneg (fun k _ => mul_nonneg (ht k) (Real.rpow_nonneg (abs_nonneg _) _))

theorem Corr.expCorr_comm (m : Nat) (t g x y : Nat → ℝ) :
    expCorr m t g x y = expCorr m t g y x := by
  unfold expCorr
  congr 2
  exact sum_congr rfl (fun k _ => by rw [abs_sub_comm])

/-- The Gaussian correlation of two coordinate lists. -/
theorem Corr.gaussian_real {a b theta : List ℝ} {m : Nat} (h1 : m ≤ a.length) (h2 : m ≤ b.length)
    (h3 : m ≤ theta.length) :
    gaussian Real.exp a b theta m = .ok (gaussCorr m (vecFun theta) (vecFun a) (vecFun b)) := by
  rw [gaussian_ok h1 h2 h3, gaussCorr]
  congr 3
  exact sum_congr rfl (fun k _ => by ring)

/-- The exponential correlation of two coordinate lists, for exponents that are not negative. -/
theorem Corr.exponential_real {a b theta gamma : List ℝ} {m : Nat} (h1 : m ≤ a.length)
    (h2 : m ≤ b.length) (h3 : m ≤ theta.length) (h4 : m ≤ gamma.length)
    (hg : ∀ g ∈ gamma, 0 ≤ g) :
    exponential Real.exp realPow a b theta gamma m =
      .ok (expCorr m (vecFun theta) (vecFun gamma) (vecFun a) (vecFun b)) := by
  refine exponential_ok h1 h2 h3 h4 (fun k _ => ?_)
  unfold realPow
  rw [if_neg]
  rintro ⟨-, h⟩
  exact absurd (vecFun_nonneg hg k) (not_le.2 h)

theorem Corr.gaussCorr_congr {m : Nat} {t x y x' y' : Nat → ℝ} (h1 : ∀ k, k < m → x k = x' k)
    (h2 : ∀ k, k < m → y k = y' k) : gaussCorr m t x y = gaussCorr m t x' y' := by
  unfold gaussCorr
  congr 2
  exact sum_congr rfl (fun k hk => by
    rw [h1 k (mem_range.1 hk), h2 k (mem_range.1 hk)])

theorem Corr.expCorr_congr {m : Nat} {t g x y x' y' : Nat → ℝ} (h1 : ∀ k, k < m → x k = x' k)
    (h2 : ∀ k, k < m → y k = y' k) : expCorr m t g x y = expCorr m t g x' y' := by
  unfold expCorr
  congr 2
  exact sum_congr rfl (fun k hk => by
    rw [h1 k (mem_range.1 hk), h2 k (mem_range.1 hk)])

/-- The Gaussian correlation matrix of any sample matrix is computed, and it is symmetric with unit
diagonal and entries in `(0,1]`; each entry is the correlation of the two samples. -/
theorem C51_gaussian {X : Mat ℝ} {n m : Nat} {F : Nat → Nat → ℝ} (hX : IsMat X n m F)
    {theta : List ℝ} (hl : theta.length = m) (h0 : ∀ t ∈ theta, 0 ≤ t) :
    ∃ R G, corrMatrixGaussian Real.exp X theta = .ok R ∧ IsMat R n n G ∧ IsCorrelation n G ∧
      ∀ i j, i < n → j < n → G i j = gaussCorr m (vecFun theta) (F i) (F j) := by
  have hc : X.ncols = m := hX.2.1
  unfold corrMatrixGaussian
  rw [if_neg (by omega), hc]
  obtain ⟨R, hR, hG⟩ := corrMatrixNaive_ok (C := fun i j => gaussCorr m (vecFun theta) (F i) (F j)) hX
    (corr := fun a b => gaussian Real.exp a b theta m) (fun i j _ _ => by
      rw [gaussian_real (by simp) (by simp) (by omega)]
      exact congrArg _ (gaussCorr_congr (fun k hk => vecFun_map (F i) hk)
        (fun k hk => vecFun_map (F j) hk)))
  have he : ∀ i j, i < n → j < n → (if i = j then 1 else if j < i then
      gaussCorr m (vecFun theta) (F i) (F j) else gaussCorr m (vecFun theta) (F j) (F i)) =
      gaussCorr m (vecFun theta) (F i) (F j) := by
    intro i j _ _
    split_ifs with h1 h2
    · rw [h1, gaussCorr_self]
    · rfl
    · exact gaussCorr_comm _ _ _ _
  refine ⟨R, _, hR, hG.congr he, ⟨?_, ?_, ?_⟩, fun _ _ _ _ => rfl⟩
  · exact fun i j _ _ => gaussCorr_comm _ _ _ _
  · exact fun i _ => gaussCorr_self _ _ _
  · exact fun i j _ _ => ⟨gaussCorr_pos _ _ _ _, gaussCorr_le_one (vecFun_nonneg h0) _ _⟩

/-- The exponential correlation matrix, for exponents that are not negative. -/
theorem C51_exponential {X : Mat ℝ} {n m : Nat} {F : Nat → Nat → ℝ} (hX : IsMat X n m F)
    {theta gamma : List ℝ} (hl : theta.length = m) (hl' : gamma.length = m)
    (h0 : ∀ t ∈ theta, 0 ≤ t) (hg : ∀ g ∈ gamma, 0 ≤ g) :
    ∃ R G, corrMatrixExponential Real.exp realPow X theta gamma = .ok R ∧ IsMat R n n G ∧
      IsCorrelation n G ∧
      ∀ i j, i < n → j < n → i ≠ j →
        G i j = expCorr m (vecFun theta) (vecFun gamma) (F i) (F j) := by
  have hc : X.ncols = m := hX.2.1
  unfold corrMatrixExponential corrMatrixExponentialNaive
  rw [if_neg (by omega), if_neg (by omega), hc]
  obtain ⟨R, hR, hG⟩ := corrMatrixNaive_ok
    (C := fun i j => expCorr m (vecFun theta) (vecFun gamma) (F i) (F j)) hX
    (corr := fun a b => exponential Real.exp realPow a b theta gamma m) (fun i j _ _ => by
      rw [exponential_real (by simp) (by simp) (by omega) (by omega) hg]
      exact congrArg _ (expCorr_congr (fun k hk => vecFun_map (F i) hk)
        (fun k hk => vecFun_map (F j) hk)))
  have he : ∀ i j, i < n → j < n → (if i = j then 1 else if j < i then
      expCorr m (vecFun theta) (vecFun gamma) (F i) (F j) else
      expCorr m (vecFun theta) (vecFun gamma) (F j) (F i)) =
      if i = j then 1 else expCorr m (vecFun theta) (vecFun gamma) (F i) (F j) := by
    intro i j _ _
    split_ifs with h1 h2
    · rfl
    · rfl
    · exact expCorr_comm _ _ _ _ _
  refine ⟨R, _, hR, hG.congr he, ⟨?_, ?_, ?_⟩, fun i j _ _ hij => if_neg hij⟩
  · intro i j _ _
    by_cases h : i = j
    · rw [h]
    · beta_reduce
      rw [if_neg h, if_neg (Ne.symm h)]
      exact expCorr_comm _ _ _ _ _
  · exact fun i _ => if_pos rfl
  · intro i j _ _
    beta_reduce
    split_ifs
    · exact ⟨one_pos, le_refl _⟩
    · exact ⟨expCorr_pos _ _ _ _ _, expCorr_le_one (vecFun_nonneg h0) _ _ _⟩

/-- A matrix of weights of the wrong size is rejected by both functions. -/
theorem C51_sizes (X : Mat ℝ) (theta gamma : List ℝ) :
    (theta.length ≠ X.ncols → corrMatrixGaussian Real.exp X theta = .error .invalidArgument) ∧
    (theta.length ≠ X.ncols ∨ gamma.length ≠ X.ncols →
      corrMatrixExponential Real.exp realPow X theta gamma = .error .invalidArgument) := by
  constructor
  · intro h
    unfold corrMatrixGaussian
    rw [if_pos (by omega)]
  · intro h
    unfold corrMatrixExponential
    by_cases h1 : theta.length ≠ gamma.length
    · rw [if_pos h1]
    · rw [if_neg h1, if_pos (by omega)]

/-- Gaussian: samples `i'`, `j'` of `X'` that are in no coordinate closer to each other than samples
`i`, `j` of `X` (which may be the same matrix) have no larger correlation, and a strictly smaller
one if they are further apart in a coordinate of positive weight. -/
theorem C51_gaussian_decreasing {X X' R R' : Mat ℝ} {n n' m : Nat} {F F' G G' : Nat → Nat → ℝ}
    (hX : IsMat X n m F) (hX' : IsMat X' n' m F') {theta : List ℝ} (hl : theta.length = m)
    (h0 : ∀ t ∈ theta, 0 ≤ t) (hR : corrMatrixGaussian Real.exp X theta = .ok R)
    (hR' : corrMatrixGaussian Real.exp X' theta = .ok R') (hG : IsMat R n n G)
    (hG' : IsMat R' n' n' G') {i j i' j' : Nat} (hi : i < n) (hj : j < n) (hi' : i' < n')
    (hj' : j' < n') (hd : ∀ k, k < m → |F i k - F j k| ≤ |F' i' k - F' j' k|) :
    G' i' j' ≤ G i j ∧
    ((∃ k, k < m ∧ 0 < vecFun theta k ∧ |F i k - F j k| < |F' i' k - F' j' k|) →
      G' i' j' < G i j) := by
  obtain ⟨R1, G1, e1, e2, -, e3⟩ := C51_gaussian hX hl h0
  obtain ⟨R2, G2, f1, f2, -, f3⟩ := C51_gaussian hX' hl h0
  rw [hR] at e1; cases e1
  rw [hR'] at f1; cases f1
  rw [(isMat_unique hG e2).2.2 i j hi hj, (isMat_unique hG' f2).2.2 i' j' hi' hj', e3 i j hi hj,
    f3 i' j' hi' hj', gaussCorr, gaussCorr]
  have hle : ∀ k ∈ range m, vecFun theta k * (F i k - F j k) ^ 2 ≤
      vecFun theta k * (F' i' k - F' j' k) ^ 2 := by
    intro k hk
    exact mul_le_mul_of_nonneg_left (sq_le_sq.2 (hd k (mem_range.1 hk))) (vecFun_nonneg h0 k)
  constructor
  · exact Real.exp_le_exp.2 (neg_le_neg (sum_le_sum hle))
  · rintro ⟨k, hk, hp, hlt⟩
    refine Real.exp_lt_exp.2 (neg_lt_neg (sum_lt_sum hle ⟨k, mem_range.2 hk, ?_⟩))
    exact mul_lt_mul_of_pos_left (sq_lt_sq.2 hlt) hp

/-- Exponential: the same for two pairs of different samples; strictness needs a positive exponent
as well. -/
theorem C51_exponential_decreasing {X X' R R' : Mat ℝ} {n n' m : Nat} {F F' G G' : Nat → Nat → ℝ}
    (hX : IsMat X n m F) (hX' : IsMat X' n' m F') {theta gamma : List ℝ} (hl : theta.length = m)
    (hl' : gamma.length = m) (h0 : ∀ t ∈ theta, 0 ≤ t) (hg : ∀ g ∈ gamma, 0 ≤ g)
    (hR : corrMatrixExponential Real.exp realPow X theta gamma = .ok R)
    (hR' : corrMatrixExponential Real.exp realPow X' theta gamma = .ok R') (hG : IsMat R n n G)
    (hG' : IsMat R' n' n' G') {i j i' j' : Nat} (hi : i < n) (hj : j < n) (hi' : i' < n')
    (hj' : j' < n') (hne' : i' ≠ j')
    (hd : ∀ k, k < m → |F i k - F j k| ≤ |F' i' k - F' j' k|) :
    G' i' j' ≤ G i j ∧
    ((∃ k, k < m ∧ 0 < vecFun theta k ∧ 0 < vecFun gamma k ∧
        |F i k - F j k| < |F' i' k - F' j' k|) → G' i' j' < G i j) := by
  obtain ⟨R1, G1, e1, e2, ⟨-, ed, -⟩, e3⟩ := C51_exponential hX hl hl' h0 hg
  obtain ⟨R2, G2, f1, f2, -, f3⟩ := C51_exponential hX' hl hl' h0 hg
  rw [hR] at e1; cases e1
  rw [hR'] at f1; cases f1
  rw [(isMat_unique hG e2).2.2 i j hi hj, (isMat_unique hG' f2).2.2 i' j' hi' hj',
    f3 i' j' hi' hj' hne']
  have hle : ∀ k ∈ range m, vecFun theta k * |F i k - F j k| ^ vecFun gamma k ≤
      vecFun theta k * |F' i' k - F' j' k| ^ vecFun gamma k := by
    intro k hk
    exact mul_le_mul_of_nonneg_left (Real.rpow_le_rpow (abs_nonneg _) (hd k (mem_range.1 hk))
      (vecFun_nonneg hg k)) (vecFun_nonneg h0 k)
  by_cases hij : i = j
  · subst hij
    rw [ed i hi]
    refine ⟨expCorr_le_one (vecFun_nonneg h0) _ _ _, ?_⟩
    rintro ⟨k, hk, hp, hgp, hlt⟩
    rw [expCorr, Real.exp_lt_one_iff, neg_lt_zero]
    refine sum_pos' (fun k _ => mul_nonneg (vecFun_nonneg h0 k)
      (Real.rpow_nonneg (abs_nonneg _) _)) ⟨k, mem_range.2 hk, ?_⟩
    exact mul_pos hp (Real.rpow_pos_of_pos (lt_of_le_of_lt (abs_nonneg _) hlt) _)
  · rw [e3 i j hi hj hij, expCorr, expCorr]
    constructor
    · exact Real.exp_le_exp.2 (neg_le_neg (sum_le_sum hle))
    · rintro ⟨k, hk, hp, hgp, hlt⟩
      refine Real.exp_lt_exp.2 (neg_lt_neg (sum_lt_sum hle ⟨k, mem_range.2 hk, ?_⟩))
      exact mul_lt_mul_of_pos_left (Real.rpow_lt_rpow (abs_nonneg _) hlt hgp) hp

/-- Three samples in two dimensions. -/
example : IsMat (⟨3, 2, [0, 1, 3, 0, 1, 1]⟩ : Mat ℝ) 3 2
    (fun i j => ([0, 1, 3, 0, 1, 1] : List ℝ).getD (j * 3 + i) 0) ∧
    ([1, 2] : List ℝ).length = 2 ∧ ∀ t ∈ ([1, 2] : List ℝ), 0 ≤ t := by
  refine ⟨⟨rfl, rfl, rfl, ?_⟩, rfl, by simp⟩
  intro i j hi hj
  have h1 : i = 0 ∨ i = 1 ∨ i = 2 := by omega
  have h2 : j = 0 ∨ j = 1 := by omega
  rcases h1 with rfl | rfl | rfl <;> rcases h2 with rfl | rfl <;> rfl

/-- `computeCorrelation` of a Gaussian correlation object returns the correlation. -/
theorem C52_value {s : GaussCorr ℝ} {xi xj : List ℝ} {m : Nat} (h1 : xi.length = m)
    (h2 : xj.length = m) (h3 : s.theta.length = m) :
    s.computeCorrelation Real.exp xi xj =
      .ok (gaussCorr m (vecFun s.theta) (vecFun xi) (vecFun xj)) := by
  unfold GaussCorr.computeCorrelation
  rw [h1]
  exact gaussian_real (by omega) (by omega) (by omega)

/-- The derivative of the Gaussian correlation along `d` in the second point, at any point. -/
theorem Corr.hasDerivAt_gaussCorr (m : Nat) (t x y d : Nat → ℝ) (s : ℝ) :
    HasDerivAt (fun s => gaussCorr m t x (fun k => y k + s * d k))
      ((∑ k ∈ range m, 2 * t k * (x k - (y k + s * d k)) * d k) *
        gaussCorr m t x (fun k => y k + s * d k)) s := by
  unfold gaussCorr
  have h1 : ∀ k ∈ range m, HasDerivAt (fun s => t k * (x k - (y k + s * d k)) ^ 2)
      (-(2 * t k * (x k - (y k + s * d k)) * d k)) s := by
    intro k _
    have e : HasDerivAt (fun s => x k - (y k + s * d k)) (-d k) s := by
      have := (((hasDerivAt_id s).mul_const (d k)).const_add (y k)).const_sub (x k)
      simpa using this
    have := (e.pow 2).const_mul (t k)
    refine this.congr_deriv ?_
    push_cast
    ring
  have h2 := (HasDerivAt.fun_sum h1).neg.exp
  refine h2.congr_deriv ?_
  rw [sum_neg_distrib, neg_neg, mul_comm]
  rfl

/-- First derivative: the value returned is the derivative of the correlation when the second point
moves along the direction. -/
theorem C52_first {s : GaussCorr ℝ} {xi xj d : List ℝ} {m : Nat} (h1 : xi.length = m)
    (h2 : xj.length = m) (h3 : d.length = m) (h4 : s.theta.length = m) :
    ∃ v, s.computeCorrelationDot Real.exp xi xj d = .ok v ∧
      HasDerivAt (fun t => gaussCorr m (vecFun s.theta) (vecFun xi)
        (fun k => vecFun xj k + t * vecFun d k)) v 0 := by
  unfold GaussCorr.computeCorrelationDot
  rw [h1]
  refine ⟨_, gaussianDot_ok (by omega) (by omega) (by omega) (by omega), ?_⟩
  refine (hasDerivAt_gaussCorr m (vecFun s.theta) (vecFun xi) (vecFun xj) (vecFun d) 0).congr_deriv ?_
  simp only [zero_mul, add_zero, gaussCorr]
  congr 1
  · rw [mul_sum]
    exact sum_congr rfl (fun k _ => by ring)
  · congr 2
    exact sum_congr rfl (fun k _ => by ring)

/-- Second derivative: the value returned is the derivative along the second direction of the
derivative along the first direction, both taken in the second point. -/
theorem C52_second {s : GaussCorr ℝ} {xi xj d1 d2 : List ℝ} {m : Nat} (h1 : xi.length = m)
    (h2 : xj.length = m) (h3 : d1.length = m) (h4 : d2.length = m) (h5 : s.theta.length = m) :
    ∃ v, s.computeCorrelationDotDot Real.exp xi xj d1 d2 = .ok v ∧
      HasDerivAt (fun t => deriv (fun u => gaussCorr m (vecFun s.theta) (vecFun xi)
        (fun k => vecFun xj k + t * vecFun d2 k + u * vecFun d1 k)) 0) v 0 := by
  unfold GaussCorr.computeCorrelationDotDot
  rw [h1]
  refine ⟨_, gaussianDotDot_ok (by omega) (by omega) (by omega) (by omega) (by omega), ?_⟩
  have e : (fun t => deriv (fun u => gaussCorr m (vecFun s.theta) (vecFun xi)
        (fun k => vecFun xj k + t * vecFun d2 k + u * vecFun d1 k)) 0) =
      fun t => (∑ k ∈ range m, 2 * vecFun s.theta k *
        (vecFun xi k - (vecFun xj k + t * vecFun d2 k)) * vecFun d1 k) *
        gaussCorr m (vecFun s.theta) (vecFun xi) (fun k => vecFun xj k + t * vecFun d2 k) := by
    funext t
    rw [(hasDerivAt_gaussCorr m (vecFun s.theta) (vecFun xi)
      (fun k => vecFun xj k + t * vecFun d2 k) (vecFun d1) 0).deriv]
    simp only [zero_mul, add_zero]
  rw [e]
  have hs : HasDerivAt (fun t => ∑ k ∈ range m, 2 * vecFun s.theta k *
        (vecFun xi k - (vecFun xj k + t * vecFun d2 k)) * vecFun d1 k)
      (∑ k ∈ range m, -(2 * vecFun s.theta k * vecFun d1 k * vecFun d2 k)) (0 : ℝ) := by
    refine HasDerivAt.fun_sum (fun k _ => ?_)
    have := (((((hasDerivAt_id (0 : ℝ)).mul_const (vecFun d2 k)).const_add (vecFun xj k)).const_sub
      (vecFun xi k)).const_mul (2 * vecFun s.theta k)).mul_const (vecFun d1 k)
    refine this.congr_deriv ?_
    ring
  refine (hs.mul (hasDerivAt_gaussCorr m (vecFun s.theta) (vecFun xi) (vecFun xj)
    (vecFun d2) 0)).congr_deriv ?_
  simp only [zero_mul, add_zero, gaussCorr, sum_neg_distrib]
  have e2 : ∑ k ∈ range m, vecFun s.theta k * (vecFun xi k - vecFun xj k) *
      (vecFun xi k - vecFun xj k) = ∑ k ∈ range m, vecFun s.theta k *
      (vecFun xi k - vecFun xj k) ^ 2 := sum_congr rfl (fun k _ => by ring)
  rw [e2]
  ring

/-- The derivative with respect to the first point is the opposite of the value returned. -/
theorem C52_first_argument {s : GaussCorr ℝ} {xi xj d : List ℝ} {m : Nat} (h1 : xi.length = m)
    (h2 : xj.length = m) (h3 : d.length = m) (h4 : s.theta.length = m) :
    ∃ v, s.computeCorrelationDot Real.exp xi xj d = .ok v ∧
      HasDerivAt (fun t => gaussCorr m (vecFun s.theta)
        (fun k => vecFun xi k + t * vecFun d k) (vecFun xj)) (-v) 0 := by
  obtain ⟨v, e1, -⟩ := C52_first h1 h2 h3 h4
  refine ⟨v, e1, ?_⟩
  obtain ⟨w, f1, f2⟩ := C52_first (s := s) h2 h1 h3 h4
  have hw : w = -v := by
    unfold GaussCorr.computeCorrelationDot at e1 f1
    rw [h1, gaussianDot_ok (by omega) (by omega) (by omega) (by omega)] at e1
    rw [h2, gaussianDot_ok (by omega) (by omega) (by omega) (by omega)] at f1
    rw [← Except.ok.inj e1, ← Except.ok.inj f1, neg_mul_eq_neg_mul]
    congr 1
    · rw [mul_sum, mul_sum, ← sum_neg_distrib]
      exact sum_congr rfl (fun k _ => by ring)
    · congr 2
      exact sum_congr rfl (fun k _ => by ring)
  rw [← hw]
  refine f2.congr_of_eventuallyEq (Filter.Eventually.of_forall fun t => ?_)
  exact gaussCorr_comm _ _ _ _

/-- Two points of dimension two with two directions. -/
example : ([1, 2] : List ℝ).length = 2 ∧
    ({ (GaussCorr.new : GaussCorr ℝ) with theta := [3, 4] } : GaussCorr ℝ).theta.length = 2 :=
  ⟨rfl, rfl⟩

/-! ## Derivative of the exponential correlation -/

/-- If every term has a derivative, so has the exponential correlation. -/
theorem Corr.hasDerivAt_expCorr {m : Nat} {t g x y d w : Nat → ℝ}
    (h : ∀ k, k < m → HasDerivAt (fun s => |x k - (y k + s * d k)| ^ g k) (w k) 0) :
    HasDerivAt (fun s => expCorr m t g x (fun k => y k + s * d k))
      (-(expCorr m t g x y * ∑ k ∈ range m, t k * w k)) 0 := by
  unfold expCorr
  have h1 : ∀ k ∈ range m, HasDerivAt (fun s => t k * |x k - (y k + s * d k)| ^ g k)
      (t k * w k) 0 := fun k hk => (h k (mem_range.1 hk)).const_mul (t k)
  have h2 := (HasDerivAt.fun_sum h1).neg.exp
  refine h2.congr_deriv ?_
  have e : ∀ k, y k + 0 * d k = y k := fun k => by ring
  simp only [Pi.neg_apply, e]
  ring

/-- The derivative of one term, with the two branches of the program. -/
theorem Corr.hasDerivAt_term {x y d g : ℝ} (h : x ≠ y ∨ 1 < g) :
    HasDerivAt (fun s => |x - (y + s * d)| ^ g)
      (g * (absDiff x y d).2 ^ (g - 1) * (absDiff x y d).1) 0 := by
  have e : HasDerivAt (fun s => x - (y + s * d)) (-d) 0 := by
    have := (((hasDerivAt_id (0 : ℝ)).mul_const d).const_add y).const_sub x
    simpa using this
  rcases eq_or_ne x y with hxy | hxy
  · have hg : 1 < g := h.resolve_left (not_not.2 hxy)
    subst hxy
    have e0 : HasDerivAt (fun x : ℝ => |x| ^ g) _ (x - (x + 0 * d)) := hasDerivAt_abs_rpow _ hg
    refine (e0.comp (0 : ℝ) e).congr_deriv ?_
    simp [absDiff, Real.zero_rpow (sub_pos.2 hg).ne']
  · have hne : x - (y + 0 * d) ≠ 0 := by simpa [sub_eq_zero] using hxy
    have e0 : HasDerivAt (fun s => |x - (y + s * d)|) (SignType.sign (x - (y + 0 * d)) * -d) 0 :=
      HasDerivAt.comp (h₂ := fun z : ℝ => |z|) (0 : ℝ) (hasDerivAt_abs hne) e
    have e1 := e0.rpow_const (p := g) (Or.inl (abs_ne_zero.2 hne))
    refine e1.congr_deriv ?_
    simp only [zero_mul, add_zero, absDiff] at hne ⊢
    split_ifs with hp
    · rw [sign_pos (lt_of_le_of_ne hp (Ne.symm hne)), abs_of_nonneg hp]
      simp only [SignType.coe_one]; ring
    · rw [sign_neg (not_le.1 hp), abs_of_neg (not_le.1 hp)]
      simp only [SignType.coe_neg, SignType.coe_one]; ring

theorem Corr.absDiff_abs (x y d : ℝ) : (absDiff x y d).2 = |x - y| := by
  unfold absDiff
  split_ifs with h
  · exact (abs_of_nonneg h).symm
  · exact (abs_of_neg (not_le.1 h)).symm

/-- The full statement: wherever the exponential correlation has a derivative along the direction
(in the second point), the value returned is that derivative. -/
def C71_full : Prop := ∀ (s : ExpCorr ℝ) (m : Nat) (xi xj d : List ℝ) (v : ℝ),
    xi.length = m → xj.length = m → d.length = m → s.theta.length = m → s.gamma.length = m →
    (∀ t ∈ s.theta, 0 ≤ t) → (∀ g ∈ s.gamma, 0 < g ∧ g ≤ 2) →
    HasDerivAt (fun t => expCorr m (vecFun s.theta) (vecFun s.gamma) (vecFun xi)
      (fun k => vecFun xj k + t * vecFun d k)) v 0 →
    s.computeCorrelationDot Real.exp realPow xi xj d = .ok v

/-- The points `(0,1)` and `(0,0)` agree in the first coordinate, whose exponent is one half; along
the second axis the correlation has a derivative, but the program computes zero times infinity. -/
theorem C71_false : ¬ C71_full := by
  intro h
  have h1 := h ⟨Base.new, [1, 1], [1 / 2, 2]⟩ 2 [0, 1] [0, 0] [0, 1]
    (-(expCorr 2 (vecFun [1, 1]) (vecFun [1 / 2, 2]) (vecFun [0, 1]) (vecFun [0, 0]) *
      ∑ k ∈ range 2, vecFun [1, 1] k * (if k = 0 then 0 else 2 * (absDiff (1 : ℝ) 0 1).2 ^ ((2 : ℝ) - 1)
        * (absDiff (1 : ℝ) 0 1).1))) rfl rfl rfl rfl rfl (by simp)
      (by
        intro g hg
        simp only [List.mem_cons, List.not_mem_nil, or_false] at hg
        rcases hg with rfl | rfl <;> norm_num)
      (by
        apply hasDerivAt_expCorr
        intro k hk
        have : k = 0 ∨ k = 1 := by omega
        rcases this with rfl | rfl
        · simpa [vecFun] using hasDerivAt_const (0 : ℝ) ((0 : ℝ) ^ (2⁻¹ : ℝ))
        · have := hasDerivAt_term (x := 1) (y := 0) (d := 1) (g := 2) (Or.inl one_ne_zero)
          simpa [vecFun] using this)
  have h2 : (⟨Base.new, [1, 1], [1 / 2, 2]⟩ : ExpCorr ℝ).computeCorrelationDot Real.exp realPow
      [0, 1] [0, 0] [0, 1] = .error .nonFinite := by
    unfold ExpCorr.computeCorrelationDot exponentialDot
    have e1 : realPow 0 (1 / 2) = .ok ((0 : ℝ) ^ (1 / 2 : ℝ)) := by
      unfold realPow; rw [if_neg (by norm_num)]
    have e2 : realPow 0 (1 / 2 - 1) = .error .nonFinite := by
      unfold realPow; rw [if_pos (by norm_num)]
    simp [forRange, loopFrom, rawAt, absDiff, realPow, bind, Except.bind]
    norm_num
  rw [h2] at h1
  cases h1

/-- Where no two coordinates coincide, or the exponent of a coincident coordinate is larger than one,
the value returned is the derivative with respect to the second point.  Missing: coincident
coordinates with exponents up to one. -/
theorem C71_partial {s : ExpCorr ℝ} {xi xj d : List ℝ} {m : Nat} (h1 : xi.length = m)
    (h2 : xj.length = m) (h3 : d.length = m) (h4 : s.theta.length = m) (h5 : s.gamma.length = m)
    (hk : ∀ k, k < m → vecFun xi k ≠ vecFun xj k ∨ 1 < vecFun s.gamma k) :
    ∃ v, s.computeCorrelationDot Real.exp realPow xi xj d = .ok v ∧
      HasDerivAt (fun t => expCorr m (vecFun s.theta) (vecFun s.gamma) (vecFun xi)
        (fun k => vecFun xj k + t * vecFun d k)) v 0 := by
  have hp : ∀ k, k < m → ∀ e : ℝ, (e < 0 → vecFun xi k ≠ vecFun xj k) →
      realPow (absDiff (vecFun xi k) (vecFun xj k) (vecFun d k)).2 e =
        .ok ((absDiff (vecFun xi k) (vecFun xj k) (vecFun d k)).2 ^ e) := by
    intro k _ e he
    unfold realPow
    rw [if_neg]
    rintro ⟨h0, hlt⟩
    rw [absDiff_abs, abs_eq_zero, sub_eq_zero] at h0
    exact he hlt h0
  unfold ExpCorr.computeCorrelationDot
  rw [h1]
  refine ⟨_, exponentialDot_ok (by omega) (by omega) (by omega) (by omega) (by omega)
    (fun k hk' => hp k hk' _ (fun hlt => (hk k hk').resolve_right (by linarith)))
    (fun k hk' => hp k hk' _ (fun hlt => (hk k hk').resolve_right (by linarith))), ?_⟩
  refine (hasDerivAt_expCorr (fun k hk' => hasDerivAt_term (hk k hk'))).congr_deriv ?_
  unfold expCorr
  congr 4
  exact sum_congr rfl (fun k _ => by rw [absDiff_abs])

/-- Two points that differ in both coordinates. -/
example : ∀ k, k < 2 → vecFun ([1, 2] : List ℝ) k ≠ vecFun ([0, 3] : List ℝ) k ∨
    1 < vecFun ([1 / 2, 2] : List ℝ) k := by
  intro k hk
  have : k = 0 ∨ k = 1 := by omega
  rcases this with rfl | rfl <;> left <;> norm_num [vecFun]

end Rodeo
