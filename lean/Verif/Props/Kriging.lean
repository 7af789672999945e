import Verif.Lemmas.Kriging
import Verif.Props.Linear
import Mathlib.Algebra.Order.Archimedean.Real.Basic

set_option linter.unusedSectionVars false

/-! # The Kriging predictor (C54, C75, C76) -/

namespace Rodeo
open Spec Mat Finset Text

/-- `k` is a Kriging model of `n` samples with inputs `X` (rows of length `m`) and outputs `y` around
the trend `T`: its correlation parameters fit, the correlation matrix is positive definite, and the
auxiliary fields are those of the differences between outputs and trend. -/
structure Spec.ModelOf (k : Kriging ℝ) (n m : Nat) (X : Nat → Nat → ℝ) (y : Nat → ℝ)
    (T : List ℝ → ℝ) : Prop where
  trend : HasTrend k m T
  epsilon : 0 ≤ k.corr.base.epsilon ∧ k.corr.base.epsilon < 1
  fitted : Fitted k n m X (fun i => y i - T ((List.range m).map (X i)))

/-- Correlation matrix of the samples of a model, with the nugget. -/
noncomputable def Spec.corrOf (k : Kriging ℝ) (m : Nat) (X : Nat → Nat → ℝ) : Nat → Nat → ℝ :=
  krigingMatrix m (vecFun k.corr.theta) (vecFun k.corr.gamma) k.corr.base.epsilon X

/-- Correlations between the samples of a model and a point. -/
noncomputable def Spec.corrWith (k : Kriging ℝ) (m : Nat) (X : Nat → Nat → ℝ) (x : List ℝ) :
    Nat → ℝ :=
  fun i => expCorr m (vecFun k.corr.theta) (vecFun k.corr.gamma) (vecFun x) (X i)

theorem corrWith_row {k : Kriging ℝ} {n m : Nat} {X : Nat → Nat → ℝ} (hR : Ready k.corr n m X)
    (hg : ∀ g ∈ k.corr.gamma, g ≠ 0) {i j : Nat} :
    corrWith k m X ((List.range m).map (X i)) j =
      corrOf k m X i j - if i = j then k.corr.base.epsilon else 0 := by
  have e : corrWith k m X ((List.range m).map (X i)) j =
      expCorr m (vecFun k.corr.theta) (vecFun k.corr.gamma) (X i) (X j) :=
    Corr.expCorr_congr (fun l hl => Corr.vecFun_map _ hl) (fun _ _ => rfl)
  rw [e]
  unfold corrOf krigingMatrix
  by_cases hij : i = j
  · subst hij
    rw [if_pos rfl, if_pos rfl, Corr.expCorr_self]
    · ring
    · intro l hl
      have hl' : l < k.corr.gamma.length := by rw [hR.gamma_len]; exact hl
      have : vecFun k.corr.gamma l = k.corr.gamma[l] := by simp [vecFun, List.getD, hl']
      rw [this]
      exact hg _ (List.getElem_mem hl')
  · rw [if_neg hij, if_neg hij, sub_zero]

/-- The prediction at sample `i` differs from its output by the nugget times the `i`-th weight, where
the weights `w` solve `R w = y - T - beta`; for all numbers of samples, inputs, outputs, trends and
parameters with nonzero exponents. -/
theorem C54_error {k : Kriging ℝ} {n m : Nat} {X : Nat → Nat → ℝ} {y : Nat → ℝ} {T : List ℝ → ℝ}
    (h : ModelOf k n m X y T) (hg : ∀ g ∈ k.corr.gamma, g ≠ 0) :
    ∃ (w : Nat → ℝ) (beta : ℝ),
      Solves n (corrOf k m X) w (fun i => y i - T ((List.range m).map (X i)) - beta) ∧
      ∀ i, i < n → k.interpolate realFns ((List.range m).map (X i)) =
        .ok (y i - k.corr.base.epsilon * w i) := by
  refine ⟨vecFun k.RinvYsMinBeta, k.beta0, h.fitted.weights, fun i hi => ?_⟩
  rw [Kriging.interpolate_ok h.fitted h.trend (by simp)]
  congr 1
  have e : dotp n (corrWith k m X ((List.range m).map (X i))) (vecFun k.RinvYsMinBeta) =
      (y i - T ((List.range m).map (X i)) - k.beta0) -
        k.corr.base.epsilon * vecFun k.RinvYsMinBeta i := by
    rw [← show _ = y i - T ((List.range m).map (X i)) - k.beta0 from h.fitted.weights i hi]
    unfold dotp
    rw [sum_congr rfl fun j _ => by rw [corrWith_row h.fitted.ready hg]]
    simp only [sub_mul, sum_sub_distrib]
    congr 1
    simp [hi]
  unfold corrWith at e
  rw [e]
  ring

/-- Without a nugget the prediction at every sample is its output, and the predicted variance there is
zero. -/
theorem C54_exact {k : Kriging ℝ} {n m : Nat} {X : Nat → Nat → ℝ} {y : Nat → ℝ} {T : List ℝ → ℝ}
    (h : ModelOf k n m X y T) (hg : ∀ g ∈ k.corr.gamma, g ≠ 0) (he : k.corr.base.epsilon = 0) {i : Nat}
    (hi : i < n) :
    k.interpolate realFns ((List.range m).map (X i)) = .ok (y i) ∧
    k.interpolateWithVariance realFns ((List.range m).map (X i)) = .ok (y i, 0) := by
  obtain ⟨w, beta, -, hw⟩ := C54_error h hg
  have h1 := hw i hi
  rw [he, zero_mul, sub_zero] at h1
  refine ⟨h1, ?_⟩
  rw [Kriging.interpolate_ok h.fitted h.trend (by simp)] at h1
  obtain ⟨z, hz, e⟩ := Kriging.interpolateWithVariance_ok h.fitted h.trend
    (x := (List.range m).map (X i)) (by simp)
  rw [e]
  have hval := Except.ok.inj h1
  rw [hval]
  congr 2
  -- the correlations are row `i` of the matrix
  have hS := krigingMatrix_symm n m (vecFun k.corr.theta) (vecFun k.corr.gamma) k.corr.base.epsilon X
  have hrow : ∀ j, expCorr m (vecFun k.corr.theta) (vecFun k.corr.gamma)
      (vecFun ((List.range m).map (X i))) (X j) = krigingMatrix m (vecFun k.corr.theta)
      (vecFun k.corr.gamma) k.corr.base.epsilon X i j := by
    intro j
    have := corrWith_row h.fitted.ready hg (i := i) (j := j)
    rw [he] at this
    simp only [ite_self, sub_zero] at this
    exact this
  have hunit : Solves n (krigingMatrix m (vecFun k.corr.theta) (vecFun k.corr.gamma)
      k.corr.base.epsilon X) (fun j => if j = i then 1 else 0)
      (fun j => expCorr m (vecFun k.corr.theta) (vecFun k.corr.gamma)
        (vecFun ((List.range m).map (X i))) (X j)) := by
    intro a ha
    beta_reduce
    rw [hrow a, hS i a hi ha]
    simp [hi]
  have hzu := h.fitted.posDef.unique hz hunit
  have d1 : dotp n (fun j => expCorr m (vecFun k.corr.theta) (vecFun k.corr.gamma)
      (vecFun ((List.range m).map (X i))) (X j)) z = 1 := by
    rw [dotp_congr (fun j _ => hrow j) hzu]
    unfold dotp
    simp only [mul_ite, mul_one, mul_zero]
    rw [sum_ite_eq', if_pos (mem_range.2 hi)]
    simp [krigingMatrix, he]
  have d2 : dotp n (fun j => expCorr m (vecFun k.corr.theta) (vecFun k.corr.gamma)
      (vecFun ((List.range m).map (X i))) (X j)) (vecFun k.RinvI) = 1 := by
    rw [dotp_congr (fun j _ => hrow j) (fun _ _ => rfl)]
    exact h.fitted.RinvI i hi
  rw [d1, d2, sub_self, abs_zero, if_pos (by positivity), if_pos (by positivity)]
  ring

theorem Spec.ModelOf.params {k : Kriging ℝ} {n m : Nat} {X : Nat → Nat → ℝ} {y : Nat → ℝ}
    {T : List ℝ → ℝ} (h : ModelOf k n m X y T) :
    (∀ l, l < m → 0 ≤ vecFun k.corr.theta l) ∧
      ∀ l, l < m → 0 ≤ vecFun k.corr.gamma l ∧ vecFun k.corr.gamma l ≤ 2 :=
  ⟨fun l _ => Corr.vecFun_nonneg h.fitted.ready.theta_nonneg l,
    fun l _ => Corr.vecFun_range h.fitted.ready.gamma_range l⟩

theorem Spec.ModelOf.variance_nonneg {k : Kriging ℝ} {n m : Nat} {X : Nat → Nat → ℝ} {y : Nat → ℝ}
    {T : List ℝ → ℝ} (h : ModelOf k n m X y T) : 0 ≤ k.sigmaSquared := by
  rw [h.fitted.variance, dotp_comm, dotp_solves_self h.fitted.weights]
  exact mul_nonneg (by positivity) (h.fitted.posDef.semi _)

/-- The predicted variance is never negative, at all points, and with it the square root that the
acquisition function takes is defined. -/
theorem C75_variance_nonneg {k : Kriging ℝ} {n m : Nat} {X : Nat → Nat → ℝ} {y : Nat → ℝ}
    {T : List ℝ → ℝ} (h : ModelOf k n m X y T) {x : List ℝ} (hx : x.length = m) :
    ∃ f v, k.interpolateWithVariance realFns x = .ok (f, v) ∧ k.interpolate realFns x = .ok f ∧
      0 ≤ v := by
  obtain ⟨z, hz, e⟩ := Kriging.interpolateWithVariance_ok h.fitted h.trend hx
  refine ⟨_, _, e, Kriging.interpolate_ok h.fitted h.trend hx, mul_nonneg h.variance_nonneg ?_⟩
  have h1 := Kriging.rRr_le_one h.params.1 h.params.2 h.epsilon.1 hz
  have hpos := h.fitted.posDef.one_pos h.fitted.countPos h.fitted.RinvI
  refine add_nonneg ?_ ?_
  · split_ifs
    · exact le_rfl
    · linarith
  · split_ifs
    · exact le_rfl
    · exact div_nonneg (mul_self_nonneg _) hpos.le

/-- The sum of the entries of the inverse correlation matrix is at least one half. -/
theorem Spec.ModelOf.sum_inverse {k : Kriging ℝ} {n m : Nat} {X : Nat → Nat → ℝ} {y : Nat → ℝ}
    {T : List ℝ → ℝ} (h : ModelOf k n m X y T) : 1 / 2 ≤ ∑ i ∈ range n, vecFun k.RinvI i := by
  set u := vecFun k.RinvI with hu
  set R := krigingMatrix m (vecFun k.corr.theta) (vecFun k.corr.gamma) k.corr.base.epsilon X with hR
  have hs : Solves n R u (fun _ => 1) := h.fitted.RinvI
  have hS : Symm n R := krigingMatrix_symm _ _ _ _ _ _
  have hn : (1 : ℝ) ≤ n := by exact_mod_cast h.fitted.countPos
  have ht : ∀ l, 0 ≤ vecFun k.corr.theta l := fun l => Corr.vecFun_nonneg h.fitted.ready.theta_nonneg l
  -- the sum of all entries of the matrix
  set t := ∑ i ∈ range n, ∑ j ∈ range n, R i j with htd
  have t1 : t ≤ n * n * 2 := by
    have : ∀ i ∈ range n, ∑ j ∈ range n, R i j ≤ ∑ _j ∈ range n, (2 : ℝ) := by
      intro i _
      refine sum_le_sum fun j _ => ?_
      rw [hR]; unfold krigingMatrix
      split_ifs
      · linarith [h.epsilon.2]
      · linarith [Corr.expCorr_le_one (m := m) ht (vecFun k.corr.gamma) (X i) (X j)]
    refine (sum_le_sum this).trans (le_of_eq ?_)
    simp; ring
  have q : ∀ a : ℝ, 0 ≤ a * a * t - 2 * a * n + ∑ i ∈ range n, u i := by
    intro a
    have p := h.fitted.posDef.semi (fun i => a - u i)
    have e : quadForm n R (fun i => a - u i) = a * a * t - 2 * a * n + ∑ i ∈ range n, u i := by
      have e1 : ∑ i ∈ range n, u i = quadForm n R u := by
        rw [← dotp_solves_self hs]; simp [dotp]
      have e2 : ∑ i ∈ range n, ∑ j ∈ range n, R i j * u j = n := by
        rw [sum_congr rfl fun i hi => hs i (mem_range.1 hi)]; simp
      have e3 : ∑ i ∈ range n, ∑ j ∈ range n, u i * R i j = n := by
        rw [← e2, sum_comm]
        refine sum_congr rfl fun i hi => sum_congr rfl fun j hj => ?_
        rw [hS j i (mem_range.1 hj) (mem_range.1 hi)]; ring
      have e4 : quadForm n R (fun i => a - u i) = a * a * t - a *
          (∑ i ∈ range n, ∑ j ∈ range n, R i j * u j) - a * (∑ i ∈ range n, ∑ j ∈ range n, u i * R i j) +
          quadForm n R u := by
        unfold quadForm
        rw [htd, mul_sum, mul_sum, mul_sum, ← sum_sub_distrib, ← sum_sub_distrib, ← sum_add_distrib]
        refine sum_congr rfl fun i _ => ?_
        rw [mul_sum, mul_sum, mul_sum, ← sum_sub_distrib, ← sum_sub_distrib, ← sum_add_distrib]
        exact sum_congr rfl fun j _ => by ring
      rw [e4, e2, e3, ← e1]; ring
    rw [← e]; exact p
  have hq := q (1 / (2 * n))
  have hn0 : (n : ℝ) ≠ 0 := by positivity
  have e5 : 1 / (2 * (n : ℝ)) * (1 / (2 * n)) * t ≤ 1 / 2 := by
    have : 1 / (2 * (n : ℝ)) * (1 / (2 * n)) * t ≤ 1 / (2 * (n : ℝ)) * (1 / (2 * n)) * (n * n * 2) :=
      mul_le_mul_of_nonneg_left t1 (by positivity)
    refine this.trans (le_of_eq ?_)
    field_simp
  have e6 : 2 * (1 / (2 * (n : ℝ))) * n = 1 := by field_simp
  rw [e6] at hq
  linarith

/-- For a model with the generalized least squares mean: at every point the prediction is the trend
plus the best linear unbiased predictor of the differences to the trend, and the predicted variance is
the process variance times its mean squared error, up to the cut-offs of the code. -/
theorem C76_blup {k : Kriging ℝ} {n m : Nat} {X : Nat → Nat → ℝ} {y : Nat → ℝ} {T : List ℝ → ℝ}
    (h : ModelOf k n m X y T) (ha : k.averageBeta0 = false) {x : List ℝ} (hx : x.length = m) :
    ∃ lam v, IsBLUP n (corrOf k m X) (corrWith k m X x) lam ∧
      k.interpolateWithVariance realFns x =
        .ok (T x + ∑ i ∈ range n, lam i * (y i - T ((List.range m).map (X i))), v) ∧
      |v - k.sigmaSquared * predictorError n (corrOf k m X) (corrWith k m X x) lam| ≤
        k.sigmaSquared * (2 / 10 ^ 9) := by
  obtain ⟨z, hz, e⟩ := Kriging.interpolateWithVariance_ok h.fitted h.trend hx
  set R := corrOf k m X with hR
  set r := corrWith k m X x with hr
  set u := vecFun k.RinvI with hu
  set w := vecFun k.RinvYsMinBeta with hw
  set d : Nat → ℝ := fun i => y i - T ((List.range m).map (X i)) with hd
  have hS : Symm n R := krigingMatrix_symm _ _ _ _ _ _
  have hus : Solves n R u (fun _ => 1) := h.fitted.RinvI
  have hws : Solves n R w (fun i => d i - k.beta0) := h.fitted.weights
  have hw0 : ∑ i ∈ range n, w i = 0 := h.fitted.mean ha
  have hpos := h.fitted.posDef.one_pos h.fitted.countPos hus
  have hhalf : 1 / 2 ≤ ∑ i ∈ range n, u i := h.sum_inverse
  obtain ⟨b1, b2, b3⟩ := Kriging.blup h.fitted.countPos hS h.fitted.posDef
    (show Solves n R z r from hz) hus
  refine ⟨_, k.sigmaSquared * ((if |dotp n r z - 1| < 1 / 10 ^ 9 then 0 else 1 - dotp n r z) +
      (if |dotp n r u - 1| < 1 / 10 ^ 9 then 0
        else (dotp n r u - 1) * (dotp n r u - 1) / ∑ i ∈ range n, u i)), b1, e.trans ?_, ?_⟩
  · refine congrArg (fun t => Except.ok (T x + t, _)) ?_
    -- the prediction
    have p1 : dotp n r w = dotp n z d - k.beta0 * ∑ i ∈ range n, z i := by
      rw [dotp_comm, show dotp n w r = _ from dotp_solves hS hws hz]
      unfold dotp
      rw [mul_sum, ← sum_sub_distrib]
      exact sum_congr rfl fun i _ => by ring
    have p2 : dotp n u d = k.beta0 * ∑ i ∈ range n, u i := by
      have : dotp n u (fun i => d i - k.beta0) = 0 := by
        rw [dotp_solves hS hus hws]
        simp only [dotp, mul_one]
        exact hw0
      have e2 : dotp n u (fun i => d i - k.beta0) = dotp n u d - k.beta0 * ∑ i ∈ range n, u i := by
        unfold dotp
        rw [mul_sum, ← sum_sub_distrib]
        exact sum_congr rfl fun i _ => by ring
      linarith
    have p3 : ∑ i ∈ range n, (z i + (1 - ∑ j ∈ range n, z j) / (∑ j ∈ range n, u j) * u i) * d i =
        dotp n z d + (1 - ∑ j ∈ range n, z j) / (∑ j ∈ range n, u j) * dotp n u d := by
      unfold dotp
      rw [mul_sum, ← sum_add_distrib]
      exact sum_congr rfl fun i _ => by ring
    show k.beta0 + dotp n r w = _
    rw [p3, p2, p1]
    field_simp
    ring
  · rw [b2, ← mul_sub, abs_mul, abs_of_nonneg h.variance_nonneg]
    refine mul_le_mul_of_nonneg_left ?_ h.variance_nonneg
    show |((if |dotp n r z - 1| < 1 / 10 ^ 9 then 0 else 1 - dotp n r z) +
      (if |dotp n r u - 1| < 1 / 10 ^ 9 then 0
        else (dotp n r u - 1) * (dotp n r u - 1) / ∑ i ∈ range n, u i)) -
      (1 - dotp n r z + (dotp n r u - 1) * (dotp n r u - 1) / ∑ i ∈ range n, u i)| ≤ 2 / 10 ^ 9
    have t1 : |(if |dotp n r z - 1| < 1 / 10 ^ 9 then 0 else 1 - dotp n r z) -
        (1 - dotp n r z)| ≤ 1 / 10 ^ 9 := by
      split_ifs with hc
      · rw [zero_sub, neg_sub]; exact hc.le
      · rw [sub_self, abs_zero]; positivity
    have t2 : |(if |dotp n r u - 1| < 1 / 10 ^ 9 then 0
        else (dotp n r u - 1) * (dotp n r u - 1) / ∑ i ∈ range n, u i) -
        (dotp n r u - 1) * (dotp n r u - 1) / ∑ i ∈ range n, u i| ≤ 1 / 10 ^ 9 := by
      split_ifs with hc
      · rw [zero_sub, abs_neg, abs_div, abs_mul, abs_of_pos hpos, div_le_iff₀ hpos]
        have h0 := abs_nonneg (dotp n r u - 1)
        have h1 : |dotp n r u - 1| * |dotp n r u - 1| ≤ 1 / 10 ^ 9 * (1 / 10 ^ 9) :=
          mul_le_mul hc.le hc.le h0 (by positivity)
        have h2 : (1 : ℝ) / 10 ^ 9 * (1 / 10 ^ 9) ≤ 1 / 10 ^ 9 * (1 / 2) := by norm_num
        have h3 : (1 : ℝ) / 10 ^ 9 * (1 / 2) ≤ 1 / 10 ^ 9 * ∑ i ∈ range n, u i :=
          mul_le_mul_of_nonneg_left hhalf (by positivity)
        linarith
      · rw [sub_self, abs_zero]; positivity
    rw [add_sub_add_comm]
    refine (abs_add_le _ _).trans ?_
    have : (2 : ℝ) / 10 ^ 9 = 1 / 10 ^ 9 + 1 / 10 ^ 9 := by norm_num
    rw [this]
    exact add_le_add t1 t2

end Rodeo
