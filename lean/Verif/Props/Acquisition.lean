import Verif.Lemmas.Acquisition
import Verif.Props.KrigingHistory
import Verif.Model.AcqSearch
import Verif.Lemmas.Vec

set_option linter.unusedSectionVars false

/-! # The acquisition function (C61, C78, C79, C80) -/

namespace Rodeo
open Spec Text MeasureTheory ProbabilityTheory

/-! ## The value of the acquisition function -/

theorem acqCdf_one (z : ℝ) : acqCdf realErf z 0 1 = .ok (codePhi z) := by
  unfold acqCdf
  have h : (1 : ℝ) * cSqrt2 ≠ 0 := by unfold cSqrt2; norm_num
  rw [if_neg h, sub_zero, one_mul]
  rfl

theorem acqPdf_one (z : ℝ) : acqPdf Real.exp z 0 1 = .ok (codephi z) := by
  unfold acqPdf fdiv
  simp only [one_ne_zero, if_false, sub_zero, div_one]
  rfl

/-- The value in closed form. -/
theorem acqValueOf_eq (m f s : ℝ) (hs : 0 ≤ s) : acqValueOf realFns realErf m f s =
    .ok (if s > cEpsilon then (m - f) * codePhi ((m - f) / s) + s * codephi ((m - f) / s) else 0) := by
  unfold acqValueOf
  rw [abs_of_nonneg hs]
  split_ifs with h
  · have h0 : s ≠ 0 := by
      rintro rfl
      have : (0 : ℝ) < cEpsilon := by unfold cEpsilon; norm_num
      linarith
    refine bind_eq (by unfold fdiv; rw [if_neg h0]) ?_
    exact bind_eq (acqCdf_one _) (bind_eq (acqPdf_one _) rfl)
  · rfl

/-- The expectation of `max (m - Y, 0)` for a normal variable `Y` with mean `mu` and standard deviation
`s`. -/
noncomputable def Spec.expectedImprovement (m mu s : ℝ) : ℝ :=
  ∫ y, max (m - y) 0 ∂(gaussianReal mu (NNReal.mk (s ^ 2) (sq_nonneg s)))

theorem Spec.expectedImprovement_nonneg (m mu s : ℝ) : 0 ≤ expectedImprovement m mu s :=
  integral_nonneg fun _ => le_max_right _ _

theorem codeValue_bounds (m f : ℝ) {s : ℝ} (hs : 0 < s) :
    expectedImprovement m f s ≤ (m - f) * codePhi ((m - f) / s) + s * codephi ((m - f) / s) ∧
    (m - f) * codePhi ((m - f) / s) + s * codephi ((m - f) / s) ≤
      expectedImprovement m f s + s / 10 ^ 15 := by
  unfold expectedImprovement
  rw [normal_improvement m f hs]
  set z := (m - f) / s with hz
  have hm : m - f = s * z := by rw [hz, mul_div_cancel₀ _ hs.ne']
  rw [hm]
  obtain ⟨p1, p2⟩ := codephi_close z
  have q1 := mul_codePhi_ge z
  have q2 := (abs_le.1 (mul_codePhi_close z)).2
  have e1 : s * z * codePhi z + s * codephi z = s * (z * codePhi z + codephi z) := by ring
  have e2 : s * z * gPhi z + s * gphi z = s * (z * gPhi z + gphi z) := by ring
  rw [e1, e2]
  constructor
  · exact mul_le_mul_of_nonneg_left (by linarith) hs.le
  · have : s * (z * codePhi z + codephi z) ≤ s * (z * gPhi z + gphi z + 1 / 10 ^ 15) :=
      mul_le_mul_of_nonneg_left (by norm_num at p2 q2 ⊢; linarith) hs.le
    refine this.trans (le_of_eq ?_)
    ring

/-- A surrogate model answers for all points of the right size, and its variance is not negative. -/
def Spec.Answers (S : List ℝ → Res (ℝ × ℝ)) (dim : Nat) : Prop :=
  ∀ x : List ℝ, x.length = dim → ∃ f v, S x = .ok (f, v) ∧ 0 ≤ v

/-- **C61, expected improvement.** For every surrogate model, minimum and factor: the expected
improvement is computed and not negative; the estimate and the deviation of the surrogate model are
stored in the design. -/
theorem C61_nonneg {o : AcqObjective ℝ} {d : AcqDesign ℝ} {f v : ℝ}
    (hS : o.surrogate d.dv = .ok (f, v)) (hv : 0 ≤ v) (ho : 0 < o.sigmaFactor) :
    ∃ d', o.calculateExpectedImprovement realFns realErf d = .ok d' ∧ 0 ≤ d'.value ∧
      d'.objectiveValue = f ∧ d'.sigma = Real.sqrt v := by
  have hs : 0 ≤ o.sigmaFactor * Real.sqrt v := mul_nonneg ho.le (Real.sqrt_nonneg v)
  refine ⟨_, bind_eq hS (bind_eq (a := Real.sqrt v) ?_ (bind_eq (acqValueOf_eq _ _ _ hs) rfl)),
    ?_, rfl, rfl⟩
  · unfold cSqrt
    rw [if_neg (not_lt.2 hv)]
    rfl
  · show 0 ≤ if _ > _ then _ else _
    split_ifs with h
    · have h0 : (0 : ℝ) < o.sigmaFactor * Real.sqrt v := by
        have : (0 : ℝ) < cEpsilon := by unfold cEpsilon; norm_num
        linarith
      exact (expectedImprovement_nonneg _ _ _).trans (codeValue_bounds _ _ h0).1
    · exact le_rfl

/-! ## C78 -/

/-- The full property: the value is the expected improvement, up to rounding, for every mean,
deviation, factor and minimum. -/
def C78_full : Prop :=
  ∀ (o : AcqObjective ℝ) (d d' : AcqDesign ℝ) (f v : ℝ), o.surrogate d.dv = .ok (f, v) → 0 ≤ v →
    0 < o.sigmaFactor → o.calculateExpectedImprovement realFns realErf d = .ok d' →
    |d'.value - expectedImprovement o.sampleMinimum f (o.sigmaFactor * Real.sqrt v)| ≤
      1 / 10 ^ 12 + o.sigmaFactor * Real.sqrt v / 10 ^ 15

/-- The value is the expected improvement if the deviation is more than `1e-13` or the estimate is
not below the minimum.  Missing: an estimate below the minimum with (almost) no deviation, where the
value is zero (`C78_false`). -/
theorem C78_partial {o : AcqObjective ℝ} {d d' : AcqDesign ℝ} {f v : ℝ}
    (hS : o.surrogate d.dv = .ok (f, v)) (hv : 0 ≤ v) (ho : 0 < o.sigmaFactor)
    (h : o.calculateExpectedImprovement realFns realErf d = .ok d')
    (hc : o.sigmaFactor * Real.sqrt v > 1 / 10 ^ 13 ∨ o.sampleMinimum ≤ f) :
    |d'.value - expectedImprovement o.sampleMinimum f (o.sigmaFactor * Real.sqrt v)| ≤
      1 / 10 ^ 12 + o.sigmaFactor * Real.sqrt v / 10 ^ 15 := by
  have hs : 0 ≤ o.sigmaFactor * Real.sqrt v := mul_nonneg ho.le (Real.sqrt_nonneg v)
  have he : (cEpsilon : ℝ) = 1 / 10 ^ 13 := by unfold cEpsilon; norm_num
  have hd : d'.value = if o.sigmaFactor * Real.sqrt v > cEpsilon then
      (o.sampleMinimum - f) * codePhi ((o.sampleMinimum - f) / (o.sigmaFactor * Real.sqrt v)) +
        o.sigmaFactor * Real.sqrt v * codephi ((o.sampleMinimum - f) / (o.sigmaFactor * Real.sqrt v))
      else 0 := by
    have e : o.calculateExpectedImprovement realFns realErf d = _ :=
      bind_eq hS (bind_eq (a := Real.sqrt v) (by unfold cSqrt; rw [if_neg (not_lt.2 hv)]; rfl)
        (bind_eq (acqValueOf_eq _ _ _ hs) rfl))
    rw [e] at h
    cases h
    rfl
  rw [hd]
  set s := o.sigmaFactor * Real.sqrt v with hsdef
  rw [he]
  by_cases hb : s > 1 / 10 ^ 13
  · rw [if_pos hb]
    have h0 : 0 < s := lt_trans (by norm_num) hb
    obtain ⟨b1, b2⟩ := codeValue_bounds o.sampleMinimum f h0
    rw [abs_le]
    constructor
    · have : 0 ≤ s / 10 ^ 15 := by positivity
      norm_num at this ⊢
      linarith
    · norm_num at b2 ⊢
      linarith
  · rw [if_neg hb]
    have hm : o.sampleMinimum ≤ f := hc.resolve_left hb
    have h1 : expectedImprovement o.sampleMinimum f s ≤ s := by
      rcases hs.eq_or_lt with h0 | h0
      · unfold expectedImprovement
        have : (NNReal.mk (s ^ 2) (sq_nonneg s)) = 0 := by
          rw [← h0]; ext; simp
        rw [this, gaussianReal_zero_var, integral_dirac, max_eq_right (by linarith), h0]
      · unfold expectedImprovement
        rw [normal_improvement _ _ h0]
        have a1 := gPhi_nonneg ((o.sampleMinimum - f) / s)
        have a2 := gphi_le_one ((o.sampleMinimum - f) / s)
        have a3 : (o.sampleMinimum - f) * gPhi ((o.sampleMinimum - f) / s) ≤ 0 :=
          mul_nonpos_of_nonpos_of_nonneg (by linarith) a1
        nlinarith
    have h2 := expectedImprovement_nonneg o.sampleMinimum f s
    rw [zero_sub, abs_neg, abs_of_nonneg h2]
    have h3 : s ≤ 1 / 10 ^ 13 := not_lt.1 hb
    have : 0 ≤ s / 10 ^ 15 := by positivity
    norm_num at h3 this ⊢
    linarith

/-- Not true: with estimate 0, deviation 0 and minimum 1 the improvement is 1, the value is 0. -/
theorem C78_false : ¬ C78_full := by
  intro h
  have e := h ⟨fun _ => .ok (0, 0), 1, 1⟩ (AcqDesign.new [] 0)
    { AcqDesign.new [] 0 with sigma := 0 } 0 0 rfl le_rfl one_pos ?_
  · unfold expectedImprovement at e
    rw [show (NNReal.mk ((1 * Real.sqrt 0) ^ 2) (sq_nonneg _)) = 0 by ext; simp,
      gaussianReal_zero_var, integral_dirac] at e
    norm_num [AcqDesign.new] at e
  · refine bind_eq (a := ((0 : ℝ), (0 : ℝ))) rfl (bind_eq (a := 0) ?_ (bind_eq (a := 0) ?_ rfl))
    · unfold cSqrt
      rw [if_neg (lt_irrefl _)]
      exact congrArg Except.ok Real.sqrt_zero
    · unfold acqValueOf
      rw [if_neg]
      have : (0 : ℝ) < cEpsilon := by unfold cEpsilon; norm_num
      simp only [mul_zero, abs_zero]
      exact not_lt.2 this.le

/-- With minimum 1, estimate 0 and variance 4 the value is the expected improvement. -/
example : ∃ d', (⟨fun _ => .ok (0, 4), 1, 1⟩ : AcqObjective ℝ).calculateExpectedImprovement realFns
      realErf (AcqDesign.new [0] 0) = .ok d' ∧ 0 ≤ d'.value ∧
    |d'.value - expectedImprovement 1 0 (1 * Real.sqrt 4)| ≤ 1 / 10 ^ 12 + 1 * Real.sqrt 4 / 10 ^ 15 := by
  obtain ⟨d', e, h, -⟩ := C61_nonneg (o := ⟨fun _ => .ok (0, 4), 1, 1⟩) (d := AcqDesign.new [0] 0)
    (f := 0) (v := 4) rfl (by norm_num) one_pos
  refine ⟨d', e, h, C78_partial (o := ⟨fun _ => .ok (0, 4), 1, 1⟩) rfl (by norm_num) one_pos e (Or.inl ?_)⟩
  rw [show (4 : ℝ) = 2 ^ 2 by norm_num, Real.sqrt_sq (by norm_num)]
  norm_num

/-! ## Constraints -/

/-- The set of values that satisfy the inequality. -/
def Spec.feasibleSet (type : Str) (target : ℝ) : Set ℝ :=
  if type = ['<'] then Set.Iio target else Set.Ioi target

/-- The probability that a normal variable with mean `mu` and standard deviation `s` satisfies the
inequality. -/
noncomputable def Spec.feasibility (type : Str) (target mu s : ℝ) : ℝ :=
  (gaussianReal mu (NNReal.mk (s ^ 2) (sq_nonneg s))).real (feasibleSet type target)

/-- The probability that the code assigns to a constraint. -/
noncomputable def codeProbability (c : AcqConstraint ℝ) (mu s : ℝ) : ℝ :=
  let p := if s < 1 / 10 ^ 12 then (if c.target < mu then 0 else 1) else codePhi ((c.target - mu) / s)
  if c.type = ['>'] then 1 - p else p

theorem normalCdf_ok (t mu : ℝ) {s : ℝ} (hs : 0 ≤ s) : normalCdf realErf t mu s =
    .ok (if s < 1 / 10 ^ 12 then (if t < mu then 0 else 1) else codePhi ((t - mu) / s)) := by
  unfold normalCdf
  rw [if_neg (not_lt.2 hs)]
  split_ifs with h1 h2
  · rfl
  · rfl
  · have h0 : 0 < s := lt_of_lt_of_le (by norm_num) (not_lt.1 h1)
    have hc : (cSqrt2 : ℝ) ≠ 0 := by unfold cSqrt2; norm_num
    refine bind_eq (by unfold fdiv; rw [if_neg (mul_ne_zero h0.ne' hc)]) ?_
    unfold codePhi
    rw [div_div]

theorem codeProbability_range (c : AcqConstraint ℝ) (mu s : ℝ) :
    0 ≤ codeProbability c mu s ∧ codeProbability c mu s ≤ 1 := by
  unfold codeProbability
  have h := codePhi_range ((c.target - mu) / s)
  simp only
  split_ifs <;> constructor <;> linarith

theorem probabilityStep_ok {c : AcqConstraint ℝ} {d : AcqDesign ℝ} {i : Nat} (hi : c.id = i)
    {mu s : ℝ} (h1 : d.constraintValues[i]? = some mu) (h2 : d.constraintSigmas[i]? = some s)
    (hs : 0 ≤ s) (ht : c.type = ['<'] ∨ c.type = ['>']) (ps : List ℝ) :
    probabilityStep realErf d c ps = putInt ps c.id (codeProbability c mu s) := by
  unfold probabilityStep
  refine bind_eq (by rw [hi]; exact vatInt_ok h1) (bind_eq (by rw [hi]; exact vatInt_ok h2) ?_)
  rcases ht with ht | ht
  · rw [if_neg (by rw [ht]; decide), if_pos ht]
    refine bind_eq (normalCdf_ok _ _ hs) ?_
    unfold codeProbability
    simp only
    rw [if_neg (show ¬ c.type = ['>'] by rw [ht]; decide)]
  · rw [if_pos ht]
    unfold probabilityGreater
    refine bind_eq (bind_eq (normalCdf_ok _ _ hs) rfl) ?_
    unfold codeProbability
    simp only
    rw [if_pos ht]

/-- A constraint that can be estimated at all points of the right size. -/
structure Spec.GoodConstraint (c : AcqConstraint ℝ) (dim : Nat) : Prop where
  type : c.type = ['<'] ∨ c.type = ['>']
  answers : c.userDefined = none → Answers c.surrogate dim

/-- What the constraint is estimated to be at a point: mean and standard deviation. -/
theorem Spec.GoodConstraint.estimate {c : AcqConstraint ℝ} {dim : Nat} (h : GoodConstraint c dim)
    {lb ub x : List ℝ} (hl : lb.length = dim) (hu : ub.length = dim) (hx : x.length = dim) :
    ∃ m s, c.estimate realFns lb ub x = .ok (m, s) ∧ 0 ≤ s := by
  unfold AcqConstraint.estimate AcqConstraint.interpolateWithVariance
  cases hc : c.userDefined with
  | some f =>
    refine ⟨_, _, bind_eq (Vec.denormalizeVector_eq (x := Vec.dnrm dim x lb ub hx hl hu)
      (by simp [Vec.dnrm]) hl hu hx (by intro i hi; simp [Vec.dnrm])) rfl, ?_⟩
    show (0 : ℝ) ≤ cEpsilon
    unfold cEpsilon; norm_num
  | none =>
    obtain ⟨f, v, e, hv⟩ := h.answers hc x hx
    refine ⟨f, Real.sqrt v, bind_eq e (bind_eq (a := Real.sqrt v) ?_ rfl), Real.sqrt_nonneg v⟩
    unfold cSqrt
    rw [if_neg (not_lt.2 hv)]
    rfl

/-- What a probability must be for a constraint with mean `mu` and standard deviation `s`: the
probability that the inequality holds, up to rounding, if there is a deviation; without one, 1 or 0
according to whether the mean satisfies the inequality, where the bound itself counts for `<`, not for
`>`. -/
structure Spec.IsProbability (type : Str) (target mu s p : ℝ) : Prop where
  nonneg : 0 ≤ p
  le_one : p ≤ 1
  spread : 1 / 10 ^ 12 ≤ s → |p - feasibility type target mu s| ≤ 1 / 10 ^ 19
  sharp : s < 1 / 10 ^ 12 → mu ≠ target → p = (feasibleSet type target).indicator 1 mu
  bound : s < 1 / 10 ^ 12 → mu = target → p = if type = ['<'] then 1 else 0

theorem feasibility_eq {type : Str} (ht : type = ['<'] ∨ type = ['>']) (t mu : ℝ) {s : ℝ} (hs : 0 < s) :
    feasibility type t mu s = if type = ['>'] then 1 - gPhi ((t - mu) / s) else gPhi ((t - mu) / s) := by
  have hne : (NNReal.mk (s ^ 2) (sq_nonneg s)) ≠ 0 := by
    intro h
    have : s ^ 2 = 0 := congrArg NNReal.toReal h
    exact hs.ne' (by simpa using this)
  rw [← normal_probability t mu hs]
  unfold feasibility feasibleSet
  have := nullSingletonClass_gaussianReal (μ := mu) hne
  rcases ht with rfl | rfl
  · rw [if_pos rfl, if_neg (by decide)]
    exact measureReal_congr Iio_ae_eq_Iic
  · rw [if_neg (by decide), if_pos rfl, ← Set.compl_Iic, probReal_compl_eq_one_sub measurableSet_Iic]

theorem codeProbability_is {c : AcqConstraint ℝ} (ht : c.type = ['<'] ∨ c.type = ['>']) (mu s : ℝ) :
    IsProbability c.type c.target mu s (codeProbability c mu s) := by
  obtain ⟨h1, h2⟩ := codeProbability_range c mu s
  refine ⟨h1, h2, ?_, ?_, ?_⟩
  rotate_left 2
  · intro hs he
    unfold codeProbability
    rcases ht with ht | ht
    · rw [if_neg (by rw [ht]; decide), if_pos hs, if_neg (by rw [he]; exact lt_irrefl _), if_pos ht]
    · rw [if_pos ht, if_pos hs, if_neg (by rw [he]; exact lt_irrefl _), if_neg (by rw [ht]; decide),
        sub_self]
  · intro hs
    have h0 : 0 < s := lt_of_lt_of_le (by norm_num) hs
    rw [feasibility_eq ht _ _ h0]
    have hcl := codePhi_close ((c.target - mu) / s)
    unfold codeProbability
    simp only
    rw [if_neg (not_lt.2 hs)]
    split_ifs
    · rw [show (1 - codePhi ((c.target - mu) / s) - (1 - gPhi ((c.target - mu) / s))) =
        -(codePhi ((c.target - mu) / s) - gPhi ((c.target - mu) / s)) by ring, abs_neg]
      exact hcl
    · exact hcl
  · intro hs hne
    unfold codeProbability feasibleSet Set.indicator
    simp only [if_pos hs, Pi.one_apply]
    rcases ht with ht | ht
    · rw [ht, if_neg (by decide), if_pos rfl]
      by_cases h : c.target < mu
      · rw [if_pos h, if_neg (by simpa using h.le)]
      · rw [if_neg h, if_pos (by simpa using lt_of_le_of_ne (not_lt.1 h) hne)]
    · rw [ht, if_pos rfl, if_neg (show ¬ ((['>'] : Str) = ['<']) by decide)]
      by_cases h : c.target < mu
      · rw [if_pos h, if_pos (by simpa using h), sub_zero]
      · rw [if_neg h, if_neg (by simpa using h), sub_self]

/-- **C61.** For every objective with a surrogate model that answers, and every number of constraints
with the numbers `0, ..., n-1` in any order: the acquisition value is computed, every constraint has
its probability stored at its number, and the value is the (nonnegative) expected improvement times the
product of all probabilities. -/
theorem C61_product {o : AcqObjective ℝ} {dim : Nat} (hS : Answers o.surrogate dim)
    (ho : 0 < o.sigmaFactor) {cs : List (AcqConstraint ℝ)} (hn : Numbered cs)
    (hc : ∀ c ∈ cs, GoodConstraint c dim) {lb ub : List ℝ} (hl : lb.length = dim)
    (hu : ub.length = dim) {dv : List ℝ} (hdv : dv.length = dim) :
    ∃ (d0 d : AcqDesign ℝ) (p : AcqConstraint ℝ → ℝ),
      o.calculateExpectedImprovement realFns realErf (AcqDesign.new dv cs.length) = .ok d0 ∧
      acquisition realFns realErf o lb ub cs dv = .ok d ∧ 0 ≤ d0.value ∧
      (∀ c ∈ cs, vatInt d.probabilities c.id = .ok (p c) ∧
        ∃ m s, c.estimate realFns lb ub dv = .ok (m, s) ∧ IsProbability c.type c.target m s (p c)) ∧
      d.value = d0.value * (cs.map p).prod ∧ 0 ≤ d.value ∧ d.value ≤ d0.value := by
  obtain ⟨f, v, e, hv⟩ := hS dv hdv
  obtain ⟨d0, e0, h0, -, -⟩ := C61_nonneg (d := AcqDesign.new dv cs.length) e hv ho
  have hkeep : d0.dv = dv ∧ d0.constraintValues.length = cs.length ∧
      d0.constraintSigmas.length = cs.length := by
    have e0' := e0
    unfold AcqObjective.calculateExpectedImprovement at e0'
    obtain ⟨r, -, e0'⟩ := bind_ok_inv e0'
    obtain ⟨s, -, e0'⟩ := bind_ok_inv e0'
    obtain ⟨w, -, e0'⟩ := bind_ok_inv e0'
    cases e0'
    simp [AcqDesign.new]
  obtain ⟨k1, k2, k3⟩ := hkeep
  classical
  let m : AcqConstraint ℝ → ℝ := fun c => if h : c ∈ cs then
    ((hc c h).estimate hl hu hdv).choose else 0
  let s : AcqConstraint ℝ → ℝ := fun c => if h : c ∈ cs then
    ((hc c h).estimate hl hu hdv).choose_spec.choose else 0
  have hms : ∀ c ∈ cs, c.estimate realFns lb ub d0.dv = .ok (m c, s c) ∧ 0 ≤ s c := by
    intro c h
    have := ((hc c h).estimate hl hu hdv).choose_spec.choose_spec
    simp only [m, s, dif_pos h, k1]
    exact this
  let p : AcqConstraint ℝ → ℝ := fun c => codeProbability c (m c) (s c)
  have hp : ∀ c, 0 ≤ p c ∧ p c ≤ 1 := fun c => codeProbability_range _ _ _
  have hprod : ∀ l : List (AcqConstraint ℝ), 0 ≤ (l.map p).prod ∧ (l.map p).prod ≤ 1 := by
    intro l
    induction l with
    | nil => simp
    | cons c l ih =>
      rw [List.map_cons, List.prod_cons]
      exact ⟨mul_nonneg (hp c).1 ih.1, mul_le_one₀ (hp c).2 ih.1 ih.2⟩
  have hfin : d0.value * (cs.map p).prod ≤ d0.value := mul_le_of_le_one_right h0 (hprod cs).2
  by_cases hlen : cs.length > 0
  · obtain ⟨vs, ss, e1, l1, l2, h1⟩ := estimateConstraints_ok hn m s (fun c h => (hms c h).1) k2 k3
    obtain ⟨ps, e2, l3, h2, -⟩ := fold_put (n := cs.length) p cs
      (f := fun ps c => probabilityStep realErf
        { d0 with constraintValues := vs, constraintSigmas := ss } c ps)
      (fun c h ps => by
        obtain ⟨i, hi, -⟩ := numbered_id hn h
        exact probabilityStep_ok hi (h1 c h i hi).1 (h1 c h i hi).2 (hms c h).2 (hc c h).type ps)
      (fun c h => numbered_id hn h) (numbered_nodup hn) (List.replicate cs.length 0) (by simp)
    have ea : acquisition realFns realErf o lb ub cs dv = .ok { d0 with
        constraintValues := vs, constraintSigmas := ss, probabilities := ps
        value := d0.value * ps.prod } := by
      refine bind_eq e0 ?_
      unfold addPenalty
      rw [if_pos hlen]
      exact bind_eq e1 (bind_eq (bind_eq e2 rfl) (updateAcquisition_ok _))
    refine ⟨d0, _, p, e0, ea, h0, ?_, ?_, ?_, ?_⟩
    · intro c h
      obtain ⟨i, hi, -⟩ := numbered_id hn h
      refine ⟨by rw [hi]; exact vatInt_ok (h2 c h i hi), m c, s c, ?_,
        codeProbability_is (hc c h).type _ _⟩
      rw [← k1]; exact (hms c h).1
    · show d0.value * ps.prod = _
      rw [numbered_prod hn l3 h2]
    · show 0 ≤ d0.value * ps.prod
      rw [numbered_prod hn l3 h2]
      exact mul_nonneg h0 (hprod cs).1
    · show d0.value * ps.prod ≤ _
      rw [numbered_prod hn l3 h2]
      exact hfin
  · have hnil : cs = [] := List.length_eq_zero_iff.1 (by omega)
    subst hnil
    exact ⟨d0, d0, p, e0, bind_eq e0 rfl, h0, by simp, by simp, h0, le_rfl⟩

/-- The Kriging models of the optimizer answer after every history of new samples and trainings. -/
theorem answers_of_built {k : Kriging ℝ} {text : Str} {n dim : Nat} {F : Nat → Nat → ℝ} {b : Bounds ℝ}
    {lin : Bool} {eps : ℝ} (h : Built k text n dim F b lin eps) {evs : List KEvent}
    (hv : ∀ e ∈ evs, e.Valid) :
    Answers ((historyK (k, some text) evs).1.interpolateWithVariance realFns) dim := by
  obtain ⟨n', G, -, -, -, -, T, -, hP⟩ := C77_current h hv
  intro x hx
  obtain ⟨lam, v, -, e, hv0, -⟩ := hP x hx
  exact ⟨_, v, e, hv0⟩

/-- **C61** for the surrogate models that the optimizer uses: after every history of new samples and
trainings of the Kriging model of the objective function, and for constraints that are user defined or
have a Kriging model with its own history, every point of the right size gets an acquisition value that
is nonnegative and at most the expected improvement. -/
theorem C61_kriging {k : Kriging ℝ} {text : Str} {n dim : Nat} {F : Nat → Nat → ℝ} {b : Bounds ℝ}
    {lin : Bool} {eps : ℝ} (h : Built k text n dim F b lin eps) {evs : List KEvent}
    (hv : ∀ e ∈ evs, e.Valid) (minimum : ℝ) {factor : ℝ} (hf : 0 < factor)
    {cs : List (AcqConstraint ℝ)} (hn : Numbered cs) (ht : ∀ c ∈ cs, c.type = ['<'] ∨ c.type = ['>'])
    (hc : ∀ c ∈ cs, c.userDefined = none → ∃ (k' : Kriging ℝ) (text' : Str) (n' : Nat)
      (G : Nat → Nat → ℝ) (b' : Bounds ℝ) (lin' : Bool) (eps' : ℝ) (evs' : List KEvent),
      Built k' text' n' dim G b' lin' eps' ∧ (∀ e ∈ evs', e.Valid) ∧
      c.surrogate = (historyK (k', some text') evs').1.interpolateWithVariance realFns)
    {lb ub : List ℝ} (hl : lb.length = dim) (hu : ub.length = dim) {dv : List ℝ}
    (hdv : dv.length = dim) :
    ∃ (d0 d : AcqDesign ℝ) (p : AcqConstraint ℝ → ℝ),
      (⟨(historyK (k, some text) evs).1.interpolateWithVariance realFns, minimum, factor⟩ :
        AcqObjective ℝ).calculateExpectedImprovement realFns realErf (AcqDesign.new dv cs.length)
          = .ok d0 ∧
      acquisition realFns realErf ⟨(historyK (k, some text) evs).1.interpolateWithVariance realFns,
        minimum, factor⟩ lb ub cs dv = .ok d ∧ 0 ≤ d0.value ∧
      (∀ c ∈ cs, vatInt d.probabilities c.id = .ok (p c) ∧
        ∃ m s, c.estimate realFns lb ub dv = .ok (m, s) ∧ IsProbability c.type c.target m s (p c)) ∧
      d.value = d0.value * (cs.map p).prod ∧ 0 ≤ d.value ∧ d.value ≤ d0.value := by
  refine C61_product (answers_of_built h hv) hf hn (fun c hcs => ⟨ht c hcs, fun hu => ?_⟩) hl hu hdv
  obtain ⟨k', text', n', G, b', lin', eps', evs', h1, h2, h3⟩ := hc c hcs hu
  rw [h3]
  exact answers_of_built h1 h2

/-- The acquisition function of the search for the most promising design (`Acq` of `C26`, `C27` and
`C66`): the functions there are what the code computes at every point, with values in the stated ranges. -/
theorem C61_search {o : AcqObjective ℝ} {dim : Nat} (hS : Answers o.surrogate dim)
    (ho : 0 < o.sigmaFactor) {cs : List (AcqConstraint ℝ)} (hn : Numbered cs)
    (hc : ∀ c ∈ cs, GoodConstraint c dim) {lb ub : List ℝ} (hl : lb.length = dim)
    (hu : ub.length = dim) :
    ∃ E : Acq ℝ, ∀ dv : List ℝ, dv.length = dim →
      (∃ d0, o.calculateExpectedImprovement realFns realErf (AcqDesign.new dv cs.length) = .ok d0 ∧
        d0.value = E.ei dv) ∧
      (∃ d, acquisition realFns realErf o lb ub cs dv = .ok d ∧ d.value = E.value dv) ∧
      0 ≤ E.ei dv ∧ 0 ≤ E.penalty dv ∧ E.penalty dv ≤ 1 := by
  have h := fun dv : {l : List ℝ // l.length = dim} => C61_product hS ho hn hc hl hu dv.2
  choose d0 d p h using h
  have hp : ∀ dv, ∀ c ∈ cs, 0 ≤ p dv c ∧ p dv c ≤ 1 := fun dv c hcs => by
    obtain ⟨-, m, s, -, hi⟩ := (h dv).2.2.2.1 c hcs
    exact ⟨hi.nonneg, hi.le_one⟩
  have hprod : ∀ (q : AcqConstraint ℝ → ℝ) (l : List (AcqConstraint ℝ)),
      (∀ c ∈ l, 0 ≤ q c ∧ q c ≤ 1) → 0 ≤ (l.map q).prod ∧ (l.map q).prod ≤ 1 := by
    intro q l
    induction l with
    | nil => simp
    | cons c l ih =>
      intro hq
      rw [List.map_cons, List.prod_cons]
      have i1 := ih fun c hc => hq c (by simp [hc])
      have i2 := hq c (by simp)
      exact ⟨mul_nonneg i2.1 i1.1, mul_le_one₀ i2.2 i1.1 i1.2⟩
  classical
  refine ⟨⟨fun dv => if hdv : dv.length = dim then (d0 ⟨dv, hdv⟩).value else 0,
    fun dv => if hdv : dv.length = dim then (cs.map (p ⟨dv, hdv⟩)).prod else 0⟩, fun dv hdv => ?_⟩
  obtain ⟨h1, h2, h3, -, h5, -⟩ := h ⟨dv, hdv⟩
  simp only [Acq.value, dif_pos hdv]
  exact ⟨⟨_, h1, rfl⟩, ⟨_, h2, h5⟩, h3, hprod _ _ (hp _)⟩

/-! ### The hypotheses are met -/

/-- A user defined constraint with number 1 and one with a surrogate model with number 0, in this
order. -/
noncomputable def exampleConstraints : List (AcqConstraint ℝ) :=
  [⟨1, ['>'], 0, some fun x => x.headD 0, fun _ => .error .logicError⟩,
   ⟨0, ['<'], 3, none, fun _ => .ok (1, 4)⟩]

theorem exampleConstraints_numbered : Numbered exampleConstraints := by
  unfold Numbered exampleConstraints
  decide

theorem exampleConstraints_good : ∀ c ∈ exampleConstraints, GoodConstraint c 1 := by
  intro c hc
  rcases (by simpa [exampleConstraints] using hc : c = _ ∨ c = _) with rfl | rfl
  · exact ⟨Or.inr rfl, fun h => by cases h⟩
  · exact ⟨Or.inl rfl, fun _ _ _ => ⟨1, 4, rfl, by norm_num⟩⟩

example : ∃ d, acquisition realFns realErf ⟨fun _ => .ok (0, 4), 1, 1⟩ [0] [2] exampleConstraints [1 / 2]
    = .ok d ∧ 0 ≤ d.value := by
  obtain ⟨d0, d, p, -, e, -, -, -, h, -⟩ := C61_product (o := ⟨fun _ => .ok (0, 4), 1, 1⟩) (dim := 1)
    (fun _ _ => ⟨0, 4, rfl, by norm_num⟩) one_pos exampleConstraints_numbered exampleConstraints_good
    (lb := [0]) (ub := [2]) rfl rfl (dv := [1 / 2]) rfl
  exact ⟨d, e, h⟩

/-- With a Kriging model that has been trained and extended. -/
example (c : TrainCall ℝ) (hcv : (KEvent.train c).Valid) : ∃ k text,
    Built k text 2 1 exampleTable ⟨[(0 : ℝ)], [2], 1, true⟩ true (1 / 10 ^ 12) ∧
    ∃ d, acquisition realFns realErf ⟨(historyK (k, some text) [.train c,
      .add [1, 7] List.range List.range]).1.interpolateWithVariance realFns, 1, 1⟩
      [0] [2] exampleConstraints [1 / 2] = .ok d ∧ 0 ≤ d.value := by
  obtain ⟨k, text, hb⟩ := exists_built true
  obtain ⟨d0, d, p, -, e, -, -, -, h, -⟩ := C61_product
    (answers_of_built hb (evs := [.train c, .add [1, 7] List.range List.range]) (by
      intro e he
      rcases (by simpa using he : e = _ ∨ e = _) with rfl | rfl
      · exact hcv
      · exact fun m => ⟨List.Perm.refl _, List.Perm.refl _⟩)) (o := ⟨_, 1, 1⟩) one_pos
    exampleConstraints_numbered exampleConstraints_good (lb := [0]) (ub := [2]) rfl rfl
    (dv := [1 / 2]) rfl
  exact ⟨k, text, hb, d, e, h⟩

/-! ## C79 -/

/-- The full property: the probability of a user defined constraint is 1 or 0, according to whether the
constraint is feasible at the point; that of a constraint with a surrogate model is the probability that
the inequality holds for a normal variable with the estimated mean and deviation, up to rounding, if the
deviation is at least `1e-12`, and 1 or 0 according to the feasibility of the estimate otherwise. -/
def C79_full : Prop :=
  ∀ (o : AcqObjective ℝ) (dim : Nat) (cs : List (AcqConstraint ℝ)) (lb ub dv : List ℝ) (d : AcqDesign ℝ),
    Answers o.surrogate dim → 0 < o.sigmaFactor → Numbered cs → (∀ c ∈ cs, GoodConstraint c dim) →
    lb.length = dim → ub.length = dim → dv.length = dim →
    acquisition realFns realErf o lb ub cs dv = .ok d →
    ∀ c ∈ cs, ∃ p, vatInt d.probabilities c.id = .ok p ∧
      (∀ f, c.userDefined = some f → ∃ x, Vec.denormalizeVector dv lb ub = .ok x ∧
        p = if c.checkFeasibility (f x) then 1 else 0) ∧
      (c.userDefined = none → ∃ m v, c.surrogate dv = .ok (m, v) ∧
        (1 / 10 ^ 12 ≤ Real.sqrt v → |p - feasibility c.type c.target m (Real.sqrt v)| ≤ 1 / 10 ^ 19) ∧
        (Real.sqrt v < 1 / 10 ^ 12 → p = if c.checkFeasibility m then 1 else 0))

/-- All of it unless a value without deviation is exactly on the bound of a constraint with `<`.  Missing:
this exception, see `C79_false`. -/
theorem C79_partial {o : AcqObjective ℝ} {dim : Nat} (hS : Answers o.surrogate dim)
    (ho : 0 < o.sigmaFactor) {cs : List (AcqConstraint ℝ)} (hn : Numbered cs)
    (hc : ∀ c ∈ cs, GoodConstraint c dim) {lb ub dv : List ℝ} (hl : lb.length = dim)
    (hu : ub.length = dim) (hdv : dv.length = dim) {d : AcqDesign ℝ}
    (h : acquisition realFns realErf o lb ub cs dv = .ok d) {c : AcqConstraint ℝ} (hcs : c ∈ cs) :
    ∃ p, vatInt d.probabilities c.id = .ok p ∧
      (∀ f, c.userDefined = some f → ∃ x, Vec.denormalizeVector dv lb ub = .ok x ∧
        (f x ≠ c.target ∨ c.type = ['>'] → p = if c.checkFeasibility (f x) then 1 else 0)) ∧
      (c.userDefined = none → ∃ m v, c.surrogate dv = .ok (m, v) ∧
        (1 / 10 ^ 12 ≤ Real.sqrt v → |p - feasibility c.type c.target m (Real.sqrt v)| ≤ 1 / 10 ^ 19) ∧
        (Real.sqrt v < 1 / 10 ^ 12 → m ≠ c.target ∨ c.type = ['>'] →
          p = if c.checkFeasibility m then 1 else 0)) := by
  obtain ⟨d0, d', p, -, e, -, hp, -⟩ := C61_product hS ho hn hc hl hu hdv
  rw [h] at e
  cases e
  obtain ⟨h1, m, s, h2, h3⟩ := hp c hcs
  have hfeas : ∀ x, (feasibleSet c.type c.target).indicator (1 : ℝ → ℝ) x =
      if c.checkFeasibility x then 1 else 0 := by
    intro x
    unfold AcqConstraint.checkFeasibility feasibleSet Set.indicator
    rcases (hc c hcs).type with ht | ht
    · simp [ht]
    · simp [ht]
  have hall : ∀ x s', s' < 1 / 10 ^ 12 → IsProbability c.type c.target x s' (p c) →
      x ≠ c.target ∨ c.type = ['>'] → p c = if c.checkFeasibility x then 1 else 0 := by
    intro x s' hs' hi hx
    by_cases hxe : x = c.target
    · have ht := hx.resolve_left (not_not.2 hxe)
      rw [hi.bound hs' hxe, ht]
      simp [AcqConstraint.checkFeasibility, ht, hxe]
    · rw [← hfeas]
      exact hi.sharp hs' hxe
  refine ⟨p c, h1, fun f hf => ?_, fun hf => ?_⟩
  · unfold AcqConstraint.estimate AcqConstraint.interpolateWithVariance at h2
    simp only [hf] at h2
    obtain ⟨x, hx, h2⟩ := bind_ok_inv h2
    obtain ⟨rfl, rfl⟩ := Prod.mk.inj (Except.ok.inj h2)
    refine ⟨x, hx, fun hne => ?_⟩
    exact hall _ _ (by unfold cEpsilon; norm_num) h3 hne
  · unfold AcqConstraint.estimate AcqConstraint.interpolateWithVariance at h2
    simp only [hf] at h2
    obtain ⟨⟨m', v⟩, hx, h2⟩ := bind_ok_inv h2
    obtain ⟨s', hs, h2⟩ := bind_ok_inv h2
    obtain ⟨rfl, rfl⟩ := Prod.mk.inj (Except.ok.inj h2)
    have hs' : s' = Real.sqrt v := by
      unfold cSqrt at hs
      split at hs
      · cases hs
      · exact (Except.ok.inj hs).symm
    subst hs'
    refine ⟨m', v, hx, h3.spread, fun h4 h5 => ?_⟩
    exact hall _ _ h4 h3 h5

/-- Not true in full: the user defined function `x` with the constraint `x < 0` at the point 0 is not
feasible, but its probability is 1. -/
theorem C79_false : ¬ C79_full := by
  intro h
  set c : AcqConstraint ℝ := ⟨0, ['<'], 0, some fun x => x.headD 0, fun _ => .error .logicError⟩ with hcd
  have hg : ∀ c' ∈ [c], GoodConstraint c' 1 := by
    intro c' hc'
    rw [List.mem_singleton.1 hc']
    exact ⟨Or.inl rfl, fun h => by cases h⟩
  have hn : Numbered [c] := by unfold Numbered; decide
  have hS : Answers (fun _ : List ℝ => (.ok (0, 4) : Res (ℝ × ℝ))) 1 :=
    fun _ _ => ⟨0, 4, rfl, by norm_num⟩
  obtain ⟨d0, d, p, -, e, -, hp, -⟩ := C61_product (o := ⟨_, 1, 1⟩) hS one_pos hn hg
    (lb := [0]) (ub := [2]) rfl rfl (dv := [0]) rfl
  obtain ⟨q, h1, h2, -⟩ := h ⟨_, 1, 1⟩ 1 [c] [0] [2] [0] d hS one_pos hn hg rfl rfl rfl e c (by simp)
  obtain ⟨x, hx, hq⟩ := h2 _ rfl
  obtain ⟨h3, m, s, h4, h5⟩ := hp c (by simp)
  have hden : Vec.denormalizeVector [(0 : ℝ)] [0] [2] = .ok [0] := by
    refine Vec.denormalizeVector_eq (x := [(0 : ℝ)]) rfl rfl rfl rfl ?_
    intro i hi
    obtain rfl : i = 0 := by simpa using hi
    simp
  rw [hden] at hx
  cases hx
  have h4' : c.estimate realFns [0] [2] [0] = .ok (0, cEpsilon) := bind_eq hden rfl
  rw [h4'] at h4
  cases h4
  have := h5.bound (by unfold cEpsilon; norm_num) rfl
  rw [h1] at h3
  cases h3
  rw [hq] at this
  simp [hcd, AcqConstraint.checkFeasibility] at this

/-- The two constraints of the example: the probability of the second one is that of the surrogate model,
the first one is satisfied. -/
example : ∃ d, acquisition realFns realErf ⟨fun _ => .ok (0, 4), 1, 1⟩ [0] [2] exampleConstraints [1 / 2]
    = .ok d ∧ ∃ p, vatInt d.probabilities 0 = .ok p ∧ |p - feasibility ['<'] 3 1 2| ≤ 1 / 10 ^ 19 := by
  have hS : Answers (fun _ : List ℝ => (.ok (0, 4) : Res (ℝ × ℝ))) 1 :=
    fun _ _ => ⟨0, 4, rfl, by norm_num⟩
  obtain ⟨d0, d, p, -, e, -⟩ := C61_product (o := ⟨_, 1, 1⟩) hS one_pos exampleConstraints_numbered
    exampleConstraints_good (lb := [0]) (ub := [2]) rfl rfl (dv := [1 / 2]) rfl
  refine ⟨d, e, ?_⟩
  obtain ⟨p, h1, -, h2⟩ := C79_partial (o := ⟨_, 1, 1⟩) hS one_pos exampleConstraints_numbered
    exampleConstraints_good (lb := [0]) (ub := [2]) rfl rfl (dv := [1 / 2]) rfl e
    (c := ⟨0, ['<'], 3, none, fun _ => .ok (1, 4)⟩) (by simp [exampleConstraints])
  obtain ⟨m, v, e1, h3, -⟩ := h2 rfl
  cases e1
  have h4 : Real.sqrt 4 = 2 := by
    rw [show (4 : ℝ) = 2 ^ 2 by norm_num, Real.sqrt_sq (by norm_num)]
  rw [h4] at h3
  exact ⟨p, h1, h3 (by norm_num)⟩

/-! ## C80 -/

/-- The full property: the probability of improvement is the probability that a normal variable with the
estimate and the deviation at the design is below the minimum, up to rounding. -/
def C80_full : Prop :=
  ∀ (o : AcqObjective ℝ) (d d' : AcqDesign ℝ) (f v : ℝ), o.surrogate d.dv = .ok (f, v) → 0 < v →
    o.calculateProbabilityOfImprovement realFns realErf d = .ok d' →
    |d'.value - feasibility ['<'] o.sampleMinimum f (Real.sqrt v)| ≤ 1 / 10 ^ 19

/-- The code takes the value that the design had before the call as the mean; estimate and deviation are
stored.  Missing: that the mean is the estimate (`C80_false`); this holds if the design already carries
its estimate, for example after `calculateExpectedImprovement`. -/
theorem C80_partial {o : AcqObjective ℝ} {d d' : AcqDesign ℝ} {f v : ℝ}
    (hS : o.surrogate d.dv = .ok (f, v)) (hv : 0 < v)
    (h : o.calculateProbabilityOfImprovement realFns realErf d = .ok d') :
    |d'.value - feasibility ['<'] o.sampleMinimum d.objectiveValue (Real.sqrt v)| ≤ 1 / 10 ^ 19 ∧
    d'.objectiveValue = f ∧ d'.sigma = Real.sqrt v ∧ 0 ≤ d'.value ∧ d'.value ≤ 1 := by
  have hs : 0 < Real.sqrt v := Real.sqrt_pos.2 hv
  have hc : (cSqrt2 : ℝ) ≠ 0 := by unfold cSqrt2; norm_num
  have e : o.calculateProbabilityOfImprovement realFns realErf d = .ok { d with
      sigma := Real.sqrt v, objectiveValue := f
      value := codePhi ((o.sampleMinimum - d.objectiveValue) / Real.sqrt v) } := by
    refine bind_eq hS (bind_eq (a := Real.sqrt v) ?_ (bind_eq ?_ rfl))
    · unfold cSqrt
      rw [if_neg (not_lt.2 hv.le)]
      rfl
    · unfold acqCdf codePhi
      rw [if_neg (mul_ne_zero hs.ne' hc), div_div]
  rw [e] at h
  cases h
  refine ⟨?_, rfl, rfl, (codePhi_range _).1, (codePhi_range _).2⟩
  rw [feasibility_eq (Or.inl rfl) _ _ hs, if_neg (by decide)]
  exact codePhi_close _

/-- After the expected improvement has been calculated for the same design the probability of improvement
is right. -/
theorem C80_after_improvement {o : AcqObjective ℝ} {d d1 d2 : AcqDesign ℝ} {f v : ℝ}
    (hS : o.surrogate d.dv = .ok (f, v)) (hv : 0 < v) (ho : 0 < o.sigmaFactor)
    (h1 : o.calculateExpectedImprovement realFns realErf d = .ok d1)
    (h2 : o.calculateProbabilityOfImprovement realFns realErf d1 = .ok d2) :
    |d2.value - feasibility ['<'] o.sampleMinimum f (Real.sqrt v)| ≤ 1 / 10 ^ 19 := by
  obtain ⟨d1', e, -, a1, -⟩ := C61_nonneg hS hv.le ho
  rw [h1] at e
  cases e
  have hdv : d1.dv = d.dv := by
    unfold AcqObjective.calculateExpectedImprovement at h1
    obtain ⟨r, -, h1⟩ := bind_ok_inv h1
    obtain ⟨s, -, h1⟩ := bind_ok_inv h1
    obtain ⟨w, -, h1⟩ := bind_ok_inv h1
    cases h1
    rfl
  have := (C80_partial (by rw [hdv]; exact hS) hv h2).1
  rwa [a1] at this

/-- Not true in full: minimum 0, estimate 100 and deviation 1 give 1/2 for a new design, because its
stored value is 0. -/
theorem C80_false : ¬ C80_full := by
  intro h
  set o : AcqObjective ℝ := ⟨fun _ => .ok (100, 1), 0, 1⟩ with ho
  have hS : o.surrogate (AcqDesign.new [] 0 : AcqDesign ℝ).dv = .ok (100, 1) := rfl
  have hex : ∃ d', o.calculateProbabilityOfImprovement realFns realErf (AcqDesign.new [] 0) = .ok d' := by
    have e1 : cSqrt realFns (1 : ℝ) = .ok (Real.sqrt 1) := by
      unfold cSqrt
      rw [if_neg (by norm_num)]
      rfl
    have e2 : acqCdf realErf (0 : ℝ) 0 (Real.sqrt 1) =
        .ok (1 / 2 * (1 + realErf ((0 - 0) / (Real.sqrt 1 * cSqrt2)))) := by
      unfold acqCdf
      rw [if_neg (mul_ne_zero (by simp) (by unfold cSqrt2; norm_num))]
    exact ⟨_, bind_eq hS (bind_eq e1 (bind_eq e2 rfl))⟩
  obtain ⟨d', e⟩ := hex
  have h1 := h o _ d' 100 1 hS one_pos e
  have h2 := (C80_partial hS one_pos e).1
  rw [feasibility_eq (Or.inl rfl) _ _ (by simp), if_neg (by decide)] at h1 h2
  have e1 : (o.sampleMinimum - (AcqDesign.new [] 0 : AcqDesign ℝ).objectiveValue) / Real.sqrt 1 = 0 := by
    simp [ho, AcqDesign.new]
  have e2 : (o.sampleMinimum - 100) / Real.sqrt 1 = -100 := by simp [ho]
  rw [e1] at h2
  rw [e2] at h1
  rw [gPhi_zero] at h2
  have h3 := improvement_nonneg (-100)
  have h4 := gphi_le_one (-100)
  have h5 := (abs_le.1 h1).2
  have h6 := (abs_le.1 h2).1
  norm_num at h5 h6
  linarith

/-- For a design with its estimate stored the probability is right. -/
example (d d' : AcqDesign ℝ) (hd : d.objectiveValue = 100)
    (h : (⟨fun _ => .ok (100, 1), 0, 1⟩ : AcqObjective ℝ).calculateProbabilityOfImprovement realFns realErf
      d = .ok d') : |d'.value - feasibility ['<'] 0 100 1| ≤ 1 / 10 ^ 19 := by
  have := (C80_partial (o := ⟨fun _ => .ok (100, 1), 0, 1⟩) (d := d) rfl one_pos h).1
  rwa [hd, Real.sqrt_one] at this

end Rodeo
