import Verif.Props.Acquisition

/-! # The same optimization problem in other units -/

namespace Rodeo.Spec

open Text

/-- The values of the objective function in other units: `a v + b` instead of `v`.  The model of the new
values predicts the old ones in the new units (`C107`), and so does the best value so far. -/
structure SameObjective (dim : Nat) (o o' : AcqObjective ℝ) (a b : ℝ) : Prop where
  unit : 0 < a
  model : ∀ x f v, x.length = dim → o.surrogate x = .ok (f, v) → o'.surrogate x = .ok (a * f + b, a ^ 2 * v)
  minimum : o'.sampleMinimum = a * o.sampleMinimum + b
  factor : o'.sigmaFactor = o.sigmaFactor

/-- A constraint in other units: `a g + b` instead of `g`, with the bound in the same units.  If `a` is
negative, the inequality is turned round. -/
structure SameConstraint (dim : Nat) (c c' : AcqConstraint ℝ) (a b : ℝ) : Prop where
  unit : a ≠ 0
  number : c'.id = c.id
  target : c'.target = a * c.target + b
  type : (0 < a ∧ c'.type = c.type) ∨ (a < 0 ∧ (c.type = ['<'] ∧ c'.type = ['>'] ∨ c.type = ['>'] ∧ c'.type = ['<']))
  user : ∀ f, c.userDefined = some f → ∃ g, c'.userDefined = some g ∧ ∀ x, g x = a * f x + b
  model : c.userDefined = none → c'.userDefined = none ∧ ∀ x m v, x.length = dim → c.surrogate x = .ok (m, v) →
    c'.surrogate x = .ok (a * m + b, a ^ 2 * v)

/-- The functions of the search are what the code computes. -/
def IsAcquisition (dim : Nat) (E : Acq ℝ) (o : AcqObjective ℝ) (lb ub : List ℝ) (cs : List (AcqConstraint ℝ)) : Prop :=
  ∀ dv : List ℝ, dv.length = dim →
    (∃ d, o.calculateExpectedImprovement realFns realErf (AcqDesign.new dv cs.length) = .ok d ∧
      d.value = E.ei dv) ∧
    (∃ d, acquisition realFns realErf o lb ub cs dv = .ok d ∧ d.value = E.value dv)

/-- The deviation of the objective at a point is zero, or large compared to the smallest deviation that the
code tells from zero (`1e-13`), in both units. -/
def ClearObjective (o : AcqObjective ℝ) (a : ℝ) (dv : List ℝ) : Prop :=
  ∀ f v, o.surrogate dv = .ok (f, v) → v = 0 ∨
    (cEpsilon < o.sigmaFactor * Real.sqrt v ∧ cEpsilon < a * (o.sigmaFactor * Real.sqrt v))

/-- The same for a constraint, where the smallest deviation is `1e-12`.  A value without deviation that is
exactly on the bound may not be turned round (`C79_false`). -/
def ClearConstraint (c : AcqConstraint ℝ) (a : ℝ) (lb ub dv : List ℝ) : Prop :=
  ∀ m s, c.estimate realFns lb ub dv = .ok (m, s) →
    (c.userDefined = none ∧ 1 / 10 ^ 12 ≤ s ∧ 1 / 10 ^ 12 ≤ |a| * s) ∨
    ((c.userDefined ≠ none ∨ s = 0) ∧ (0 < a ∨ m ≠ c.target))

end Rodeo.Spec
