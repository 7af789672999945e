import Verif.Spec.CampaignRun

/-! # Specification: an optimization that is started again -/

namespace Rodeo.Spec

open Text EGO

/-- `w` is `v` rounded to twelve digits after the point. -/
def Rounded (v w : ℝ) : Prop := |v - w| ≤ 1 / 2 / 10 ^ 12 ∧ Decimals 12 w

/-- `y` is `x` rounded to twelve digits after the point. -/
def SameDigits (x y : List ℝ) : Prop := List.Forall₂ Rounded x y

/-- The design stays feasible when its parameters and its constraint values are rounded to twelve digits
after the point. -/
structure SafelyFeasible (E : EGOEnv ℝ) (d : Design ℝ) : Prop where
  box : ∀ y, SameDigits d.params y → InBox E.setup.problem.lb E.setup.problem.ub y
  user : ∀ c ∈ E.setup.problem.constraints, ∀ f, c.source = .user f →
    ∀ y, SameDigits d.params y → Holds c (f y)
  simulated : ∀ (k : Nat) c D v, E.setup.problem.constraints[k]? = some c → c.source = .data D →
    d.constraintTrueValues[k]? = some v → ∀ w, Rounded v w → Holds c w

/-- Design number `i` among `ds` is far from all the others and from the rows of the training data files at
the beginning. -/
def StandsAlone (E : CampaignEnv ℝ) (start : Option Nat → TrainingFile) (ds : List (Design ℝ)) (i : Nat)
    (d : Design ℝ) : Prop :=
  (∀ (j : Nat) d', ds[j]? = some d' → j ≠ i →
    ∃ l, l < E.base.setup.problem.dimension ∧ 2 / 10 ^ 4 < |vecFun d.params l - vecFun d'.params l|) ∧
  ∀ key, HasModel E key → ∀ r, r < (start key).rows →
    ∃ l, l < E.base.setup.problem.dimension ∧ 2 / 10 ^ 4 < |vecFun d.params l - (start key).table r l|

/-- The optimum the optimizer holds. -/
def optimum (p : CampaignState ℝ × Res Unit) : Design ℝ := p.1.1.global.design

/-- A second optimization of the same problem, with the files the first one left, before its first
iteration. -/
noncomputable def secondBegins (E' : CampaignEnv ℝ) (m0 : Models ℝ) (p : CampaignState ℝ × Res Unit)
    (s0' : EGOState ℝ) : CampaignState ℝ × Res Unit :=
  Campaign.perform E' true 0 (s0', { m0 with files := p.1.2.files })

/-- The values in the training data file of the objective function and those of the simulations are less
than `1e300`. -/
structure OrdinaryValues (E : CampaignEnv ℝ) (start : Option Nat → TrainingFile) : Prop where
  initial : ∀ i, i < (start none).rows → (start none).table i E.base.setup.problem.dimension < 10 ^ 300
  simulated : ∀ n x v, E.base.objective n x = .ok v → v < 10 ^ 300

end Rodeo.Spec
