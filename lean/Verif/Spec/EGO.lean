import Verif.Spec.History
import Verif.Spec.Optimizer
import Verif.Model.EGO

/-! # Specification: problems the optimizer accepts, and what one iteration is to do -/

namespace Rodeo.Spec

variable {K : Type} [Field K] [LinearOrder K] [IsStrictOrderedRing K]

/-- The problem is set up properly: a box with lower bounds below upper bounds, usable constraints numbered
by their position with distinct non-empty names, discrete parameters with positive increments, parameter
names for all parameters or none. -/
structure WellPosed (E : EGOEnv K) (names : List Text.Str) : Prop where
  boxSet : E.setup.problem.boxSet = true
  box : ValidBox E.setup.problem.dimension E.setup.problem.lb E.setup.problem.ub
  discrete : DiscreteBox E.setup.problem.dimension E.setup.discrete
  few : FewValues E.setup.discrete
  constraints : ∀ (k : Nat) c, E.setup.problem.constraints[k]? = some c →
    UsableConstraint E.setup.problem.dimension c ∧ c.id = (k : Int)
  constraintNames : E.constraintNames.length = E.setup.problem.constraints.length ∧
    E.constraintNames.Nodup ∧ [] ∉ E.constraintNames
  names : names = [] ∨ names.length = E.setup.problem.dimension

/-- Nothing outside the optimizer throws: simulations deliver numbers, the surrogates can be trained, samples
can be added to the training data; random numbers are in `[0, 1)`. -/
structure Responds (E : EGOEnv K) : Prop where
  objective : ∀ n x, ∃ v, E.objective n x = .ok v ∧ E.isNan v = false
  constraint : ∀ n k x, ∃ v, E.constraint n k x = .ok v ∧ E.isNan v = false
  user : ∀ c ∈ E.setup.problem.constraints, ∀ f x, c.source = .user f → E.isNan (f x) = false
  zero : E.isNan 0 = false
  init : E.initSurrogates = .ok ()
  train : ∀ n, E.train n = .ok ()
  addSample : ∀ n k x, E.addSample n k x = .ok ()
  complete : ∀ n i j, 0 ≤ (E.search n).complete i j ∧ (E.search n).complete i j < 1
  around : ∀ n i j, 0 ≤ (E.search n).around i j ∧ (E.search n).around i j < 1
  fuel : 27 ≤ E.fuel

/-- `v` is the value of constraint number `k` at `x` in iteration `n`. -/
def ConstraintValue (E : EGOEnv K) (n k : Nat) (c : Constraint K) (x : List K) (v : K) : Prop :=
  match c.source with
  | .user f => v = f x
  | .data _ => E.constraint n k x = .ok v

/-- `d` is a design of the box simulated in iteration `n`: its objective value and its constraint values are
those of the simulations at its parameters, and it is feasible exactly when all constraints hold. -/
structure Simulated (E : EGOEnv K) (n : Nat) (d : Design K) : Prop where
  box : InBox E.setup.problem.lb E.setup.problem.ub d.params
  objective : E.objective n d.params = .ok d.trueValue
  size : d.constraintTrueValues.length = E.setup.problem.constraints.length
  constraints : ∀ (k : Nat) c, E.setup.problem.constraints[k]? = some c →
    ∃ v, d.constraintTrueValues[k]? = some v ∧ ConstraintValue E n k c d.params v
  feasible : d.feasible = true ↔ ∀ (k : Nat) c v, E.setup.problem.constraints[k]? = some c →
    d.constraintTrueValues[k]? = some v → Holds c v

/-- The sample constraint number `k` gets: none for a user defined function. -/
def constraintSample (c : Constraint K) (k : Nat) (d : Design K) : List (Option Nat × List K) :=
  match c.source with
  | .user _ => []
  | .data _ => [(some k, d.params ++ [d.constraintTrueValues.getD k 0])]

/-- The samples a simulated design adds to the training data: one for the objective, one for every constraint
with training data. -/
def newSamples (E : EGOEnv K) (d : Design K) : List (Option Nat × List K) :=
  (none, d.params ++ [d.trueValue]) ::
    E.setup.problem.constraints.zipIdx.flatMap (fun c => constraintSample c.1 c.2 d)

end Rodeo.Spec
