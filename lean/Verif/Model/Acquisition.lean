import Verif.Model.Kriging
import Verif.Model.Design
import Mathlib.MeasureTheory.Integral.IntervalIntegral.Basic

/-! # Model of the acquisition function
(`ObjectiveFunctions/objective_function.cpp`, `ObjectiveFunctions/constraint_functions.cpp`,
`Optimizers/optimization_constraint_functions.cpp`, `Design/design_bo.cpp`)

A surrogate model is the function that `interpolateWithVariance` computes. -/

namespace Rodeo

open Text

/-- The error function as a real function. -/
noncomputable def realErf (x : ℝ) : ℝ := 2 / Real.sqrt Real.pi * ∫ t in (0 : ℝ)..x, Real.exp (-t ^ 2)

variable {K : Type} [Field K] [LinearOrder K] [IsStrictOrderedRing K]

/-- `SQRT2` (INCLUDE/globals.hpp 10), the decimal number of the source. -/
def cSqrt2 : K := 14142135623730950488 / 10 ^ 19

/-- `INVSQRT2PI` (INCLUDE/globals.hpp 6), the decimal number of the source. -/
def cInvSqrt2Pi : K := 3989422804014327 / 10 ^ 16

/-- `EPSILON = 10E-14` (INCLUDE/globals.hpp 8). -/
def cEpsilon : K := 10 / 10 ^ 14

/-- `DesignForBayesianOptimization` (Design/INCLUDE/design.hpp 11-32); `dim` is the length of `dv`. -/
structure AcqDesign (K : Type) where
  dv : List K
  objectiveValue : K
  value : K
  sigma : K
  constraintValues : List K
  constraintSigmas : List K
  probabilities : List K
  deriving DecidableEq

/-- `DesignForBayesianOptimization(designVector, numberOfConstraints)` (design_bo.cpp 44-54). -/
def AcqDesign.new (dv : List K) (numberOfConstraints : Nat) : AcqDesign K :=
  ⟨dv, 0, 0, 0, List.replicate numberOfConstraints 0, List.replicate numberOfConstraints 0, []⟩

/-- `ObjectiveFunction::cdf` (objective_function.cpp 1011-1017) and
`DesignForBayesianOptimization::cdf` (design_bo.cpp 180-186).  If the denominator is zero the quotient
is infinite, with the error function 1 or -1, or not a number. -/
def acqCdf (erf : K → K) (x0 mu s : K) : Res K :=
  if s * cSqrt2 = 0 then
    if x0 - mu = 0 then .error .nonFinite
    else .ok (1 / 2 * (1 + (if x0 - mu > 0 then 1 else -1)))
  else .ok (1 / 2 * (1 + erf ((x0 - mu) / (s * cSqrt2))))

/-- `ObjectiveFunction::pdf` (objective_function.cpp 992-997). -/
def acqPdf (exp : K → K) (x m s : K) : Res K := do
  let a ← fdiv (x - m) s
  let c ← fdiv cInvSqrt2Pi s
  .ok (c * exp (-(1 / 2) * a * a))

/-- `sqrt` of `<cmath>`: not a number for negative arguments. -/
def cSqrt (F : Fns K) (x : K) : Res K := if x < 0 then .error .nonFinite else .ok (F.sqrt x)

/-- The common part of `calculateExpectedImprovement` and
`calculateExpectedImprovementUsingDerivatives`: the value of the acquisition function for the estimate
`ftilde` and the deviation `sigma` (objective_function.cpp 428-445, 468-489). -/
def acqValueOf (F : Fns K) (erf : K → K) (sampleMinimum ftilde sigma : K) : Res K :=
  if |sigma| > cEpsilon then do
    let improvement := sampleMinimum - ftilde
    let Z ← fdiv improvement sigma
    let c ← acqCdf erf Z 0 1
    let p ← acqPdf F.exp Z 0 1
    .ok (improvement * c + sigma * p)
  else .ok 0

/-- The members of `ObjectiveFunction` that the acquisition functions read (objective_function.hpp
112-122): the surrogate model, `sampleMinimum` and `sigmaFactor`. -/
structure AcqObjective (K : Type) where
  surrogate : List K → Res (K × K)
  sampleMinimum : K
  sigmaFactor : K

/-- `ObjectiveFunction::setFeasibleMinimum` (objective_function.cpp 394-398). -/
def AcqObjective.setFeasibleMinimum (o : AcqObjective K) (v : K) : AcqObjective K :=
  { o with sampleMinimum := v }

/-- `ObjectiveFunction::setSigmaFactor` (objective_function.cpp 962-967); a failed `assert` ends the
program. -/
def AcqObjective.setSigmaFactor (o : AcqObjective K) (factor : K) : Res (AcqObjective K) :=
  if factor > 0 then .ok { o with sigmaFactor := factor } else .error .abort

/-- `ObjectiveFunction::calculateExpectedImprovement` (objective_function.cpp 452-495). -/
def AcqObjective.calculateExpectedImprovement (F : Fns K) (erf : K → K) (o : AcqObjective K)
    (d : AcqDesign K) : Res (AcqDesign K) := do
  let r ← o.surrogate d.dv
  let sigma ← cSqrt F r.2
  let v ← acqValueOf F erf o.sampleMinimum r.1 (o.sigmaFactor * sigma)
  .ok { d with sigma := sigma, value := v, objectiveValue := r.1 }

/-- `ObjectiveFunction::calculateProbabilityOfImprovement` (objective_function.cpp 498-513) with
`calculateProbalityThatTheEstimateIsLessThanAValue` (design_bo.cpp 190-195), which reads the value of
the objective function stored in the design before it is assigned. -/
def AcqObjective.calculateProbabilityOfImprovement (F : Fns K) (erf : K → K) (o : AcqObjective K)
    (d : AcqDesign K) : Res (AcqDesign K) := do
  let r ← o.surrogate d.dv
  let sigma ← cSqrt F r.2
  let PI ← acqCdf erf o.sampleMinimum d.objectiveValue sigma
  .ok { d with sigma := sigma, value := PI, objectiveValue := r.1 }

/-! ## Constraints -/

/-- The members of `ConstraintFunction` and `ConstraintDefinition` that are read here
(constraint_functions.hpp 18-50): the identity number, the type of the inequality, the bound, the user
defined function if there is one, and the surrogate model. -/
structure AcqConstraint (K : Type) where
  id : Int
  type : Str
  target : K
  userDefined : Option (List K → K)
  surrogate : List K → Res (K × K)

/-- `ConstraintFunction::interpolateWithVariance` (constraint_functions.cpp 262-282): estimate and
standard deviation. -/
def AcqConstraint.interpolateWithVariance (F : Fns K) (c : AcqConstraint K) (x : List K) :
    Res (K × K) :=
  match c.userDefined with
  | some f => .ok (f x, cEpsilon)
  | none => do
    let r ← c.surrogate x
    let s ← cSqrt F r.2
    .ok (r.1, s)

/-- `ConstraintFunction::checkFeasibility` (constraint_functions.cpp 136-150). -/
def AcqConstraint.checkFeasibility (c : AcqConstraint K) (v : K) : Bool :=
  if c.type = ['<'] then decide (v < c.target)
  else if c.type = ['>'] then decide (v > c.target)
  else false

/-- `v(ID)` with an `int` (LinearAlgebra/vector.cpp 126-131): a negative number becomes a huge
`unsigned int`. -/
def vatInt (v : List K) (i : Int) : Res K := if i < 0 then .error .outOfRange else vat v i.toNat

/-- `v(ID) = a` with an `int` (LinearAlgebra/vector.cpp 119-124). -/
def putInt (v : List K) (i : Int) (a : K) : Res (List K) :=
  if i < 0 then .error .outOfRange else Vec.put v i.toNat a

/-- The estimate of one constraint in `estimateConstraints` (optimization_constraint_functions.cpp
39-47). -/
def AcqConstraint.estimate (F : Fns K) (lb ub : List K) (c : AcqConstraint K) (x : List K) :
    Res (K × K) :=
  match c.userDefined with
  | some _ => do
    let xn ← Vec.denormalizeVector x lb ub
    c.interpolateWithVariance F xn
  | none => c.interpolateWithVariance F x

/-- One round of the loop of `estimateConstraints` (optimization_constraint_functions.cpp 37-52). -/
def estimateStep (F : Fns K) (lb ub : List K) (c : AcqConstraint K) (d : AcqDesign K) :
    Res (AcqDesign K) := do
  let r ← c.estimate F lb ub d.dv
  let v ← putInt d.constraintValues c.id r.1
  let s ← putInt d.constraintSigmas c.id r.2
  .ok { d with constraintValues := v, constraintSigmas := s }

/-- `Optimizer::estimateConstraints` (optimization_constraint_functions.cpp 32-53);
`numberOfConstraints` counts the calls of `addConstraint`, that is the entries of the list. -/
def estimateConstraints (F : Fns K) (lb ub : List K) (cs : List (AcqConstraint K)) (d : AcqDesign K) :
    Res (AcqDesign K) :=
  if d.constraintValues.length ≠ cs.length then .error .abort
  else foldRes (fun d c => estimateStep F lb ub c d) d cs

/-- `Optimizer::normalCdf` (optimization.cpp 1402-1416). -/
def normalCdf (erf : K → K) (value mu sigma : K) : Res K :=
  if sigma < 0 then .error .invalidArgument
  else if sigma < 1 / 10 ^ 12 then .ok (if value < mu then 0 else 1)
  else do
    let z ← fdiv (value - mu) (sigma * cSqrt2)
    .ok (1 / 2 * (1 + erf z))

/-- `calculateProbabilityLessThanAValue` (optimization.cpp 1418-1421). -/
def probabilityLess (erf : K → K) (value mu sigma : K) : Res K := normalCdf erf value mu sigma

/-- `calculateProbabilityGreaterThanAValue` (optimization.cpp 1423-1426). -/
def probabilityGreater (erf : K → K) (value mu sigma : K) : Res K := do
  let p ← normalCdf erf value mu sigma
  .ok (1 - p)

/-- One round of the loop of `calculateFeasibilityProbabilities`
(optimization_constraint_functions.cpp 99-116). -/
def probabilityStep (erf : K → K) (d : AcqDesign K) (c : AcqConstraint K) (ps : List K) :
    Res (List K) := do
  let m ← vatInt d.constraintValues c.id
  let s ← vatInt d.constraintSigmas c.id
  if c.type = ['>'] then do
    let p ← probabilityGreater erf c.target m s
    putInt ps c.id p
  else if c.type = ['<'] then do
    let p ← probabilityLess erf c.target m s
    putInt ps c.id p
  else .ok ps

/-- `Optimizer::calculateFeasibilityProbabilities` (optimization_constraint_functions.cpp 95-120).  The
vector starts with zeros. -/
def calculateFeasibilityProbabilities (erf : K → K) (cs : List (AcqConstraint K)) (d : AcqDesign K) :
    Res (AcqDesign K) := do
  let ps ← foldRes (fun ps c => probabilityStep erf d c ps) (List.replicate cs.length 0) cs
  .ok { d with probabilities := ps }

/-- `updateAcqusitionFunctionAccordingToConstraints` (design_bo.cpp 204-213). -/
def AcqDesign.updateAcquisition (d : AcqDesign K) : Res (AcqDesign K) := do
  let v ← forRange d.probabilities.length (fun i v => do
    let p ← vat d.probabilities i
    .ok (v * p)) d.value
  .ok { d with value := v }

/-- `Optimizer::addPenaltyToAcqusitionFunctionForConstraints` (optimization.cpp 237-247). -/
def addPenalty (F : Fns K) (erf : K → K) (lb ub : List K) (cs : List (AcqConstraint K))
    (d : AcqDesign K) : Res (AcqDesign K) :=
  if cs.length > 0 then do
    let d ← estimateConstraints F lb ub cs d
    let d ← calculateFeasibilityProbabilities erf cs d
    d.updateAcquisition
  else .ok d

/-- The value of the acquisition function for a candidate of the search (optimization.cpp 683-690,
724-729): a design with room for the constraints, expected improvement and penalty. -/
def acquisition (F : Fns K) (erf : K → K) (o : AcqObjective K) (lb ub : List K)
    (cs : List (AcqConstraint K)) (dv : List K) : Res (AcqDesign K) := do
  let d ← o.calculateExpectedImprovement F erf (AcqDesign.new dv cs.length)
  addPenalty F erf lb ub cs d

end Rodeo
