import Verif.Model.DblVar
import Verif.Model.Acquisition

/-! # The acquisition function in double arithmetic (`ObjectiveFunctions/objective_function.cpp`,
`Design/design_bo.cpp`)

The functions of `Model/Acquisition` with every operation rounded.  `erf` is the function of the C library: a
parameter. -/

namespace Rodeo.Dbl

variable {K : Type} [Field K] [LinearOrder K] [IsStrictOrderedRing K] [FloorRing K]

/-- `ObjectiveFunction::cdf` (objective_function.cpp 1011-1017) and `DesignForBayesianOptimization::cdf`
(design_bo.cpp 180-186).  A quotient that is infinite ends the run of the model; in the code the error function
of it is 1 or -1, or not a number. -/
def cdf (erf : K → K) (x0 mu sigma : K) : Res K := do
  let d ← sub x0 mu
  let q ← mul sigma (lit cSqrt2)
  let inp ← div d q
  let t ← add 1 (erf inp)
  mul (1 / 2) t

/-- `ObjectiveFunction::pdf` (objective_function.cpp 992-997).  An argument of `exp` that is infinite ends the
run of the model; in the code the result is zero. -/
def pdf (L : Libm K) (x m s : K) : Res K := do
  let d ← sub x m
  let a ← div d s
  let c ← div (lit cInvSqrt2Pi) s
  let h ← mul (-(1 / 2)) a
  let e ← mul h a
  mul c (L.exp e)

/-- The common part of `calculateExpectedImprovement` and `calculateExpectedImprovementUsingDerivatives`
(objective_function.cpp 428-445, 468-489). -/
def acqValue (L : Libm K) (erf : K → K) (sampleMinimum ftilde sigma : K) : Res K :=
  if |sigma| > lit cEpsilon then do
    let improvement ← sub sampleMinimum ftilde
    let Z ← div improvement sigma
    let c ← cdf erf Z 0 1
    let a ← mul improvement c
    let p ← pdf L Z 0 1
    let b ← mul sigma p
    add a b
  else .ok 0

/-- What `ObjectiveFunction::calculateExpectedImprovement` stores in the design: the members
`objectiveFunctionValue`, `sigma` and `valueAcquisitionFunction`. -/
structure Acquired (K : Type) where
  objectiveValue : K
  sigma : K
  value : K

/-- `ObjectiveFunction::calculateExpectedImprovement` (objective_function.cpp 452-495) for a Kriging model.
The root is the one in `predict`. -/
def expectedImprovement (sqrt : K → K) (L : Libm K) (erf : K → K) (s : Corr.ExpCorr K) (u : Updated K)
    (sampleMinimum sigmaFactor : K) (x : List K) : Res (Acquired K) := do
  let r ← predict sqrt L s u x
  let sigma ← mul sigmaFactor r.2
  let v ← acqValue L erf sampleMinimum r.1 sigma
  .ok ⟨r.1, r.2, v⟩

/-- `calculateProbalityThatTheEstimateIsLessThanAValue` (design_bo.cpp 190-195). -/
def probabilityLess (erf : K → K) (value estimate sigma : K) : Res K := cdf erf value estimate sigma

/-- `calculateProbalityThatTheEstimateIsGreaterThanAValue` (design_bo.cpp 196-201). -/
def probabilityGreater (erf : K → K) (value estimate sigma : K) : Res K := do
  let c ← cdf erf value estimate sigma
  sub 1 c

/-- `updateAcqusitionFunctionAccordingToConstraints` (design_bo.cpp 204-212). -/
def timesProbabilities : K → List K → Res K
  | v, [] => .ok v
  | v, p :: ps => do
    let v' ← mul v p
    timesProbabilities v' ps

end Rodeo.Dbl
