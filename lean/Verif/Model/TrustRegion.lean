import Verif.Model.Design

/-! # Model of the trust region of the optimizer
(`Optimizers/optimization.cpp`, `Optimizers/efficient_global_optimization.cpp`)

`double` is an ordered field, so `1.0 / dimension` with a positive dimension is exact. -/

namespace Rodeo

variable {K : Type} [Field K] [LinearOrder K] [IsStrictOrderedRing K]

/-- The members `trSuccessCounter` .. `trLengthMax` of `Optimizer`
(Optimizers/INCLUDE/optimization.hpp 174-180).  The counters are reset before they can overflow. -/
structure TrustRegion (K : Type) where
  successCounter : Nat
  failureCounter : Nat
  successTolerance : Nat
  failureTolerance : Nat
  length : K
  lengthMin : K
  lengthMax : K
  deriving DecidableEq

namespace TrustRegion

/-- The members of a new optimizer (optimization.hpp 174-180) after `initializeOptimizerSettings`
(optimization.cpp 50-67) for dimension `dim`; `trLength` is not touched by the latter. -/
def start (dim : Nat) : TrustRegion K where
  successCounter := 0
  failureCounter := 0
  successTolerance := 3
  failureTolerance := 15
  length := 8 / 10
  lengthMin := (1 / 2) ^ 8 * (1 / (dim : K))
  lengthMax := 1 / (dim : K)

/-- What an improvement does (efficient_global_optimization.cpp 54-64). -/
def success (t : TrustRegion K) : TrustRegion K :=
  let t := { t with successCounter := t.successCounter + 1, failureCounter := 0 }
  if t.successCounter = t.successTolerance then
    let l := t.length * 2
    { t with length := if l > t.lengthMax then t.lengthMax else l, successCounter := 0 }
  else t

/-- What an iteration without improvement does (efficient_global_optimization.cpp 85-98). -/
def failure (t : TrustRegion K) : TrustRegion K :=
  let t := { t with failureCounter := t.failureCounter + 1, successCounter := 0 }
  if t.failureCounter = t.failureTolerance then
    let l := t.length / 2
    { t with length := if l < t.lengthMin then t.lengthMin else l, failureCounter := 0 }
  else t

/-- One iteration: `improved` is `currentBestDesign.improvementValue >
globalOptimalDesign.improvementValue` (efficient_global_optimization.cpp 49-101). -/
def step (t : TrustRegion K) (improved : Bool) : TrustRegion K :=
  if improved then t.success else t.failure

/-- The trust region after the iterations with the given outcomes. -/
def run (t : TrustRegion K) : List Bool → TrustRegion K
  | [] => t
  | b :: l => run (t.step b) l

end TrustRegion

namespace Vec

/-- `vec::operator+(const vec&)` (vector.cpp 133-143). -/
def add (v w : List K) : Res (List K) :=
  if v.length ≠ w.length then .error .invalidArgument
  else tab v.length fun i =>
    match rawAt v i, rawAt w i with
    | .ok a, .ok b => .ok (a + b)
    | .error e, _ => .error e
    | _, .error e => .error e

/-- `vec::operator+(double)` (vector.cpp 210-217). -/
def addScalar (v : List K) (a : K) : List K := v.map (fun x => x + a)

/-- `vec::operator-(double)` (vector.cpp 219-226). -/
def subScalar (v : List K) (a : K) : List K := v.map (fun x => x - a)

end Vec

/-- One round of the loop in `trimVectorSoThatItStaysWithinTheBounds` (optimization.cpp 447-454). -/
def trimBody (top : K) (i : Nat) (x : List K) : Res (List K) := do
  let a ← vat x i
  let x1 := if a < 0 then x.set i 0 else x
  let b ← vat x1 i
  .ok (if b > top then x1.set i top else x1)

/-- `Optimizer::trimVectorSoThatItStaysWithinTheBounds` (optimization.cpp 443-455). -/
def trimVector (dim : Nat) (x : List K) : Res (List K) :=
  if dim = 0 then .error .runtimeError
  else forRange dim (trimBody (1 / (dim : K))) x

/-- `Optimizer::defineTrustRegion` (optimization.cpp 346-369): the lower and upper bounds of the
acquisition search. -/
def defineTrustRegion (dim : Nat) (incumbent : List K) (trLength : K) : Res (List K × List K) :=
  if dim = 0 then .error .runtimeError
  else if incumbent.length ≠ dim then .error .runtimeError
  else if incumbent.length = 0 then .error .runtimeError
  else do
    let delta := (1 / (dim : K)) * trLength
    let lb ← trimVector dim (Vec.subScalar incumbent delta)
    let ub ← trimVector dim (Vec.addScalar incumbent delta)
    .ok (lb, ub)

/-- `Optimizer::changeSettingsForAGradientBasedStep` (optimization.cpp 371-388) with
`validateFactorGradientStepWindow` (336-343). -/
def gradientStepWindow (dim : Nat) (incumbent : List K) (factor trFactor : K) :
    Res (List K × List K) :=
  if factor ≤ 0 ∨ factor > 1 then .error .invalidArgument
  else if dim = 0 then .error .runtimeError
  else if incumbent.length ≠ dim then .error .runtimeError
  else do
    let delta := (factor / (dim : K)) * trFactor
    let lb ← trimVector dim (Vec.subScalar incumbent delta)
    let ub ← trimVector dim (Vec.addScalar incumbent delta)
    .ok (lb, ub)

end Rodeo
