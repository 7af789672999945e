import Verif.Model.TrustRegion
import Verif.Model.DblSearch

/-! # The trust region in double arithmetic
(`Optimizers/optimization.cpp`, `Optimizers/efficient_global_optimization.cpp`)

The functions of `Verif.Model.TrustRegion` with every operation rounded; `Dbl.defineTrustRegion` is in
`Verif.Model.DblSearch`. -/

namespace Rodeo.Dbl

variable {K : Type} [Field K] [LinearOrder K] [IsStrictOrderedRing K] [FloorRing K]

/-- The members of a new optimizer (optimization.hpp 174-180) after `initializeOptimizerSettings`
(optimization.cpp 50-67); `pow(0.5,8)` is exact. -/
def trStart (dim : Nat) : Res (TrustRegion K) := do
  let top ← div 1 (dim : K)
  let low ← mul ((1 / 2) ^ 8) top
  .ok ⟨0, 0, 3, 15, lit (8 / 10), low, top⟩

/-- What an improvement does (efficient_global_optimization.cpp 54-64). -/
def trSuccess (t : TrustRegion K) : Res (TrustRegion K) :=
  let t := { t with successCounter := t.successCounter + 1, failureCounter := 0 }
  if t.successCounter = t.successTolerance then do
    let l ← mul t.length 2
    .ok { t with length := if l > t.lengthMax then t.lengthMax else l, successCounter := 0 }
  else .ok t

/-- What an iteration without improvement does (efficient_global_optimization.cpp 85-98). -/
def trFailure (t : TrustRegion K) : Res (TrustRegion K) :=
  let t := { t with failureCounter := t.failureCounter + 1, successCounter := 0 }
  if t.failureCounter = t.failureTolerance then do
    let l ← div t.length 2
    .ok { t with length := if l < t.lengthMin then t.lengthMin else l, failureCounter := 0 }
  else .ok t

/-- One iteration (efficient_global_optimization.cpp 49-101). -/
def trStep (t : TrustRegion K) (improved : Bool) : Res (TrustRegion K) :=
  if improved then trSuccess t else trFailure t

/-- The trust region after the iterations with the given outcomes (efficient_global_optimization.cpp 49-101). -/
def trRun (t : TrustRegion K) : List Bool → Res (TrustRegion K)
  | [] => .ok t
  | b :: l => do
    let t' ← trStep t b
    trRun t' l

/-- `Optimizer::changeSettingsForAGradientBasedStep` (optimization.cpp 371-388) with
`validateFactorGradientStepWindow` (336-343). -/
def gradientStepWindow (dim : Nat) (incumbent : List K) (factor trFactor : K) : Res (List K × List K) :=
  if factor ≤ 0 ∨ factor > 1 then .error .invalidArgument
  else if dim = 0 then .error .runtimeError
  else if incumbent.length ≠ dim then .error .runtimeError
  else do
    let a ← div factor (dim : K)
    let delta ← mul a trFactor
    let lb ← subScalar incumbent delta
    let ub ← addScalar incumbent delta
    let lb ← trimVector dim lb
    let ub ← trimVector dim ub
    .ok (lb, ub)

end Rodeo.Dbl
