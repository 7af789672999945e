import Verif.Model.Design
import Mathlib.Algebra.Order.Floor.Ring

/-! # Model of the discrete parameters of the optimizer (`Optimizers/optimization.cpp`) -/

namespace Rodeo

variable {K : Type} [Field K] [LinearOrder K] [IsStrictOrderedRing K] [FloorRing K]

/-- `static_cast<unsigned int>(x)`: truncation, undefined if the truncated value does not fit. -/
def toU32 (x : K) : Res Nat :=
  if x ≤ -1 ∨ x ≥ 2 ^ 32 then .error .ub else .ok (Int.floor x).toNat

/-- The members of `Optimizer` that describe the box and the discrete parameters
(Optimizers/INCLUDE/optimization.hpp 109-110, 203-206); `setParameterToDiscrete`
(optimization.cpp 74-82) keeps the two lists equally long. -/
structure DiscreteSetup (K : Type) where
  lb : List K
  ub : List K
  increments : List K
  indices : List Nat

/-- `Optimizer::setParameterToDiscrete` (optimization.cpp 74-82). -/
def DiscreteSetup.add (s : DiscreteSetup K) (dim index : Nat) (increment : K) :
    Res (DiscreteSetup K) :=
  if ¬ index < dim then .error .abort
  else .ok { s with increments := s.increments ++ [increment], indices := s.indices ++ [index] }

/-- `Optimizer::generateDiscreteValues` (optimization.cpp 1348-1357).  For `dx = 0` the quotient is
infinite or NaN and the conversion to `unsigned int` is undefined. -/
def generateDiscreteValues (s : DiscreteSetup K) (index : Nat) (dx : K) : Res (List K) := do
  let u ← vat s.ub index
  let l ← vat s.lb index
  if dx = 0 then .error .ub
  else do
    let n ← toU32 ((u - l) / dx)
    tab ((n + 1) % 2 ^ 32) fun k => do
      let l ← vat s.lb index
      .ok (l + (k : K) * dx)

/-- `Optimizer::findClosestDiscreteValue` (optimization.cpp 1332-1346).  The loop state is
`(minDistance, closestIndex)`; the loop starts at 1. -/
def findClosestDiscreteValue (value : K) (values : List K) : Res Nat := do
  let v0 ← vat values 0
  let s ← loopFrom (fun i (s : K × Nat) => do
    let v ← vat values i
    .ok (if |value - v| < s.1 then (|value - v|, i) else s)) 1 (values.length - 1) (|value - v0|, 0)
  .ok s.2

/-- One round of the loop in `roundDiscreteParameters` (optimization.cpp 1362-1373). -/
def roundOne (s : DiscreteSetup K) (j : Nat) (dv : List K) : Res (List K) := do
  let index ← rawAt s.indices j
  let value ← vat dv index
  let dx ← rawAt s.increments j
  let values ← generateDiscreteValues s index dx
  let k ← findClosestDiscreteValue value values
  let v ← vat values k
  Vec.put dv index v

/-- `Optimizer::roundDiscreteParameters` (optimization.cpp 1360-1375). -/
def roundDiscreteParameters (s : DiscreteSetup K) (dv : List K) : Res (List K) :=
  if s.indices.length > 0 then forRange s.indices.length (roundOne s) dv else .ok dv

/-- `if(areDiscreteParametersUsed()) roundDiscreteParameters(best_dv);` (optimization.cpp 1202-1204). -/
def roundIfDiscrete (s : DiscreteSetup K) (dv : List K) : Res (List K) :=
  if s.indices.length > 0 then roundDiscreteParameters s dv else .ok dv

/-- The end of `Optimizer::findTheMostPromisingDesignToBeSimulated` (optimization.cpp 1199-1210): the
normalized and the actual parameters of the design to be simulated. -/
def designToSimulate (s : DiscreteSetup K) (dvNorm : List K) : Res (List K × List K) := do
  let dv ← Vec.denormalizeVector dvNorm s.lb s.ub
  let dv ← roundIfDiscrete s dv
  .ok (dvNorm, dv)

end Rodeo
