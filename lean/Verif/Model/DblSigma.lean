import Verif.Model.DblCrowd
import Verif.Model.EGO

/-! # The exploration factor in double arithmetic (`Optimizers/optimization.cpp`)

Here overflow is not the end of the run: results may be infinite or NaN. -/

namespace Rodeo.Dbl

variable {K : Type} [Field K] [LinearOrder K] [IsStrictOrderedRing K] [FloorRing K]

/-- The result of an operation with exact value `x`, infinite on overflow. -/
def ext (x : K) : Ext K := if |fl x| < 2 ^ 1024 then .fin (fl x) else if 0 < x then .pinf else .ninf

/-- `a / b` on finite doubles, where `b = 0` is a positive zero. -/
def extDiv (a b : K) : Ext K :=
  if b ≠ 0 then ext (a / b) else if a > 0 then .pinf else if a < 0 then .ninf else .nan

/-- `m * x` where `m` is finite. -/
def extScale (m : K) : Ext K → Ext K
  | .fin x => ext (m * x)
  | .pinf => if m > 0 then .pinf else if m < 0 then .ninf else .nan
  | .ninf => if m > 0 then .ninf else if m < 0 then .pinf else .nan
  | .nan => .nan

/-- The factor computed in `Optimizer::adjustSigmaFactor` (optimization.cpp 1260-1289), as
`Rodeo.sigmaFactorOf`, for a finite multiplier. -/
def sigmaFactorOf (coefficient crowding multiplier : K) (draw : Int × K) (lo hi : K) : Ext K :=
  let s := extScale multiplier (extDiv coefficient crowding)
  let s := if draw.1 % 5 = 0 then extScale draw.2 s else s
  let s := if s.lt lo then .fin lo else s
  if s.gt hi then .fin hi else s

/-- `Optimizer::adjustSigmaFactor` (optimization.cpp 1260-1289) with the limits of
`initializeOptimizerSettings` (59-60): the history with the new crowding factor, and the new factor. -/
def adjustSigmaFactor (h : History K) (coefficient multiplier : K) (draw : Int × K) :
    Res (History K × Ext K) := do
  let h' ← calculateCrowdingFactor h
  .ok (h', sigmaFactorOf coefficient h'.crowding multiplier draw 1 100)

/-- The multiplier after `k` iterations without reset: `sigmaMultiplier*sigmaGrowthFactor`
(efficient_global_optimization.cpp 106), from 1 (Optimizers/INCLUDE/optimization.hpp 201) and with the growth
factor 1.01 (202). -/
def multiplierAfter : Nat → Res K
  | 0 => .ok 1
  | k + 1 => do
    let m ← multiplierAfter k
    mul m (lit (101 / 100))

end Rodeo.Dbl
