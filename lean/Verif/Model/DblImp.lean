import Verif.Model.Dbl
import Verif.Model.InitHistory

/-! # Improvement values in double arithmetic (`Optimizers/optimization.cpp`) -/

namespace Rodeo.Dbl

variable {K : Type} [Field K] [LinearOrder K] [IsStrictOrderedRing K] [FloorRing K]

/-- `std::fabs(bestFeasibleInitialValue + std::numeric_limits<double>::max()) < tolerance`
(optimization.cpp 1378, 1387): an infinite sum is not below the tolerance. -/
def isLowest (best : K) : Bool :=
  match add best dblMax with
  | .ok s => decide (|s| < lit (1 / 10 ^ 5))
  | .error _ => false

/-- `Optimizer::calculateImprovementValue` (optimization.cpp 1376-1399): the new
`bestFeasibleInitialValue` and the improvement value of the design.  An infinite difference is
`Err.nonFinite`. -/
def improvementValue (best : K) (feasible : Bool) (trueValue : K) : Res (K × K) :=
  if feasible then
    let (best', imp) := if isLowest best then (trueValue, dblEps) else (best, 0)
    if trueValue < best' then do
      let d ← sub best' trueValue
      .ok (best', d)
    else .ok (best', imp)
  else .ok (best, 0)

/-- The improvement values of a sequence of designs, as in the optimization loop
(efficient_global_optimization.cpp 34): `bestFeasibleInitialValue` is carried from one call to the
next. -/
def improvementValues (best : K) : List (Bool × K) → Res (List K)
  | [] => .ok []
  | (f, v) :: l => do
    let r ← improvementValue best f v
    let t ← improvementValues r.1 l
    .ok (r.2 :: t)

end Rodeo.Dbl
