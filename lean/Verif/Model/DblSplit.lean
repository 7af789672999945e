import Verif.Model.Dbl
import Verif.Model.SurrogateData

/-! # The number of validation samples in double arithmetic (`SurrogateModels/surrogate_model_data.cpp`) -/

namespace Rodeo.Dbl

variable {K : Type} [Field K] [LinearOrder K] [IsStrictOrderedRing K] [FloorRing K]

/-- `static_cast<int>(x)`: towards zero; undefined if the result is not an `int`. -/
def toInt (x : K) : Res Int :=
  let k := if 0 ≤ x then ⌊x⌋ else -⌊-x⌋
  if -2 ^ 31 ≤ k ∧ k < 2 ^ 31 then .ok k else .error .ub

/-- The size computed by `generateRandomIndicesForValidationData` (surrogate_model_data.cpp 82-88). -/
def validationCount (N : Nat) (ratio : K) : Res Nat := do
  let p ← mul ratio (N : K)
  let k ← toInt p
  .ok (if k > N then N else if k < 0 then 0 else k.toNat)

end Rodeo.Dbl
