import Verif.Model.DblLin
import Verif.Model.History

/-! # The crowding factor in double arithmetic (`Optimizers/optimization_history.cpp`)

The functions of `Model/History` with every operation rounded. -/

namespace Rodeo.Dbl

variable {K : Type} [Field K] [LinearOrder K] [IsStrictOrderedRing K] [FloorRing K]

/-- `vec::operator-` (vector.cpp 145-155). -/
def rowSub (v w : List K) : Res (List K) :=
  if v.length ≠ w.length then .error .invalidArgument
  else tab v.length fun i => do
    let a ← rawAt v i
    let b ← rawAt w i
    sub a b

/-- `vec::norm(L1)` (vector.cpp 615-619). -/
def normL1 (v : List K) : Res K :=
  sumFrom 0 v.length fun i => do
    let a ← rawAt v i
    .ok |a|

/-- The body of the inner loop of `calculateCrowdingFactor` (optimization_history.cpp 301-304). -/
def crowdingTerm (A : Mat K) (x1 : List K) (j : Nat) (s : K) : Res K := do
  let x2 ← Mat.getRow A j
  let d ← rowSub x1 x2
  let normDiff ← normL1 d
  let t ← mul normDiff 2
  add s t

/-- The sum over pairs in `calculateCrowdingFactor` (optimization_history.cpp 293-306). -/
def crowdingSum (A : Mat K) : Res K :=
  forRange A.nrows (fun i s => do
    let x1 ← Mat.getRow A i
    Mat.forFromTo (i + 1) A.nrows (crowdingTerm A x1) s) 0

/-- The mean in `calculateCrowdingFactor` (optimization_history.cpp 309-317).  The number of pairs and its
double are `unsigned int`; as doubles they are exact. -/
def crowdingMean (nrows : Nat) (sum : K) : Res K :=
  let numPairs := nrows * (nrows - 1) % 2 ^ 32 / 2
  if numPairs > 0 then div sum ((numPairs * 2 % 2 ^ 32 : Nat) : K) else .ok 0

/-- `OptimizationHistory::calculateCrowdingFactor` (optimization_history.cpp 279-317), as
`History.calculateCrowdingFactor`. -/
def calculateCrowdingFactor (h : History K) : Res (History K) :=
  if h.data.nrows = 0 ∨ h.dimension = 0 ∨ h.numberOfDoESamples = 0 then .error .runtimeError
  else do
    let A ←
      if h.data.nrows ≥ h.numberOfDoESamples then
        Mat.submat h.data (h.data.nrows - h.numberOfDoESamples) (h.data.nrows - 1) 0 (h.dimension - 1)
      else Mat.submat h.data 0 0 (h.data.nrows - 1) (h.dimension - 1)
    let sum ← crowdingSum A
    let c ← crowdingMean A.nrows sum
    .ok { h with crowding := c }

end Rodeo.Dbl
