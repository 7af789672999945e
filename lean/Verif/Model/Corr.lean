import Verif.Model.Solve
import Verif.Model.Vec
import Mathlib.Analysis.SpecialFunctions.Pow.Real

/-! # Correlation functions

The pairwise functions take raw pointers and a length: element `i` of an array that is too short is
undefined behaviour.  `exp` and `pow` are parameters; `pow` may fail (a zero base with a negative
exponent is not finite).  The OpenBLAS variants compute the same sums in another order and are not
modelled. -/

namespace Rodeo.Corr

variable {K : Type} [Field K] [LinearOrder K] [IsStrictOrderedRing K]

/-- `std::pow` on the reals for a nonnegative base (the only use: the base is an absolute value).
A zero base with a negative exponent gives an infinity. -/
noncomputable def realPow (a b : ℝ) : Res ℝ :=
  if a = 0 ∧ b < 0 then .error .nonFinite else .ok (a ^ b)

/-- `vec::computeGaussianCorrelationNaive` (vector.cpp 943-951). -/
def gaussian (exp : K → K) (v1 v2 theta : List K) (n : Nat) : Res K := do
  let sum ← Mat.sumLoop n fun i => do
    let a ← rawAt v1 i
    let b ← rawAt v2 i
    let t ← rawAt theta i
    .ok (t * ((a - b) * (a - b)))
  .ok (exp (-sum))

/-- `vec::computeGaussianCorrelationDot` (vector.cpp 954-974): the state is `(sumd, sum)`. -/
def gaussianDot (exp : K → K) (xi xj direction theta : List K) (n : Nat) : Res K := do
  let s ← forRange n (fun k (s : K × K) => do
    let a ← rawAt xi k
    let b ← rawAt xj k
    let t ← rawAt theta k
    let d ← rawAt direction k
    .ok (s.1 + -2 * t * (a - b) * d, s.2 + t * (a - b) * (a - b))) (0, 0)
  let correlation := exp (-s.2)
  .ok (-1 * s.1 * correlation)

/-- The sums of `computeGaussianCorrelationDotDot`. -/
structure DDSums (K : Type) where
  td : K
  t : K
  td0 : K
  tdd : K

/-- `vec::computeGaussianCorrelationDotDot` (vector.cpp 977-1002). -/
def gaussianDotDot (exp : K → K) (xi xj direction1 direction2 theta : List K) (n : Nat) : Res K := do
  let s ← forRange n (fun i (s : DDSums K) => do
    let th ← rawAt theta i
    let d1 ← rawAt direction1 i
    let d2 ← rawAt direction2 i
    let a ← rawAt xi i
    let b ← rawAt xj i
    let temp := 2 * th * d1
    .ok ⟨s.td - temp * (a - b), s.t + th * (a - b) * (a - b),
      s.td0 - th * 2 * (a - b) * d2, s.tdd + temp * d2⟩) ⟨0, 0, 0, 0⟩
  .ok (-(exp (-s.t) * s.tdd - s.td * exp (-s.t) * s.td0))

/-- `vec::computeExponentialCorrelationNaive` (vector.cpp 1077-1089). -/
def exponential (exp : K → K) (pow : K → K → Res K) (v1 v2 theta gamma : List K) (n : Nat) :
    Res K := do
  let sum ← Mat.sumLoop n fun k => do
    let a ← rawAt v1 k
    let b ← rawAt v2 k
    let g ← rawAt gamma k
    let e ← pow |a - b| g
    let t ← rawAt theta k
    .ok (t * e)
  .ok (exp (-sum))

/-- The two branches on the sign of the difference (vector.cpp 1053-1059): `(fabs0d, fabs0)`. -/
def absDiff (a b d : K) : K × K := if a - b ≥ 0 then (-d, a - b) else (d, -(a - b))

/-- `vec::computeExponentialCorrelationDot` (vector.cpp 1034-1072): the state is `(sumd, sum)`. -/
def exponentialDot (exp : K → K) (pow : K → K → Res K) (xi xj direction theta gamma : List K)
    (n : Nat) : Res K := do
  let s ← forRange n (fun k (s : K × K) => do
    let a ← rawAt xi k
    let b ← rawAt xj k
    let d ← rawAt direction k
    let g ← rawAt gamma k
    let t ← rawAt theta k
    let f := absDiff a b d
    let part ← pow f.2 g
    let p ← pow f.2 (g - 1)
    let partd := g * p * f.1
    .ok (s.1 + t * partd, s.2 + t * part)) (0, 0)
  .ok (-(exp (-s.2) * s.1))

/-- The common text of `mat::computeCorrelationMatrixGaussianNaive` (matrix.cpp 830-859) and
`mat::computeCorrelationMatrixExponentialNaive` (745-774): the rows are collected, the diagonal is
set to one, and each pair `j < i` is written to both triangles. `corr` is the pairwise function.
The matrix `R(nrows, nrows)` starts as zero. -/
def corrMatrixNaive (X : Mat K) (corr : List K → List K → Res K) : Res (Mat K) := do
  let n := X.nrows
  let rows ← tab n fun i => Mat.getRow X (i : Nat)
  let d ← forRange n (fun i d => Mem.wr d (i * n + i) 1) (Mem.zeros (n * n))
  let d ← forRange n (fun i d =>
    forRange i (fun j d => do
      let xi ← rawAt rows i
      let xj ← rawAt rows j
      let c ← corr xi xj
      let d ← Mem.wr d (i * n + j) c
      Mem.wr d (j * n + i) c) d) d
  let l ← Mem.freeze d
  .ok ⟨n, n, l⟩

/-- `mat::computeCorrelationMatrixGaussian` (matrix.cpp 813-827). -/
def corrMatrixGaussian (exp : K → K) (X : Mat K) (theta : List K) : Res (Mat K) :=
  if X.ncols ≠ theta.length then .error .invalidArgument
  else corrMatrixNaive X fun a b => gaussian exp a b theta X.ncols

/-- `mat::computeCorrelationMatrixExponentialNaive` (matrix.cpp 745-774), without size checks. -/
def corrMatrixExponentialNaive (exp : K → K) (pow : K → K → Res K) (X : Mat K)
    (theta gamma : List K) : Res (Mat K) :=
  corrMatrixNaive X fun a b => exponential exp pow a b theta gamma X.ncols

/-- `mat::computeCorrelationMatrixExponential` (matrix.cpp 725-742). -/
def corrMatrixExponential (exp : K → K) (pow : K → K → Res K) (X : Mat K) (theta gamma : List K) :
    Res (Mat K) :=
  if theta.length ≠ gamma.length then .error .invalidArgument
  else if X.ncols ≠ theta.length then .error .invalidArgument
  else corrMatrixExponentialNaive exp pow X theta gamma

/-- `class CorrelationFunctionBase` (correlation_functions.hpp 10-45); `correlationVec` is never
used. -/
structure Base (K : Type) where
  X : Mat K
  N : Nat
  dim : Nat
  matrix : Mat K
  epsilon : K
  isSet : Bool

namespace Base

/-- A new object: `epsilon = 1e-12`. -/
def new : Base K := ⟨Mat.empty, 0, 0, Mat.empty, 1 / 10 ^ 12, false⟩

/-- `CorrelationFunctionBase::setInputSampleMatrix` (correlation_functions.cpp 16-29). -/
def setInputSampleMatrix (s : Base K) (input : Mat K) : Res (Base K) :=
  if input.isEmpty then .error .invalidArgument
  else .ok { s with X := input, N := input.nrows, dim := input.ncols,
                    matrix := Mat.const input.nrows input.nrows 0, isSet := true }

/-- `CorrelationFunctionBase::setDimension` (correlation_functions.cpp 31-36). -/
def setDimension (s : Base K) (input : Nat) : Res (Base K) :=
  if input = 0 then .error .invalidArgument else .ok { s with dim := input }

/-- `CorrelationFunctionBase::setEpsilon` (correlation_functions.cpp 38-45). -/
def setEpsilon (s : Base K) (value : K) : Res (Base K) :=
  if value < 0 ∨ value ≥ 1 then .error .outOfRange else .ok { s with epsilon := value }

end Base

/-- `class ExponentialCorrelationFunction` (exponential_correlation_function.hpp 8-39). -/
structure ExpCorr (K : Type) where
  base : Base K
  theta : List K
  gamma : List K

namespace ExpCorr

/-- A new object. -/
def new : ExpCorr K := ⟨Base.new, [], []⟩

/-- `setTheta` (exponential_correlation_function.cpp 14-22). -/
def setTheta (s : ExpCorr K) (input : List K) : Res (ExpCorr K) :=
  if input.length = 0 ∨ input.length ≠ s.base.dim then .error .invalidArgument
  else .ok { s with theta := input }

/-- `setGamma` (exponential_correlation_function.cpp 24-31). -/
def setGamma (s : ExpCorr K) (input : List K) : Res (ExpCorr K) :=
  if input.length = 0 ∨ input.length ≠ s.base.dim then .error .invalidArgument
  else .ok { s with gamma := input }

/-- `setHyperParameters` (exponential_correlation_function.cpp 33-43). -/
def setHyperParameters (s : ExpCorr K) (input : List K) : Res (ExpCorr K) :=
  if input.length ≠ 2 * s.base.dim then .error .invalidArgument
  else do
    let t ← Vec.head input s.base.dim
    let s ← s.setTheta t
    let g ← Vec.tail input s.base.dim
    s.setGamma g

/-- `getHyperParameters` (exponential_correlation_function.cpp 45-65). -/
def getHyperParameters (s : ExpCorr K) : Res (List K) :=
  if s.base.dim = 0 then .error .logicError
  else do
    let a ← tab s.base.dim fun i => vat s.theta i
    let b ← tab s.base.dim fun i => vat s.gamma i
    .ok (a ++ b)

/-- `initialize` (exponential_correlation_function.cpp 111-122). -/
def init (s : ExpCorr K) : Res (ExpCorr K) :=
  if s.base.dim = 0 then .error .logicError
  else do
    let s ← s.setTheta (List.replicate s.base.dim 1)
    s.setGamma (List.replicate s.base.dim (9 / 5))

/-- `computeCorrelation` (exponential_correlation_function.cpp 90-97). -/
def computeCorrelation (exp : K → K) (pow : K → K → Res K) (s : ExpCorr K) (xi xj : List K) :
    Res K :=
  exponential exp pow xi xj s.theta s.gamma xi.length

/-- `computeCorrelationDot` (exponential_correlation_function.cpp 100-108). -/
def computeCorrelationDot (exp : K → K) (pow : K → K → Res K) (s : ExpCorr K)
    (xi xj direction : List K) : Res K :=
  exponentialDot exp pow xi xj direction s.theta s.gamma xi.length

/-- `computeCorrelationMatrix` (exponential_correlation_function.cpp 132-143). -/
def computeCorrelationMatrix (exp : K → K) (pow : K → K → Res K) (s : ExpCorr K) :
    Res (ExpCorr K) :=
  if s.base.isSet = false then .error .invalidArgument
  else do
    let R ← corrMatrixExponentialNaive exp pow s.base.X s.theta s.gamma
    let R ← Mat.addEpsilonToDiagonal R s.base.epsilon
    .ok { s with base := { s.base with matrix := R } }

/-- `computeCorrelationVector` (exponential_correlation_function.cpp 144-159). -/
def computeCorrelationVector (exp : K → K) (pow : K → K → Res K) (s : ExpCorr K) (x : List K) :
    Res (List K) :=
  if s.base.isSet = false then .error .invalidArgument
  else tab s.base.N fun i => do
    let y ← Mat.getRow s.base.X (i : Nat)
    exponential exp pow x y s.theta s.gamma s.base.X.ncols

end ExpCorr

/-- `class GaussianCorrelationFunction` (gaussian_correlation_function.hpp). -/
structure GaussCorr (K : Type) where
  base : Base K
  theta : List K

namespace GaussCorr

/-- A new object. -/
def new : GaussCorr K := ⟨Base.new, []⟩

/-- `setHyperParameters` (gaussian_correlation_function.cpp 17-26). -/
def setHyperParameters (s : GaussCorr K) (input : List K) : Res (GaussCorr K) :=
  if input.length = 0 then .error .invalidArgument
  else if input.length ≠ s.base.dim then .error .invalidArgument
  else .ok { s with theta := input }

/-- `initialize` (gaussian_correlation_function.cpp 7-15). -/
def init (s : GaussCorr K) : Res (GaussCorr K) :=
  if s.base.dim = 0 then .error .logicError
  else .ok { s with theta := List.replicate s.base.dim 1 }

/-- `computeCorrelation` (gaussian_correlation_function.cpp 34-37). -/
def computeCorrelation (exp : K → K) (s : GaussCorr K) (xi xj : List K) : Res K :=
  gaussian exp xi xj s.theta xi.length

/-- `computeCorrelationDot` (gaussian_correlation_function.cpp 41-44). -/
def computeCorrelationDot (exp : K → K) (s : GaussCorr K) (xi xj d : List K) : Res K :=
  gaussianDot exp xi xj d s.theta xi.length

/-- `computeCorrelationDotDot` (gaussian_correlation_function.cpp 49-60). -/
def computeCorrelationDotDot (exp : K → K) (s : GaussCorr K) (xi xj d1 d2 : List K) : Res K :=
  gaussianDotDot exp xi xj d1 d2 s.theta xi.length

/-- `computeCorrelationMatrix` (gaussian_correlation_function.cpp 69-76). -/
def computeCorrelationMatrix (exp : K → K) (s : GaussCorr K) : Res (GaussCorr K) :=
  if s.base.isSet = false then .error .logicError
  else do
    let R ← corrMatrixGaussian exp s.base.X s.theta
    let R ← Mat.addEpsilonToDiagonal R s.base.epsilon
    .ok { s with base := { s.base with matrix := R } }

/-- `computeCorrelationVector` (gaussian_correlation_function.cpp 77-93). -/
def computeCorrelationVector (exp : K → K) (s : GaussCorr K) (x : List K) : Res (List K) :=
  if s.base.isSet = false then .error .logicError
  else tab s.base.N fun i => do
    let y ← Mat.getRow s.base.X (i : Nat)
    gaussian exp x y s.theta s.base.X.ncols

end GaussCorr

end Rodeo.Corr
