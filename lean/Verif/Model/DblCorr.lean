import Verif.Model.DblLin
import Verif.Model.DblSearch
import Verif.Model.Corr

/-! # The Kriging correlation matrix, weights and estimate in double arithmetic
(`LinearAlgebra/vector.cpp`, `LinearAlgebra/matrix.cpp`,
`CorrelationFunctions/exponential_correlation_function.cpp`, `SurrogateModels/kriging_training.cpp`)

The functions of `Model/Corr` and `Model/Kriging` with every operation rounded, on the paths without
OpenBLAS.  `exp` and `pow` are the functions of the C library: a parameter. -/

namespace Rodeo.Dbl

variable {K : Type} [Field K] [LinearOrder K] [IsStrictOrderedRing K] [FloorRing K]

/-- `std::exp` and `std::pow` of the C library; `pow` may be infinite. -/
structure Libm (K : Type) where
  exp : K → K
  pow : K → K → Res K

/-- `vec::computeExponentialCorrelationNaive` (vector.cpp 1077-1089). -/
def exponential (L : Libm K) (v1 v2 theta gamma : List K) (n : Nat) : Res K := do
  let sum ← sumFrom 0 n fun k => do
    let a ← rawAt v1 k
    let b ← rawAt v2 k
    let d ← sub a b
    let g ← rawAt gamma k
    let e ← L.pow |d| g
    let t ← rawAt theta k
    mul t e
  .ok (L.exp (-sum))

/-- `mat::addEpsilonToDiagonal` (matrix.cpp 1347-1352). -/
def addEpsilonToDiagonal (A : Mat K) (epsilon : K) : Res (Mat K) := do
  let d ← forRange (min A.nrows A.ncols) (fun i d => do
    let v ← Mem.rd d (i * A.nrows + i)
    let s ← add v epsilon
    Mem.wr d (i * A.nrows + i) s) (A.buf.map some)
  let l ← Mem.freeze d
  .ok ⟨A.nrows, A.ncols, l⟩

/-- `ExponentialCorrelationFunction::computeCorrelationMatrix`
(exponential_correlation_function.cpp 132-143) with `mat::computeCorrelationMatrixExponentialNaive`
(matrix.cpp 745-774): the member `correlationMatrix` afterwards. -/
def correlationMatrix (L : Libm K) (s : Corr.ExpCorr K) : Res (Mat K) :=
  if s.base.isSet = false then .error .invalidArgument
  else do
    let R ← Corr.corrMatrixNaive s.base.X fun a b => exponential L a b s.theta s.gamma s.base.X.ncols
    addEpsilonToDiagonal R s.base.epsilon

/-- `ExponentialCorrelationFunction::computeCorrelationVector` (exponential_correlation_function.cpp
144-159). -/
def correlationVector (L : Libm K) (s : Corr.ExpCorr K) (x : List K) : Res (List K) :=
  if s.base.isSet = false then .error .invalidArgument
  else tab s.base.N fun i => do
    let y ← Mat.getRow s.base.X (i : Nat)
    exponential L x y s.theta s.gamma s.base.X.ncols

/-- The members that `updateAuxilliaryFields` computes and `interpolate` reads. -/
structure Fit (K : Type) where
  beta0 : K
  weights : List K
  sigmaSquared : K

/-- `beta0` in `KrigingModel::updateAuxilliaryFields` (kriging_training.cpp 233-246) with the factor `Lf`.
`average` is `ifUseAverageBeta0`; the code computes the other estimate also when it is then overwritten,
which has no effect on the result, also if it is infinite. -/
def beta0 (Lf : Mat K) (average : Bool) (y : List K) : Res K :=
  if average then mean y
  else do
    let a ← solveCholesky Lf y
    let b ← solveCholesky Lf (List.replicate y.length 1)
    let oneB ← dot (List.replicate y.length 1) b
    let inv ← div 1 oneB
    let oneA ← dot (List.replicate y.length 1) a
    mul inv oneA

/-- The numerical part of `KrigingModel::updateAuxilliaryFields` (kriging_training.cpp 217-256) for the
normalized outputs `y`: nothing is computed when the factorization reports a failure. -/
def fit (sqrt : K → K) (L : Libm K) (s : Corr.ExpCorr K) (average : Bool) (y : List K) :
    Res (Option (Fit K)) := do
  let R ← correlationMatrix L s
  let r ← cholesky sqrt R
  if r.2 = -1 then .ok none
  else do
    let beta ← beta0 r.1 average y
    let d ← subScalar y beta
    let w ← solveCholesky r.1 d
    let t ← dot d w
    let i ← div 1 (y.length : K)
    let q ← mul i t
    .ok (some ⟨beta, w, q⟩)

/-- `KrigingModel::interpolate` (kriging_training.cpp 542-559) without the linear part. -/
def estimate (L : Libm K) (s : Corr.ExpCorr K) (f : Fit K) (x : List K) : Res K := do
  let r ← correlationVector L s x
  let t ← dot r f.weights
  add f.beta0 t

end Rodeo.Dbl
