import Verif.Model.Kriging
import Verif.Model.VecStat

/-! # The code paths with OpenBLAS

The other models follow the code that is compiled without OpenBLAS.  Here are the bodies that are
compiled when the macro `OPENBLAS` is defined: thin wrappers that hand the storage of the objects to
BLAS and LAPACK routines.  The routines are not code of the repository.  They are the fields of a
structure, functions on the memory blocks that they are given; `Spec/Blas.lean` says what their
documentation promises.  A routine that would read or write outside a block is undefined behaviour,
and that check is part of each call below.  Strides are 1 in all calls and are left out.  Fixed
options (column major storage, lower triangle, non-unit diagonal) are in the names. -/

namespace Rodeo

open Corr

/-- The library routines.  Matrices are flat column major blocks with a leading dimension. -/
structure Blas (K : Type) where
  /-- `ddot(n, x, y)`. -/
  dot : Nat → List K → List K → K
  /-- `dcopy(n, x, y)`: the new `y`. -/
  copy : Nat → List K → List K → List K
  /-- `daxpy(n, a, x, y)`: the new `y`. -/
  axpy : Nat → K → List K → List K → List K
  /-- `dgemv(NoTrans, m, n, alpha, A, lda, x, beta, y)`: the new `y`. -/
  gemv : Nat → Nat → K → List K → Nat → List K → K → List K → List K
  /-- `dgemm(NoTrans, NoTrans, m, n, k, alpha, A, lda, B, ldb, beta, C, ldc)`: the new `C`. -/
  gemm : Nat → Nat → Nat → K → List K → Nat → List K → Nat → K → List K → Nat → List K
  /-- `dtrsv(Lower, NoTrans or Trans, NonUnit, n, A, lda, x)`: the new `x`. -/
  trsv : Bool → Nat → List K → Nat → List K → List K
  /-- `dpotrf("L", n, A, lda, info)`: the new `A` and `info`. -/
  potrf : Nat → List K → Nat → List K × Int
  /-- `dgetrf(n, n, A, lda, ipiv, info)`: the new `A`, `ipiv` and `info`. -/
  getrf : Nat → List K → Nat → List K × List Nat × Int
  /-- `dgetrs('N', n, 1, A, lda, ipiv, b, ldb, info)`: the new `b` and `info`. -/
  getrs : Nat → List K → Nat → List Nat → List K → Nat → List K × Int
  /-- `dgetri(n, A, lda, ipiv, work, lwork, info)`: the new `A` and `info`. -/
  getri : Nat → List K → Nat → List Nat → Nat → List K × Int
  /-- `dgesv(n, 1, A, lda, ipiv, b, ldb, info)`: the new `b` and `info`. -/
  gesv : Nat → List K → Nat → List K → Nat → List K × Int

variable {K : Type} [Field K] [LinearOrder K] [IsStrictOrderedRing K]

namespace Lib

/-- The call is undefined behaviour if a block is too small. -/
def guarded {α : Type} (fits : Bool) (r : α) : Res α := if fits then .ok r else .error .ub

/-- Does an `m x n` matrix with leading dimension `lda` fit into `a`? -/
def fits (a : List K) (n lda : Nat) : Bool := decide (lda * n ≤ a.length)

/-- `cblas_ddot`. -/
def ddot (B : Blas K) (n : Nat) (x y : List K) : Res K :=
  guarded (decide (n ≤ x.length ∧ n ≤ y.length)) (B.dot n x y)

/-- `vec::dot` (vector.cpp 522-542) with OpenBLAS. -/
def dot (B : Blas K) (v w : List K) : Res K :=
  if v.length ≠ w.length then .error .invalidArgument
  else ddot B v.length v w

/-- `vec::scaleAndAdd` (vector.cpp 262-283) with OpenBLAS. -/
def scaleAndAdd (B : Blas K) (x : List K) (a : K) (b : List K) : Res (List K) :=
  if x.length ≠ b.length then .error .invalidArgument
  else do
    let result ← guarded (decide (b.length ≤ x.length))
      (B.copy b.length b (List.replicate x.length 0))
    guarded (decide (x.length ≤ result.length)) (B.axpy x.length a x result)

/-- `vec::computeGaussianCorrelationOpenBlas` (vector.cpp 1005-1021), the body of
`computeGaussianCorrelation` (934-941). -/
def gaussian (B : Blas K) (exp : K → K) (v1 v2 theta : List K) (n : Nat) : Res K := do
  let diff ← tab n fun i => do
    let a ← rawAt v1 i
    let b ← rawAt v2 i
    .ok (a - b)
  let diff ← tab n fun i => do
    let d ← rawAt diff i
    .ok (d * d)
  let sum ← ddot B n diff theta
  .ok (exp (-sum))

/-- `vec::computeExponentialCorrelationOpenBlas` (vector.cpp 1091-1106), the body of
`computeExponentialCorrelation` (1024-1032). -/
def exponential (B : Blas K) (exp : K → K) (pow : K → K → Res K) (v1 v2 theta gamma : List K)
    (n : Nat) : Res K := do
  let diff ← tab n fun k => do
    let a ← rawAt v1 k
    let b ← rawAt v2 k
    let g ← rawAt gamma k
    pow |a - b| g
  let sum ← ddot B n theta diff
  .ok (exp (-sum))

/-- `mat::computeCorrelationMatrixGaussian` (matrix.cpp 813-827) with
`computeCorrelationMatrixGaussianOpenBlas` (861-892), whose text is that of the other variant with
another pairwise function. -/
def corrMatrixGaussian (B : Blas K) (exp : K → K) (X : Mat K) (theta : List K) : Res (Mat K) :=
  if X.ncols ≠ theta.length then .error .invalidArgument
  else corrMatrixNaive X fun a b => gaussian B exp a b theta X.ncols

/-- `mat::computeCorrelationMatrixExponential` (matrix.cpp 725-742) with
`computeCorrelationMatrixExponentialOpenBlas` (776-808), again the common text. -/
def corrMatrixExponential (B : Blas K) (exp : K → K) (pow : K → K → Res K) (X : Mat K)
    (theta gamma : List K) : Res (Mat K) :=
  if theta.length ≠ gamma.length then .error .invalidArgument
  else if X.ncols ≠ theta.length then .error .invalidArgument
  else corrMatrixNaive X fun a b => exponential B exp pow a b theta gamma X.ncols

/-- `mat::matVecProduct` (matrix.cpp 1058-1070) with `matVecProductOpenBlas` (1072-1082). -/
def matVecProduct (B : Blas K) (A : Mat K) (v : List K) : Res (List K) :=
  if v.length ≠ A.ncols then .error .invalidArgument
  else guarded (fits A.buf A.ncols A.nrows && decide (A.ncols ≤ v.length))
    (B.gemv A.nrows A.ncols 1 A.buf A.nrows v 0 (List.replicate A.nrows 0))

/-- `mat::matMatProduct` (matrix.cpp 1240-1254) with `matMatProductOpenBlas` (1273-1281). -/
def matMatProduct (B : Blas K) (A C : Mat K) : Res (Mat K) :=
  if A.ncols ≠ C.nrows then .error .invalidArgument
  else do
    let l ← guarded (fits A.buf A.ncols A.nrows && fits C.buf C.ncols C.nrows)
      (B.gemm A.nrows C.ncols A.ncols 1 A.buf A.nrows C.buf C.nrows 0
        (List.replicate (A.nrows * C.ncols) 0) A.nrows)
    .ok ⟨A.nrows, C.ncols, l⟩

/-- `mat::choleskyOpenBlas` (matrix.cpp 1130-1152), the body of `mat::cholesky` (1117-1128): the
matrix returned and the value of `ret`.  A negative `info` is not looked at. -/
def cholesky (B : Blas K) (A : Mat K) : Res (Mat K × Int) :=
  if A.nrows ≠ A.ncols then .error .invalidArgument
  else do
    let r ← guarded (fits A.buf A.nrows A.nrows) (B.potrf A.nrows A.buf A.nrows)
    if r.2 > 0 then .ok (⟨A.nrows, A.ncols, r.1⟩, -1)
    else do
      let d ← forRange A.nrows (fun i d =>
        Mat.forFromTo (i + 1) A.ncols (fun j d => Mem.wr d (j * A.nrows + i) 0) d) (r.1.map some)
      let l ← Mem.freeze d
      .ok (⟨A.nrows, A.ncols, l⟩, 1)

/-- `mat::solveCholeskyOpenBlas` (matrix.cpp 1298-1316) with the check of `mat::solveCholesky`
(1284-1296). -/
def solveCholesky (B : Blas K) (L : Mat K) (b : List K) : Res (List K) :=
  if L.nrows ≠ L.ncols ∨ L.nrows ≠ b.length then .error .invalidArgument
  else do
    let y ← guarded (fits L.buf L.nrows L.nrows && decide (L.nrows ≤ b.length))
      (B.trsv false L.nrows L.buf L.nrows b)
    guarded (fits L.buf L.nrows L.nrows && decide (L.nrows ≤ y.length))
      (B.trsv true L.nrows L.buf L.nrows y)

/-- `mat::invertOpenBlas` (matrix.cpp 1398-1422) with the check of `mat::invert` (1355-1366). -/
def invert (B : Blas K) (A : Mat K) : Res (Mat K) :=
  if A.nrows ≠ A.ncols then .error .invalidArgument
  else do
    let r ← guarded (fits A.buf A.nrows A.nrows) (B.getrf A.nrows A.buf A.nrows)
    if r.2.2 ≠ 0 then .error .runtimeError
    else do
      let q ← guarded (fits r.1 A.nrows A.nrows)
        (B.getri A.nrows r.1 A.nrows r.2.1 (A.nrows * 64))
      if q.2 ≠ 0 then .error .runtimeError
      else .ok ⟨A.nrows, A.ncols, q.1⟩

/-- `mat::luOpenBlas` (matrix.cpp 1455-1485), the body of `mat::lu` (1427-1440): factor and pivots,
or `none` when the return value is -1 (the returned matrix is then empty). -/
def lu (B : Blas K) (A : Mat K) : Res (Option (Mat K × List Nat)) :=
  if A.nrows ≠ A.ncols then .error .invalidArgument
  else do
    let copy ← tab (A.nrows * A.nrows) fun i => rawAt A.buf i
    let r ← guarded (fits copy A.nrows A.nrows) (B.getrf A.nrows copy A.nrows)
    if r.2.2 < 0 then .error .runtimeError
    else if r.2.2 > 0 then .ok none
    else .ok (some (⟨A.nrows, A.ncols, r.1⟩, r.2.1))

/-- `mat::solveLUOpenBlas` (matrix.cpp 1488-1514), the body of `mat::solveLU` (1443-1452).  Only a
negative `info` is looked at. -/
def solveLU (B : Blas K) (LU : Mat K) (p : List Nat) (b : List K) : Res (List K) :=
  if LU.nrows ≠ LU.ncols ∨ LU.nrows ≠ b.length then .error .invalidArgument
  else do
    let r ← guarded (fits LU.buf LU.nrows LU.nrows && decide (LU.nrows ≤ p.length) &&
      decide (LU.nrows ≤ b.length)) (B.getrs LU.nrows LU.buf LU.nrows p b LU.nrows)
    if r.2 < 0 then .error .runtimeError else .ok r.1

/-- `mat::solve` (matrix.cpp 1936-1966) with OpenBLAS. -/
def solve (B : Blas K) (A : Mat K) (b : List K) : Res (List K) :=
  if A.nrows ≠ A.ncols then .error .invalidArgument
  else if A.nrows ≠ b.length then .error .invalidArgument
  else do
    let r ← guarded (fits A.buf A.nrows A.nrows && decide (A.nrows ≤ b.length))
      (B.gesv A.nrows A.buf A.nrows b A.nrows)
    if r.2 < 0 then .error .runtimeError
    else if r.2 > 0 then .error .runtimeError
    else .ok r.1

/-- `LUSystem::factorize` (linear_solver.cpp 230-244) with OpenBLAS.  After a failure the factor is
an empty matrix and the pivots are whatever the library left; nothing reads them. -/
def luFactorize (B : Blas K) (s : LUSystem K) : Res (LUSystem K) := do
  let r ← lu B s.A
  match r with
  | none => .ok { s with fact := some Mat.empty, done := false }
  | some (LU, p) => .ok { s with fact := some LU, pivots := p, done := true }

/-- `LUSystem::solveLinearSystem` (linear_solver.cpp 247-258) with OpenBLAS. -/
def luSolveLinearSystem (B : Blas K) (s : LUSystem K) (b : List K) : Res (List K) :=
  if b.length ≠ s.dimension then .error .invalidArgument
  else if s.done = false then .error .abort
  else match s.fact with
    | none => .error .ub
    | some LU => solveLU B LU s.pivots b

/-- `CholeskySystem::factorize` (linear_solver.cpp 126-144) with OpenBLAS. -/
def cholFactorize (B : Blas K) (s : CholeskySystem K) : Res (CholeskySystem K) := do
  let r ← cholesky B s.A
  if r.2 = -1 then .ok { s with fact := r.1, done := false }
  else .ok { s with fact := r.1, done := true }

/-- `CholeskySystem::solveLinearSystem` (linear_solver.cpp 147-152) with OpenBLAS. -/
def cholSolveLinearSystem (B : Blas K) (s : CholeskySystem K) (b : List K) : Res (List K) :=
  if s.done = false then .error .abort else solveCholesky B s.fact b

/-! ## The models that use these functions -/

/-- The weights computed by `LinearModel::train` (linear_regression.cpp 123-148) with OpenBLAS. -/
def ridgeWeights (B : Blas K) (m : LinearModel K) : Res (List K) := do
  let A ← LinearModel.augmented m.data.X m.numberOfSamples m.dimension
  let XT ← A.transpose
  let XTX ← matMatProduct B XT A
  match m.regularization with
  | none => .error .ub
  | some lambda => do
    let M ← Mat.addEpsilonToDiagonal XTX lambda
    let inv ← invert B M
    let XTy ← matVecProduct B XT m.data.y
    matVecProduct B inv XTy

/-- `ExponentialCorrelationFunction::computeCorrelationVector`
(exponential_correlation_function.cpp 144-159) with OpenBLAS.  `computeCorrelationMatrix` (132-143)
calls the variant without the library in both builds. -/
def correlationVector (B : Blas K) (exp : K → K) (pow : K → K → Res K) (s : ExpCorr K)
    (x : List K) : Res (List K) :=
  if s.base.isSet = false then .error .invalidArgument
  else tab s.base.N fun i => do
    let y ← Mat.getRow s.base.X (i : Nat)
    exponential B exp pow x y s.theta s.gamma s.base.X.ncols

/-- The part of `updateAuxilliaryFields` for a successful factorization (kriging_training.cpp
231-256) with OpenBLAS. -/
def solveAll (B : Blas K) (k : Kriging K) : Res (Kriging K) := do
  let a ← cholSolveLinearSystem B k.chol k.data.y
  let b ← cholSolveLinearSystem B k.chol k.ones
  let oneB ← dot B k.ones b
  let inv ← fdiv 1 oneB
  let oneA ← dot B k.ones a
  let beta ← k.chooseBeta (inv * oneA)
  let c ← cholSolveLinearSystem B k.chol (Vec.subScalar k.data.y beta)
  let s ← dot B (Vec.subScalar k.data.y beta) c
  .ok { k with RinvYs := a, RinvI := b, beta0 := beta, RinvYsMinBeta := c,
               sigmaSquared := 1 / (k.numberOfSamples : K) * s }

/-- `KrigingModel::updateAuxilliaryFields` (kriging_training.cpp 202-258) with OpenBLAS. -/
def updateAuxilliaryFields (B : Blas K) (F : Fns K) (k : Kriging K) : Kriging K × Res Unit :=
  if k.isRead = false then (k, .error .runtimeError)
  else if k.isNormalized = false then (k, .error .runtimeError)
  else if k.corrInitialized = false then (k, .error .runtimeError)
  else if k.numberOfSamples = 0 then (k, .error .invalidArgument)
  else if k.dimension = 0 then (k, .error .runtimeError)
  else
    andThen (commit k (do
      let c ← k.corr.computeCorrelationMatrix F.exp F.pow
      .ok { k with corr := c })) fun k =>
    andThen (commit k (do
      let c ← cholFactorize B (k.chol.setMatrix k.corr.base.matrix)
      .ok { k with chol := c })) fun k =>
    andThen (commit k.resetDataObjects k.resetDataObjects.resizeDataObjects) fun k =>
    if k.chol.done then commit k (solveAll B k) else (k, .ok ())

/-- `KrigingModel::interpolate` (kriging_training.cpp 542-559) with OpenBLAS. -/
def interpolate (B : Blas K) (F : Fns K) (k : Kriging K) (xp : List K) : Res K := do
  let lin ← k.linearPart xp
  let r ← correlationVector B F.exp F.pow k.corr xp
  let s ← dot B r k.RinvYsMinBeta
  .ok (lin + (k.beta0 + s))

/-- `KrigingModel::interpolateWithVariance` (kriging_training.cpp 569-605) with OpenBLAS. -/
def interpolateWithVariance (B : Blas K) (F : Fns K) (k : Kriging K) (xp : List K) :
    Res (K × K) := do
  let ftilde ← interpolate B F k xp
  let r ← correlationVector B F.exp F.pow k.corr xp
  let Rr ← cholSolveLinearSystem B k.chol r
  let rRr ← dot B r Rr
  let rR1 ← dot B r k.RinvI
  let oneR1 ← dot B k.ones k.RinvI
  let q ← fdiv ((rR1 - 1) * (rR1 - 1)) oneR1
  let term1 := if |rR1 - 1| < 1 / 10 ^ 9 then 0 else q
  let term2 := if |rRr - 1| < 1 / 10 ^ 9 then 0 else 1 - rRr
  .ok (ftilde, k.sigmaSquared * (term2 + term1))

/-- The common steps of the objective functions of the training (kriging_training.cpp 619-640,
649-669) with OpenBLAS. -/
def evaluateAt (B : Blas K) (F : Fns K) (k : Kriging K) (h : List K) : Kriging K × Res Unit :=
  andThen (commit k (do
    let c ← k.corr.setHyperParameters h
    .ok { k with corr := c })) fun k => updateAuxilliaryFields B F k

/-- `calculateLikelihoodFunction` (kriging_training.cpp 649-685) with OpenBLAS. -/
def likelihoodAt (B : Blas K) (F : Fns K) (k : Kriging K) (h : List K) : Kriging K × Res K :=
  if k.isRead = false then (k, .error .runtimeError)
  else if k.isNormalized = false then (k, .error .runtimeError)
  else if k.numberOfSamples = 0 then (k, .error .invalidArgument)
  else
    match evaluateAt B F k h with
    | (k, .error e) => (k, .error e)
    | (k, .ok ()) => (k, k.likelihoodValue F)

/-- `LinearModel::train` (linear_regression.cpp 102-162) with OpenBLAS. -/
def linearTrain (B : Blas K) (m : LinearModel K) : Res (LinearModel K) :=
  if m.isNormalized = false then .error .runtimeError
  else if m.isRead = false then .error .runtimeError
  else if m.dimension = 0 then .error .invalidArgument
  else if m.numberOfSamples = 0 then .error .invalidArgument
  else do
    let w ← ridgeWeights B m
    .ok { m with weights := w, isTrained := true }

/-- `LinearModel::initializeSurrogateModel` (linear_regression.cpp 41-64) with OpenBLAS. -/
def linearInit (B : Blas K) (m : LinearModel K) : LinearModel K × Res Unit :=
  if m.isRead = false then (m, .error .runtimeError)
  else if m.dimension = 0 then (m, .error .invalidArgument)
  else
    let m := { m with weights := Vec.resize m.weights (m.dimension + 1)
                      regularization := some (1 / 10 ^ 8) }
    match linearTrain B m with
    | .error e => (m, .error e)
    | .ok m => ({ m with isInitialized := true }, .ok ())

/-- `KrigingModel::initializeSurrogateModel` (kriging_training.cpp 139-184) with OpenBLAS. -/
def init (B : Blas K) (F : Fns K) (k : Kriging K) : Kriging K × Res Unit :=
  if k.dimension = 0 then (k, .error .runtimeError)
  else if k.numberOfSamples = 0 then (k, .error .invalidArgument)
  else if k.isRead = false then (k, .error .runtimeError)
  else if k.isNormalized = false then (k, .error .runtimeError)
  else
    andThen k.setupCorr fun k =>
    let k := { k with numberOfHyperParameters := 2 * k.dimension }
    andThen (if k.usesLinear then
        andThen (k.onLinear (linearInit B k.linear)) fun k => commit k k.subtractLinear
      else (k, .ok ())) fun k =>
    andThen (updateAuxilliaryFields B F k) fun k =>
    ({ k with isInitialized := true }, .ok ())

/-- `readData`, `normalizeData` and `initializeSurrogateModel` with OpenBLAS. -/
def load [FloorRing K] (B : Blas K) (F : Fns K) (k : Kriging K) (file : Option Text.Str)
    (perm permL : List Nat) : Kriging K × Res Unit :=
  andThen (k.readData file perm permL) fun k => andThen k.normalizeData fun k => init B F k

end Lib
end Rodeo
