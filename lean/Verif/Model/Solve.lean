import Verif.Model.Mat

/-! # Model of the direct solvers (`LinearAlgebra/matrix.cpp`, `LinearAlgebra/linear_solver.cpp`)

LU with partial pivoting, its triangular solves, the inverse, Cholesky and its solve, and the two
solver objects.  Only the non-OpenBLAS paths. -/

namespace Rodeo

variable {K : Type} [Field K] [LinearOrder K] [IsStrictOrderedRing K]

namespace Mat

/-- The literal `10E-10` of the zero pivot test (matrix.cpp 1628). -/
def pivotTol : K := 10 / 10 ^ 10

/-- Pivot search of `mat::lu_decomposition` (matrix.cpp 1606-1611). -/
def luPivotRow (n k : Nat) (lu : List (Option K)) : Res Nat :=
  forFromTo (k + 1) n (fun i maxRow => do
    let a ← Mem.rd lu (i + k * n)
    let b ← Mem.rd lu (maxRow + k * n)
    .ok (if |a| > |b| then i else maxRow)) k

/-- Row swap of `mat::lu_decomposition` (matrix.cpp 1614-1624). -/
def luSwap (n k maxRow : Nat) (lu : List (Option K)) (p : List (Option Nat)) :
    Res (List (Option K) × List (Option Nat)) :=
  if maxRow ≠ k then do
    let lu ← forRange n (fun j lu => do
      let temp ← Mem.rd lu (k + j * n)
      let v ← Mem.rd lu (maxRow + j * n)
      let lu ← Mem.wr lu (k + j * n) v
      Mem.wr lu (maxRow + j * n) temp) lu
    let temp ← Mem.rd p k
    let v ← Mem.rd p maxRow
    let p ← Mem.wr p k v
    let p ← Mem.wr p maxRow temp
    .ok (lu, p)
  else .ok (lu, p)

/-- Multipliers and update of the remaining submatrix (matrix.cpp 1636-1645). -/
def luEliminate (n k : Nat) (lu : List (Option K)) : Res (List (Option K)) := do
  let lu ← forFromTo (k + 1) n (fun i lu => do
    let a ← Mem.rd lu (i + k * n)
    let b ← Mem.rd lu (k + k * n)
    let q ← fdiv a b
    Mem.wr lu (i + k * n) q) lu
  forFromTo (k + 1) n (fun j lu =>
    forFromTo (k + 1) n (fun i lu => do
      let a ← Mem.rd lu (i + j * n)
      let l ← Mem.rd lu (i + k * n)
      let u ← Mem.rd lu (k + j * n)
      Mem.wr lu (i + j * n) (a - l * u)) lu) lu

/-- One round of the main loop (matrix.cpp 1604-1646); `none` is the early `return nullptr` with
`*return_value = -1` (1628-1633). -/
def luStep (n k : Nat) (lu : List (Option K)) (p : List (Option Nat)) :
    Res (Option (List (Option K) × List (Option Nat))) := do
  let maxRow ← luPivotRow n k lu
  let s ← luSwap n k maxRow lu p
  let d ← Mem.rd s.1 (k + k * n)
  if |d| < pivotTol then .ok none
  else do
    let lu ← luEliminate n k s.1
    .ok (some (lu, s.2))

/-- `mat::lu_decomposition` (matrix.cpp 1591-1650). The caller's pivot array has `n` elements. -/
def luDecomposition (a : List K) (n : Nat) : Res (Option (List (Option K) × List (Option Nat))) := do
  let s ← forRange n (fun i (s : List (Option K) × List (Option Nat)) => do
    let p ← Mem.wr s.2 i i
    let lu ← forRange n (fun j lu => do
      let v ← rawAt a (i + j * n)
      Mem.wr lu (i + j * n) v) s.1
    .ok (lu, p)) (Mem.alloc (n * n), Mem.alloc n)
  forRange n (fun k (s : Option (List (Option K) × List (Option Nat))) =>
    match s with
    | none => .ok none
    | some (lu, p) => luStep n k lu p) (some s)

/-- `mat::luNaive` (matrix.cpp 1518-1539), the body of `mat::lu` (1427-1440): factor and pivots,
or `none` when the return value is -1 (the returned matrix then has no storage). -/
def lu (A : Mat K) : Res (Option (Mat K × List Nat)) :=
  if A.nrows ≠ A.ncols then .error .invalidArgument
  else do
    let r ← luDecomposition A.buf A.nrows
    match r with
    | none => .ok none
    | some (lu, p) => do
      let l ← Mem.freeze lu
      let q ← Mem.freeze p
      .ok (some (⟨A.nrows, A.ncols, l⟩, q))

/-- `mat::forward_substitution` (matrix.cpp 1666-1679). -/
def forwardSubstitution (n : Nat) (LU : List K) (p : List Nat) (b : List K) (y : List (Option K)) :
    Res (List (Option K)) := do
  let y ← forRange n (fun i y => do
    let k ← rawAt p i
    let v ← rawAt b k
    Mem.wr y i v) y
  forRange n (fun i y =>
    forRange i (fun j y => do
      let yi ← Mem.rd y i
      let l ← rawAt LU (i + j * n)
      let yj ← Mem.rd y j
      Mem.wr y i (yi - l * yj)) y) y

/-- `mat::backward_substitution` (matrix.cpp 1681-1690). -/
def backwardSubstitution (n : Nat) (LU : List K) (y x : List (Option K)) :
    Res (List (Option K)) :=
  forRange n (fun t x => do
    let i := n - 1 - t
    let yi ← Mem.rd y i
    let x ← Mem.wr x i yi
    let x ← forFromTo (i + 1) n (fun j x => do
      let xi ← Mem.rd x i
      let u ← rawAt LU (i + j * n)
      let xj ← Mem.rd x j
      Mem.wr x i (xi - u * xj)) x
    let xi ← Mem.rd x i
    let d ← rawAt LU (i + i * n)
    let q ← fdiv xi d
    Mem.wr x i q) x

/-- `mat::solveLUNaive` (matrix.cpp 1542-1555) with `lu_solve` (1651-1665), the body of
`mat::solveLU` (1443-1452). -/
def solveLU (LU : Mat K) (p : List Nat) (b : List K) : Res (List K) :=
  if LU.nrows ≠ LU.ncols ∨ LU.nrows ≠ b.length then .error .invalidArgument
  else do
    let y ← forwardSubstitution LU.nrows LU.buf p b (Mem.alloc LU.nrows)
    let x ← backwardSubstitution LU.nrows LU.buf y (Mem.zeros LU.nrows)
    Mem.freeze x

/-- `vec e(n, 0.0); e(i) = 1.0;` (matrix.cpp 1384-1385). -/
def unitVec (n i : Nat) : List K := (List.replicate n 0).set i 1

/-- `mat::invertNaive` (matrix.cpp 1369-1395), the body of `mat::invert` (1355-1366). -/
def invert (A : Mat K) : Res (Mat K) :=
  if A.nrows ≠ A.ncols then .error .invalidArgument
  else do
    let r ← lu A
    match r with
    | none => .error .runtimeError
    | some (LU, p) => do
      let d ← forRange A.nrows (fun i d => do
        let col ← solveLU LU p (unitVec A.nrows i)
        forRange A.nrows (fun j d => do
          let v ← vat col j
          wrAt A.nrows A.nrows d j i v) d) (Mem.zeros (A.nrows * A.nrows))
      let l ← Mem.freeze d
      .ok ⟨A.nrows, A.nrows, l⟩

/-- Row `i` of `mat::choleskyNaive` (matrix.cpp 1162-1180); the flag says that `return L` with
`ret = -1` has been executed (1171-1174).  `sqrt` is `std::sqrt` on nonnegative arguments. -/
def choleskyRow (sqrt : K → K) (a : List K) (n i : Nat) (L : List (Option K)) :
    Res (List (Option K) × Bool) :=
  forRange (i + 1) (fun j (s : List (Option K) × Bool) =>
    if s.2 then .ok s
    else do
      let sum ← sumLoop j fun k => do
        let x ← Mem.rd s.1 (i + k * n)
        let y ← Mem.rd s.1 (j + k * n)
        .ok (x * y)
      if i = j then do
        let aii ← rawAt a (i + i * n)
        if aii - sum < 0 then .ok (s.1, true)
        else do
          let L ← Mem.wr s.1 (i + j * n) (sqrt (aii - sum))
          .ok (L, false)
      else do
        let ljj ← Mem.rd s.1 (j + j * n)
        let r ← fdiv 1 ljj
        let aij ← rawAt a (i + j * n)
        let L ← Mem.wr s.1 (i + j * n) (r * (aij - sum))
        .ok (L, false)) (L, false)

/-- `mat::choleskyNaive` (matrix.cpp 1156-1191), the body of `mat::cholesky` (1117-1128): the
matrix returned and the value of `ret`.  The factor starts as a zero matrix. -/
def cholesky (sqrt : K → K) (A : Mat K) : Res (Mat K × Int) :=
  if A.nrows ≠ A.ncols then .error .invalidArgument
  else do
    let n := A.nrows
    let s ← forRange n (fun i (s : List (Option K) × Bool) =>
      if s.2 then .ok s else choleskyRow sqrt A.buf n i s.1) (Mem.zeros (n * A.ncols), false)
    if s.2 then do
      let l ← Mem.freeze s.1
      .ok (⟨n, A.ncols, l⟩, -1)
    else do
      let d ← forRange n (fun i d =>
        forFromTo (i + 1) A.ncols (fun j d => Mem.wr d (j * n + i) 0) d) s.1
      let l ← Mem.freeze d
      .ok (⟨n, A.ncols, l⟩, 1)

/-- `mat::solveCholeskyNaive` (matrix.cpp 1318-1344) with the check of `mat::solveCholesky`
(1284-1296). -/
def solveCholesky (L : Mat K) (b : List K) : Res (List K) :=
  if L.nrows ≠ L.ncols ∨ L.nrows ≠ b.length then .error .invalidArgument
  else do
    let n := L.nrows
    let y ← forRange n (fun i y => do
      let sum ← sumLoop i fun j => do
        let l ← rawAt L.buf (j * n + i)
        let v ← Mem.rd y j
        .ok (l * v)
      let bi ← vat b i
      let d ← rawAt L.buf (i * n + i)
      let q ← fdiv (bi - sum) d
      Mem.wr y i q) (Mem.zeros n)
    let x ← forRange n (fun t x => do
      let i := n - 1 - t
      let sum ← forFromTo (i + 1) n (fun j s => do
        let l ← rawAt L.buf (i * n + j)
        let v ← Mem.rd x j
        .ok (s + l * v)) 0
      let yi ← Mem.rd y i
      let d ← rawAt L.buf (i * n + i)
      let q ← fdiv (yi - sum) d
      Mem.wr x i q) (Mem.zeros n)
    Mem.freeze x

/-- `mat::addEpsilonToDiagonal` (matrix.cpp 1347-1352). -/
def addEpsilonToDiagonal (A : Mat K) (epsilon : K) : Res (Mat K) := do
  let d ← forRange (min A.nrows A.ncols) (fun i d => do
    let v ← Mem.rd d (i * A.nrows + i)
    Mem.wr d (i * A.nrows + i) (v + epsilon)) (A.buf.map some)
  let l ← Mem.freeze d
  .ok ⟨A.nrows, A.ncols, l⟩

end Mat

/-- `class LUSystem` (INCLUDE/linear_solver.hpp 82-111). `fact = none` is a factor without
storage (the state after a failed factorization). -/
structure LUSystem (K : Type) where
  dimension : Nat
  A : Mat K
  fact : Option (Mat K)
  pivots : List Nat
  done : Bool
  deriving DecidableEq

namespace LUSystem

/-- `LUSystem()`. -/
def new : LUSystem K := ⟨0, Mat.empty, some Mat.empty, [], false⟩

/-- `LUSystem::setDimension` (linear_solver.cpp 166-182): `done` is not touched. -/
def setDimension (s : LUSystem K) (dim : Nat) : Res (LUSystem K) :=
  if dim = 0 then .error .invalidArgument
  else .ok { s with
    dimension := dim, A := Mat.const dim dim 0, fact := some (Mat.const dim dim 0),
    pivots := s.pivots.take dim ++ List.replicate (dim - s.pivots.length) 0 }

/-- `LUSystem::setMatrix` (linear_solver.cpp 204-216). -/
def setMatrix (s : LUSystem K) (input : Mat K) : LUSystem K :=
  { dimension := input.nrows, A := input, fact := some (Mat.const input.nrows input.nrows 0),
    pivots := s.pivots.take input.nrows ++ List.replicate (input.nrows - s.pivots.length) 0,
    done := false }

/-- `LUSystem::factorize` (linear_solver.cpp 230-244).  After a failure the pivots are whatever the
elimination left; the model keeps the old ones, nothing reads them. -/
def factorize (s : LUSystem K) : Res (LUSystem K) := do
  let r ← Mat.lu s.A
  match r with
  | none => .ok { s with fact := none, done := false }
  | some (LU, p) => .ok { s with fact := some LU, pivots := p, done := true }

/-- `LUSystem::solveLinearSystem` (linear_solver.cpp 247-258). -/
def solveLinearSystem (s : LUSystem K) (b : List K) : Res (List K) :=
  if b.length ≠ s.dimension then .error .invalidArgument
  else if s.done = false then .error .abort
  else match s.fact with
    | none => .error .ub
    | some LU => Mat.solveLU LU s.pivots b

/-- The public calls that change an `LUSystem` and keep its matrix and its factor together
(`setDimension` is separate, see above). -/
inductive Call (K : Type) where
  | setMatrix (A : Mat K)
  | factorize

/-- One call. -/
def call (s : LUSystem K) : Call K → Res (LUSystem K)
  | .setMatrix A => .ok (s.setMatrix A)
  | .factorize => s.factorize

/-- A sequence of calls on one object. -/
def calls (s : LUSystem K) : List (Call K) → Res (LUSystem K)
  | [] => .ok s
  | c :: cs => do
    let s' ← s.call c
    s'.calls cs

end LUSystem

/-- `class CholeskySystem` (INCLUDE/linear_solver.hpp 46-80). -/
structure CholeskySystem (K : Type) where
  dimension : Nat
  A : Mat K
  fact : Mat K
  done : Bool
  deriving DecidableEq

namespace CholeskySystem

/-- `CholeskySystem()`. -/
def new : CholeskySystem K := ⟨0, Mat.empty, Mat.empty, false⟩

/-- `CholeskySystem::setDimension` (linear_solver.cpp 43-53): `done` is not touched. -/
def setDimension (s : CholeskySystem K) (dim : Nat) : CholeskySystem K :=
  { s with dimension := dim, A := Mat.const dim dim 0, fact := Mat.const dim dim 0 }

/-- `CholeskySystem::setMatrix` (linear_solver.cpp 102-113). -/
def setMatrix (_s : CholeskySystem K) (input : Mat K) : CholeskySystem K :=
  { dimension := input.nrows, A := input, fact := Mat.const input.nrows input.nrows 0,
    done := false }

/-- `CholeskySystem::factorize` (linear_solver.cpp 126-144). -/
def factorize (sqrt : K → K) (s : CholeskySystem K) : Res (CholeskySystem K) := do
  let r ← Mat.cholesky sqrt s.A
  if r.2 = -1 then .ok { s with fact := r.1, done := false }
  else .ok { s with fact := r.1, done := true }

/-- `CholeskySystem::solveLinearSystem` (linear_solver.cpp 147-152). -/
def solveLinearSystem (s : CholeskySystem K) (b : List K) : Res (List K) :=
  if s.done = false then .error .abort else Mat.solveCholesky s.fact b

/-- `vec::product` (vector.cpp 237-247). -/
def product (v : List K) : K := v.foldl (fun s a => s * a) 1

/-- `CholeskySystem::calculateDeterminant` (linear_solver.cpp 71-81). -/
def calculateDeterminant (s : CholeskySystem K) : Res K :=
  if s.done = false then .error .abort
  else do
    let d ← Mat.diag s.fact
    .ok (product d * product d)

/-- `CholeskySystem::calculateLogDeterminant` (linear_solver.cpp 83-98) with `log` as a
parameter; the logarithm of a number that is not positive is not finite. -/
def calculateLogDeterminant (log : K → K) (s : CholeskySystem K) : Res K :=
  if s.done = false then .error .abort
  else do
    let d ← Mat.diag s.fact
    let sum ← Mat.sumLoop s.dimension fun i => do
      let v ← vat d i
      if v ≤ 0 then .error .nonFinite else .ok (log v)
    .ok (2 * sum)

end CholeskySystem
end Rodeo
