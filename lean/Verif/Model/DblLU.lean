import Verif.Model.Dbl
import Verif.Model.Solve

/-! # LU factorization, its triangular solves and the inverse in double arithmetic
(`LinearAlgebra/matrix.cpp`)

The functions of `Model/Solve` with every operation rounded.  The search of the pivot row and the exchange of
rows do not compute: they are those of `Model/Solve`.  Only the paths without OpenBLAS. -/

namespace Rodeo.Dbl

variable {K : Type} [Field K] [LinearOrder K] [IsStrictOrderedRing K] [FloorRing K]

/-- Multipliers and update of the remaining submatrix (matrix.cpp 1636-1645). -/
def luEliminate (n k : Nat) (lu : List (Option K)) : Res (List (Option K)) := do
  let lu ← Mat.forFromTo (k + 1) n (fun i lu => do
    let a ← Mem.rd lu (i + k * n)
    let b ← Mem.rd lu (k + k * n)
    let q ← div a b
    Mem.wr lu (i + k * n) q) lu
  Mat.forFromTo (k + 1) n (fun j lu =>
    Mat.forFromTo (k + 1) n (fun i lu => do
      let a ← Mem.rd lu (i + j * n)
      let l ← Mem.rd lu (i + k * n)
      let u ← Mem.rd lu (k + j * n)
      let m ← mul l u
      let r ← sub a m
      Mem.wr lu (i + j * n) r) lu) lu

/-- One round of the main loop (matrix.cpp 1604-1646); `none` is the early `return nullptr` with
`*return_value = -1` (1628-1633). -/
def luStep (n k : Nat) (lu : List (Option K)) (p : List (Option Nat)) :
    Res (Option (List (Option K) × List (Option Nat))) := do
  let maxRow ← Mat.luPivotRow n k lu
  let s ← Mat.luSwap n k maxRow lu p
  let d ← Mem.rd s.1 (k + k * n)
  if |d| < lit Mat.pivotTol then .ok none
  else do
    let lu ← luEliminate n k s.1
    .ok (some (lu, s.2))

/-- `mat::lu_decomposition` (matrix.cpp 1591-1650).  The caller's pivot array has `n` elements. -/
def luDecomposition (a : List K) (n : Nat) : Res (Option (List (Option K) × List (Option Nat))) := do
  let s ← forRange n (fun i (s : List (Option K) × List (Option Nat)) => do
    let p ← Mem.wr s.2 i i
    let lu ← forRange n (fun j lu => do
      let v ← rawAt a (i + j * n)
      Mem.wr lu (i + j * n) v) s.1
    .ok (lu, p)) (Mem.alloc (n * n), Mem.alloc n)
  forRange n (fun k (s : Option (List (Option K) × List (Option Nat))) =>
    match s with
    | none => .ok none
    | some (lu, p) => luStep n k lu p) (some s)

/-- `mat::luNaive` (matrix.cpp 1518-1539), the body of `mat::lu` (1427-1440): factor and pivots, or `none`
when the return value is -1. -/
def lu (A : Mat K) : Res (Option (Mat K × List Nat)) :=
  if A.nrows ≠ A.ncols then .error .invalidArgument
  else do
    let r ← luDecomposition A.buf A.nrows
    match r with
    | none => .ok none
    | some (lu, p) => do
      let l ← Mem.freeze lu
      let q ← Mem.freeze p
      .ok (some (⟨A.nrows, A.ncols, l⟩, q))

/-- `mat::forward_substitution` (matrix.cpp 1666-1679). -/
def forwardSubstitution (n : Nat) (LU : List K) (p : List Nat) (b : List K) (y : List (Option K)) :
    Res (List (Option K)) := do
  let y ← forRange n (fun i y => do
    let k ← rawAt p i
    let v ← rawAt b k
    Mem.wr y i v) y
  forRange n (fun i y =>
    forRange i (fun j y => do
      let yi ← Mem.rd y i
      let l ← rawAt LU (i + j * n)
      let yj ← Mem.rd y j
      let m ← mul l yj
      let r ← sub yi m
      Mem.wr y i r) y) y

/-- `mat::backward_substitution` (matrix.cpp 1681-1690). -/
def backwardSubstitution (n : Nat) (LU : List K) (y x : List (Option K)) : Res (List (Option K)) :=
  forRange n (fun t x => do
    let i := n - 1 - t
    let yi ← Mem.rd y i
    let x ← Mem.wr x i yi
    let x ← Mat.forFromTo (i + 1) n (fun j x => do
      let xi ← Mem.rd x i
      let u ← rawAt LU (i + j * n)
      let xj ← Mem.rd x j
      let m ← mul u xj
      let r ← sub xi m
      Mem.wr x i r) x
    let xi ← Mem.rd x i
    let d ← rawAt LU (i + i * n)
    let q ← div xi d
    Mem.wr x i q) x

/-- `mat::solveLUNaive` (matrix.cpp 1542-1555) with `lu_solve` (1651-1665), the body of `mat::solveLU`
(1443-1452). -/
def solveLU (LU : Mat K) (p : List Nat) (b : List K) : Res (List K) :=
  if LU.nrows ≠ LU.ncols ∨ LU.nrows ≠ b.length then .error .invalidArgument
  else do
    let y ← forwardSubstitution LU.nrows LU.buf p b (Mem.alloc LU.nrows)
    let x ← backwardSubstitution LU.nrows LU.buf y (Mem.zeros LU.nrows)
    Mem.freeze x

/-- `mat::invertNaive` (matrix.cpp 1369-1395), the body of `mat::invert` (1355-1366). -/
def invert (A : Mat K) : Res (Mat K) :=
  if A.nrows ≠ A.ncols then .error .invalidArgument
  else do
    let r ← lu A
    match r with
    | none => .error .runtimeError
    | some (LU, p) => do
      let d ← forRange A.nrows (fun i d => do
        let col ← solveLU LU p (Mat.unitVec A.nrows i)
        forRange A.nrows (fun j d => do
          let v ← vat col j
          Mat.wrAt A.nrows A.nrows d j i v) d) (Mem.zeros (A.nrows * A.nrows))
      let l ← Mem.freeze d
      .ok ⟨A.nrows, A.nrows, l⟩

end Rodeo.Dbl
