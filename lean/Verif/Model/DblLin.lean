import Verif.Model.Dbl
import Verif.Model.Solve

/-! # Sums, products and the Cholesky solver in double arithmetic (`LinearAlgebra/vector.cpp`,
`LinearAlgebra/matrix.cpp`)

The functions of `Model/Mat`, `Model/Kriging` and `Model/Solve` with every operation rounded.  Only the
paths without OpenBLAS. -/

namespace Rodeo.Dbl

variable {K : Type} [Field K] [LinearOrder K] [IsStrictOrderedRing K] [FloorRing K]

/-- The accumulation loop `for (k = a; k < b; ++k) sum += f(k);`. -/
def sumFrom (a b : Nat) (f : Nat → Res K) : Res K :=
  Mat.forFromTo a b (fun k s => do
    let v ← f k
    add s v) 0

/-- `vec::dot` (vector.cpp 522-542) without OpenBLAS. -/
def dot (v w : List K) : Res K :=
  if v.length ≠ w.length then .error .invalidArgument
  else sumFrom 0 v.length fun i => do
    let a ← rawAt v i
    let b ← rawAt w i
    mul a b

/-- `vec::mean` (vector.cpp 1141-1150). -/
def mean (v : List K) : Res K :=
  if v.length = 0 then .error .runtimeError
  else do
    let s ← sumFrom 0 v.length fun i => rawAt v i
    div s (v.length : K)

/-- `mat::matVecProduct` (matrix.cpp 1058-1070) with `matVecProductNaive` (1085-1098). -/
def matVecProduct (A : Mat K) (v : List K) : Res (List K) :=
  if v.length ≠ A.ncols then .error .invalidArgument
  else tab A.nrows fun i => sumFrom 0 A.ncols fun j => do
    let a ← rawAt A.buf (j * A.nrows + i)
    let b ← vat v j
    mul a b

/-- Row `i` of `mat::choleskyNaive` (matrix.cpp 1162-1180); the flag says that `return L` with `ret = -1`
has been executed (1171-1174).  `sqrt` is the exact root on nonnegative arguments; `std::sqrt` is its
rounding (IEEE 754 asks for it). -/
def choleskyRow (sqrt : K → K) (a : List K) (n i : Nat) (L : List (Option K)) :
    Res (List (Option K) × Bool) :=
  forRange (i + 1) (fun j (s : List (Option K) × Bool) =>
    if s.2 then .ok s
    else do
      let sum ← sumFrom 0 j fun k => do
        let x ← Mem.rd s.1 (i + k * n)
        let y ← Mem.rd s.1 (j + k * n)
        mul x y
      if i = j then do
        let aii ← rawAt a (i + i * n)
        let fac ← sub aii sum
        if fac < 0 then .ok (s.1, true)
        else do
          let r ← dbl (sqrt fac)
          let L ← Mem.wr s.1 (i + j * n) r
          .ok (L, false)
      else do
        let ljj ← Mem.rd s.1 (j + j * n)
        let r ← div 1 ljj
        let aij ← rawAt a (i + j * n)
        let d ← sub aij sum
        let v ← mul r d
        let L ← Mem.wr s.1 (i + j * n) v
        .ok (L, false)) (L, false)

/-- `mat::choleskyNaive` (matrix.cpp 1156-1191), the body of `mat::cholesky` (1117-1128): the matrix
returned and the value of `ret`. -/
def cholesky (sqrt : K → K) (A : Mat K) : Res (Mat K × Int) :=
  if A.nrows ≠ A.ncols then .error .invalidArgument
  else do
    let n := A.nrows
    let s ← forRange n (fun i (s : List (Option K) × Bool) =>
      if s.2 then .ok s else choleskyRow sqrt A.buf n i s.1) (Mem.zeros (n * A.ncols), false)
    if s.2 then do
      let l ← Mem.freeze s.1
      .ok (⟨n, A.ncols, l⟩, -1)
    else do
      let d ← forRange n (fun i d =>
        Mat.forFromTo (i + 1) A.ncols (fun j d => Mem.wr d (j * n + i) 0) d) s.1
      let l ← Mem.freeze d
      .ok (⟨n, A.ncols, l⟩, 1)

/-- `mat::solveCholeskyNaive` (matrix.cpp 1318-1344) with the check of `mat::solveCholesky`
(1284-1296). -/
def solveCholesky (L : Mat K) (b : List K) : Res (List K) :=
  if L.nrows ≠ L.ncols ∨ L.nrows ≠ b.length then .error .invalidArgument
  else do
    let n := L.nrows
    let y ← forRange n (fun i y => do
      let sum ← sumFrom 0 i fun j => do
        let l ← rawAt L.buf (j * n + i)
        let v ← Mem.rd y j
        mul l v
      let bi ← vat b i
      let d ← rawAt L.buf (i * n + i)
      let r ← sub bi sum
      let q ← div r d
      Mem.wr y i q) (Mem.zeros n)
    let x ← forRange n (fun t x => do
      let i := n - 1 - t
      let sum ← sumFrom (i + 1) n fun j => do
        let l ← rawAt L.buf (i * n + j)
        let v ← Mem.rd x j
        mul l v
      let yi ← Mem.rd y i
      let d ← rawAt L.buf (i * n + i)
      let r ← sub yi sum
      let q ← div r d
      Mem.wr x i q) (Mem.zeros n)
    Mem.freeze x

/-- `CholeskySystem::factorize` and `solveLinearSystem` (linear_solver.cpp 126-152): the assertion of the
second call fails after an unsuccessful factorization. -/
def solveSystem (sqrt : K → K) (A : Mat K) (b : List K) : Res (List K) := do
  let r ← cholesky sqrt A
  if r.2 = -1 then .error .abort else solveCholesky r.1 b

end Rodeo.Dbl
