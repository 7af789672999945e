import Verif.Model.Corr

/-! # Model of the special matrices (`LinearAlgebra/matrix.cpp`)

`u i` is the draw `rand() / RAND_MAX` for the entry with the flat index `i`. -/

namespace Rodeo.Mat

variable {K : Type} [Field K] [LinearOrder K] [IsStrictOrderedRing K]

/-- `mat::fill` (matrix.cpp 405-407). -/
def fill (A : Mat K) (value : K) : Res (Mat K) := do
  let d ← forRange (A.nrows * A.ncols) (fun i d => Mem.wr d i value) (A.buf.map some)
  let l ← Mem.freeze d
  .ok ⟨A.nrows, A.ncols, l⟩

/-- `mat::fillRandom()` (matrix.cpp 409-413). -/
def fillUnit (A : Mat K) (u : Nat → K) : Res (Mat K) := do
  let d ← forRange (A.nrows * A.ncols) (fun i d => Mem.wr d i (u i)) (A.buf.map some)
  let l ← Mem.freeze d
  .ok ⟨A.nrows, A.ncols, l⟩

/-- `mat::fillRandom(double, double)` (matrix.cpp 415-429). -/
def fillBetween (A : Mat K) (a b : K) (u : Nat → K) : Res (Mat K) :=
  if a ≥ b then .error .invalidArgument
  else do
    let d ← forRange (A.nrows * A.ncols) (fun i d => Mem.wr d i (u i * (b - a) + a)) (A.buf.map some)
    let l ← Mem.freeze d
    .ok ⟨A.nrows, A.ncols, l⟩

/-- `mat::eye` (matrix.cpp 544-554). -/
def eye (A : Mat K) : Res (Mat K) :=
  if A.nrows ≠ A.ncols then .error .invalidArgument
  else do
    let d ← forRange A.nrows (fun row d => Mem.wr d (row * A.nrows + row) 1) (A.buf.map some)
    let l ← Mem.freeze d
    .ok ⟨A.nrows, A.ncols, l⟩

/-- `mat::isSymmetric` (matrix.cpp 645-663). -/
def isSymmetric (A : Mat K) (tolerance : K) : Res Bool :=
  if tolerance < 0 then .error .invalidArgument
  else if A.nrows ≠ A.ncols then .ok false
  else noneOf A.nrows fun i => do
    let same ← allFrom (fun j => do
      let a ← rawAt A.buf (j * A.nrows + i)
      let b ← rawAt A.buf (i * A.nrows + j)
      .ok (decide (|a - b| > tolerance))) (i + 1) (A.ncols - (i + 1))
    .ok (!same)

/-- `mat::isEqual` (matrix.cpp 666-679). -/
def isEqual (A B : Mat K) (tolerance : K) : Res Bool :=
  if A.nrows ≠ B.nrows ∨ A.ncols ≠ B.ncols then .ok false
  else noneOf (A.nrows * A.ncols) fun i => do
    let a ← rawAt A.buf i
    let b ← rawAt B.buf i
    .ok (decide (|a - b| > tolerance))

/-- `mat::generateRandomPositiveDefinite` (matrix.cpp 682-704). -/
def generateRandomPositiveDefinite (A : Mat K) (u : Nat → K) : Res (Mat K) :=
  if A.nrows ≠ A.ncols then .error .invalidArgument
  else if A.nrows * A.ncols = 0 then .error .invalidArgument
  else do
    let T ← (const A.nrows A.ncols (0 : K)).fillUnit u
    let d ← forRange A.nrows (fun i d => forRange A.nrows (fun j d => do
      let s ← sumLoop A.ncols fun k => do
        let a ← rawAt T.buf (k * A.nrows + i)
        let b ← rawAt T.buf (k * A.nrows + j)
        .ok (a * b)
      Mem.wr d (j * A.nrows + i) s) d) (A.buf.map some)
    let l ← Mem.freeze d
    .ok ⟨A.nrows, A.ncols, l⟩

/-- `mat::generateRandomSymmetric` (matrix.cpp 706-722). -/
def generateRandomSymmetric (A : Mat K) (u : Nat → K) : Res (Mat K) :=
  if A.nrows ≠ A.ncols then .error .invalidArgument
  else if A.nrows * A.ncols = 0 then .error .invalidArgument
  else do
    let B ← A.fillUnit u
    let d ← forRange A.nrows (fun i d => forFromTo (i + 1) A.ncols (fun j d => do
      let v ← Mem.rd d (i * A.nrows + j)
      Mem.wr d (j * A.nrows + i) v) d) (B.buf.map some)
    let l ← Mem.freeze d
    .ok ⟨A.nrows, A.ncols, l⟩

/-- `mat::generateRandomCorrelationMatrix` (matrix.cpp 899-924): correlations of the rows of a random
matrix.  The matrix is filled as in `corrMatrixNaive`, which starts from zeros; here every entry is
written. -/
def generateRandomCorrelationMatrix (exp : K → K) (A : Mat K) (u : Nat → K) : Res (Mat K) :=
  if A.nrows ≠ A.ncols then .error .invalidArgument
  else do
    let X ← (const A.nrows A.nrows (0 : K)).fillUnit u
    Corr.corrMatrixNaive X fun a b => Corr.gaussian exp a b (List.replicate A.nrows 1) A.nrows

end Rodeo.Mat
