import Verif.Model.Vec

/-! # Model of `LinearAlgebra/matrix.cpp`

A `mat` is its two sizes and its flat, column-major storage.  All loops index the storage exactly as
the C++ does (`col * nrows + row`); an index outside a block is `Err.ub`.  `double` is a linearly
ordered field.  Only the non-OpenBLAS code paths are modelled.  Sizes are natural numbers: products
of sizes are assumed not to reach 2^32, except in `deleteRow`, where `nrows - 1` on an empty matrix
wraps around and is modelled with the wrap. -/

namespace Rodeo

variable {K : Type} [Field K] [LinearOrder K] [IsStrictOrderedRing K]

/-- `class mat` (INCLUDE/matrix.hpp 36-41). -/
structure Mat (K : Type) where
  nrows : Nat
  ncols : Nat
  buf : List K
  deriving DecidableEq

namespace Mat

/-- The class invariant established by every constructor (matrix.cpp 60-84): the storage has
`nrows * ncols` elements. -/
def WF (A : Mat K) : Prop := A.buf.length = A.nrows * A.ncols

/-- `mat::mat()` (matrix.cpp 70-71). -/
def empty : Mat K := ⟨0, 0, []⟩

/-- `mat::mat(rows, cols, val)` (matrix.cpp 75-79); `mat(rows, cols)` is `val = 0`
(matrix.cpp 60-63). -/
def const (r c : Nat) (val : K) : Mat K := ⟨r, c, List.replicate (r * c) val⟩

/-- `mat::isEmpty` (INCLUDE/matrix.hpp 96-99). -/
def isEmpty (A : Mat K) : Bool := decide (A.nrows = 0 ∨ A.ncols = 0)

/-- `mat::operator()(row, col)` (matrix.cpp 145-157). -/
def at' (A : Mat K) (row col : Nat) : Res K :=
  if row ≥ A.nrows ∨ col ≥ A.ncols then .error .outOfRange
  else rawAt A.buf (col * A.nrows + row)

/-- `matrix[i]` where `i` is computed from an `int`.  A negative value, converted to `unsigned`,
is an index near 2^32, outside every storage block of the model. -/
def rawAtI (buf : List K) (i : Int) : Res K :=
  if i < 0 then .error .ub else rawAt buf i.toNat

/-- `newMatrix[i] = v` where `i` is computed from an `int`. -/
def wrI (d : List (Option K)) (i : Int) (v : K) : Res (List (Option K)) :=
  if i < 0 then .error .ub else Mem.wr d i.toNat v

/-- `result(row, col) = v` on a `rows x cols` matrix under construction (operator(), 145-150). -/
def wrAt (rows cols : Nat) (d : List (Option K)) (row col : Nat) (v : K) :
    Res (List (Option K)) :=
  if row ≥ rows ∨ col ≥ cols then .error .outOfRange
  else Mem.wr d (col * rows + row) v

/-- `for (i = start; i < stop; ++i)`. -/
def forFromTo {σ : Type} (start stop : Nat) (body : Nat → σ → Res σ) (s : σ) : Res σ :=
  loopFrom body start (stop - start) s

/-- `mat::submat` (matrix.cpp 159-185). -/
def submat (A : Mat K) (startRow endRow startCol endCol : Nat) : Res (Mat K) :=
  if startRow ≥ A.nrows ∨ endRow ≥ A.nrows ∨ startCol ≥ A.ncols ∨ endCol ≥ A.ncols ∨
      endRow < startRow ∨ endCol < startCol then .error .invalidArgument
  else do
    let numRows := endRow - startRow + 1
    let numCols := endCol - startCol + 1
    let d ← forRange numCols (fun j d =>
      forRange numRows (fun i d => do
        let v ← rawAt A.buf ((startCol + j) * A.nrows + (startRow + i))
        wrAt numRows numCols d i j v) d) (Mem.zeros (numRows * numCols))
    let l ← Mem.freeze d
    .ok ⟨numRows, numCols, l⟩

/-- `mat::addRow` (matrix.cpp 188-228).  `position == -1` becomes `nrows` (190-193); only an empty
matrix takes its column count from the row (195-197); positions below -1 are not rejected (199). -/
def addRow (A : Mat K) (rowVec : List K) (position : Int) : Res (Mat K) :=
  let pos : Int := if position = -1 then A.nrows else position
  let ncols := if A.isEmpty then rowVec.length else A.ncols
  if pos > A.nrows then .error .invalidArgument
  else if rowVec.length ≠ ncols then .error .invalidArgument
  else do
    let d ← forRange ncols (fun col d => do
      let d1 ← forRange pos.toNat (fun row d => do
        let v ← rawAt A.buf (col * A.nrows + row)
        Mem.wr d (col * (A.nrows + 1) + row) v) d
      let w ← vat rowVec col
      let d2 ← wrI d1 ((col * (A.nrows + 1) : Nat) + pos) w
      forFromTo pos.toNat A.nrows (fun row d => do
        let v ← rawAt A.buf (col * A.nrows + row)
        Mem.wr d (col * (A.nrows + 1) + row + 1) v) d2) (Mem.alloc ((A.nrows + 1) * ncols))
    let l ← Mem.freeze d
    .ok ⟨A.nrows + 1, ncols, l⟩

/-- `mat::addColumn` (matrix.cpp 231-276). -/
def addColumn (A : Mat K) (colVec : List K) (position : Int) : Res (Mat K) :=
  let pos : Int := if position = -1 then A.ncols else position
  let nrows := if A.isEmpty then colVec.length else A.nrows
  if pos > A.ncols then .error .invalidArgument
  else if colVec.length ≠ nrows then .error .invalidArgument
  else do
    let d1 ← forRange pos.toNat (fun col d =>
      forRange nrows (fun row d => do
        let v ← rawAt A.buf (col * nrows + row)
        Mem.wr d (col * nrows + row) v) d) (Mem.alloc (nrows * (A.ncols + 1)))
    let d2 ← forRange nrows (fun row d => do
      let v ← vat colVec row
      wrI d (pos * (nrows : Int) + (row : Int)) v) d1
    let d3 ← forFromTo pos.toNat A.ncols (fun col d =>
      forRange nrows (fun row d => do
        let v ← rawAt A.buf (col * nrows + row)
        Mem.wr d ((col + 1) * nrows + row) v) d) d2
    let l ← Mem.freeze d3
    .ok ⟨nrows, A.ncols + 1, l⟩

/-- `unsigned` subtraction of one: `nrows - 1` (matrix.cpp 282, 290, 292, 310). -/
def predU32 (n : Nat) : Nat := if n = 0 then 2 ^ 32 - 1 else n - 1

/-- `mat::deleteRow` (matrix.cpp 279-320).  `rowIndex == -1` becomes `nrows - 1`, which is again -1
for an empty matrix (281-283); other negative indices are not rejected (285), and then neither copy
loop runs (299, 302: the `unsigned` start is near 2^32), so that the new storage stays
indeterminate. -/
def deleteRow (A : Mat K) (rowIndex : Int) : Res (Mat K) :=
  let idx : Int := if rowIndex = -1 then (A.nrows : Int) - 1 else rowIndex
  if idx ≥ A.nrows then .error .outOfRange
  else if predU32 A.nrows > 0 then do
    let m := predU32 A.nrows
    let d ← forRange A.ncols (fun col d => do
      let d1 ← forRange idx.toNat (fun row d => do
        let v ← rawAt A.buf (col * A.nrows + row)
        Mem.wr d (col * m + row) v) d
      if idx + 1 < 0 then .ok d1
      else forFromTo (idx + 1).toNat A.nrows (fun row d => do
        let v ← rawAt A.buf (col * A.nrows + row)
        Mem.wr d (col * m + (row - 1)) v) d1) (Mem.alloc (m * A.ncols))
    let l ← Mem.freeze d
    .ok ⟨m, A.ncols, l⟩
  else .ok empty

/-- `std::unique` on a range (matrix.cpp 331-332): drop elements equal to their predecessor. -/
def uniqueAdj : List Int → List Int
  | [] => []
  | [a] => [a]
  | a :: b :: l => if a = b then uniqueAdj (b :: l) else a :: uniqueAdj (b :: l)

/-- The sorted list of distinct indices (matrix.cpp 329-332); `std::sort` is `List.mergeSort`. -/
def sortedUnique (l : List Int) : List Int :=
  uniqueAdj (l.mergeSort (fun a b => decide (a ≤ b)))

/-- `mat::deleteRows` (matrix.cpp 322-373). -/
def deleteRows (A : Mat K) (rowIndices : List Int) : Res (Mat K) :=
  if rowIndices = [] then .ok A
  else
    let sorted := sortedUnique rowIndices
    match sorted.getLast?, sorted.head? with
    | some back, some front =>
      if back ≥ A.nrows ∨ front < 0 then .error .outOfRange
      else
        let newRowCount := A.nrows - sorted.length
        if newRowCount = 0 then .ok empty
        else do
          let s ← forRange A.nrows (fun oldRow (s : Nat × Nat × List (Option K)) =>
            if s.2.1 < sorted.length ∧ sorted[s.2.1]? = some (oldRow : Int) then
              .ok (s.1, s.2.1 + 1, s.2.2)
            else do
              let d ← forRange A.ncols (fun col d => do
                let v ← rawAt A.buf (col * A.nrows + oldRow)
                Mem.wr d (col * newRowCount + s.1) v) s.2.2
              .ok (s.1 + 1, s.2.1, d)) (0, 0, Mem.alloc (newRowCount * A.ncols))
          let l ← Mem.freeze s.2.2
          .ok ⟨newRowCount, A.ncols, l⟩
    | _, _ => .error .ub

/-- `mat::resize` (matrix.cpp 377-402). -/
def resize (A : Mat K) (newRows newCols : Nat) : Res (Mat K) := do
  let d ← forRange (min A.ncols newCols) (fun col d =>
    forRange (min A.nrows newRows) (fun row d => do
      let v ← rawAt A.buf (col * A.nrows + row)
      Mem.wr d (col * newRows + row) v) d) (Mem.zeros (newRows * newCols))
  let l ← Mem.freeze d
  .ok ⟨newRows, newCols, l⟩

/-- `mat::getCol` (matrix.cpp 557-575). -/
def getCol (A : Mat K) (colIndex : Int) : Res (List K) :=
  if colIndex ≥ A.ncols then .error .outOfRange
  else if colIndex < -1 then .error .invalidArgument
  else
    let c : Int := if colIndex = -1 then (A.ncols : Int) - 1 else colIndex
    tab A.nrows fun row => rawAtI A.buf (c * A.nrows + row)

/-- `mat::setCol` (matrix.cpp 578-590). -/
def setCol (A : Mat K) (colVec : List K) (colIndex : Nat) : Res (Mat K) :=
  if colIndex ≥ A.ncols then .error .outOfRange
  else if colVec.length ≠ A.nrows then .error .invalidArgument
  else do
    let d ← forRange A.nrows (fun row d => do
      let v ← vat colVec row
      Mem.wr d (colIndex * A.nrows + row) v) (A.buf.map some)
    let l ← Mem.freeze d
    .ok ⟨A.nrows, A.ncols, l⟩

/-- `mat::getRow` (matrix.cpp 592-610). -/
def getRow (A : Mat K) (rowIndex : Int) : Res (List K) :=
  if rowIndex ≥ A.nrows then .error .outOfRange
  else if rowIndex < -1 then .error .invalidArgument
  else
    let r : Int := if rowIndex = -1 then (A.nrows : Int) - 1 else rowIndex
    tab A.ncols fun col => rawAtI A.buf ((col * A.nrows : Nat) + r)

/-- `mat::setRow` (matrix.cpp 613-625). -/
def setRow (A : Mat K) (rowVec : List K) (rowIndex : Nat) : Res (Mat K) :=
  if rowIndex ≥ A.nrows then .error .outOfRange
  else if rowVec.length ≠ A.ncols then .error .invalidArgument
  else do
    let d ← forRange A.ncols (fun col d => do
      let v ← vat rowVec col
      Mem.wr d (col * A.nrows + rowIndex) v) (A.buf.map some)
    let l ← Mem.freeze d
    .ok ⟨A.nrows, A.ncols, l⟩

/-- `mat::diag` (matrix.cpp 628-642). -/
def diag (A : Mat K) : Res (List K) :=
  if A.nrows ≠ A.ncols then .error .invalidArgument
  else if A.isEmpty then .error .invalidArgument
  else tab A.nrows fun i => rawAt A.buf (i * (A.nrows + 1))

/-- `mat::operator+` (matrix.cpp 1195-1204). -/
def add (A B : Mat K) : Res (Mat K) :=
  if A.nrows ≠ B.nrows ∨ A.ncols ≠ B.ncols then .error .invalidArgument
  else do
    let l ← tab (A.nrows * A.ncols) fun i => do
      let a ← rawAt A.buf i
      let b ← rawAt B.buf i
      .ok (a + b)
    .ok ⟨A.nrows, A.ncols, l⟩

/-- `mat::operator-` (matrix.cpp 1207-1216). -/
def sub (A B : Mat K) : Res (Mat K) :=
  if A.nrows ≠ B.nrows ∨ A.ncols ≠ B.ncols then .error .invalidArgument
  else do
    let l ← tab (A.nrows * A.ncols) fun i => do
      let a ← rawAt A.buf i
      let b ← rawAt B.buf i
      .ok (a - b)
    .ok ⟨A.nrows, A.ncols, l⟩

/-- `mat::operator*(double)` (matrix.cpp 1227-1233). -/
def smul (A : Mat K) (s : K) : Res (Mat K) := do
  let l ← tab (A.nrows * A.ncols) fun i => do
    let a ← rawAt A.buf i
    .ok (s * a)
  .ok ⟨A.nrows, A.ncols, l⟩

/-- `mat::transposeNaive` (matrix.cpp 1107-1115), the body of `mat::transpose` (1100-1104). -/
def transpose (A : Mat K) : Res (Mat K) := do
  let d ← forRange A.nrows (fun i d =>
    forRange A.ncols (fun j d => do
      let v ← rawAt A.buf (j * A.nrows + i)
      Mem.wr d (i * A.ncols + j) v) d) (Mem.zeros (A.ncols * A.nrows))
  let l ← Mem.freeze d
  .ok ⟨A.ncols, A.nrows, l⟩

/-- The accumulation loop `for (k = 0; k < n; ++k) sum += f(k);`. -/
def sumLoop (n : Nat) (f : Nat → Res K) : Res K :=
  forRange n (fun k s => do
    let v ← f k
    .ok (s + v)) 0

/-- `mat::matVecProduct` (matrix.cpp 1058-1070) with `matVecProductNaive` (1085-1098). -/
def matVecProduct (A : Mat K) (v : List K) : Res (List K) :=
  if v.length ≠ A.ncols then .error .invalidArgument
  else tab A.nrows fun i => sumLoop A.ncols fun j => do
    let a ← rawAt A.buf (j * A.nrows + i)
    let b ← vat v j
    .ok (a * b)

/-- `mat::matMatProduct` (matrix.cpp 1240-1254) with `matMatProductNaive` (1257-1272);
`operator*` (1219-1225) adds the same check. -/
def matMatProduct (A B : Mat K) : Res (Mat K) :=
  if A.ncols ≠ B.nrows then .error .invalidArgument
  else do
    let d ← forRange A.nrows (fun i d =>
      forRange B.ncols (fun j d => do
        let s ← sumLoop A.ncols fun k => do
          let a ← rawAt A.buf (k * A.nrows + i)
          let b ← rawAt B.buf (j * B.nrows + k)
          .ok (a * b)
        Mem.wr d (j * A.nrows + i) s) d) (Mem.zeros (A.nrows * B.ncols))
    let l ← Mem.freeze d
    .ok ⟨A.nrows, B.ncols, l⟩

/-- `mat::concatenateRowWise` (matrix.cpp 1861-1895). -/
def concatenateRowWise (A B : Mat K) : Res (Mat K) :=
  if A.nrows = 0 then .ok B
  else if B.nrows = 0 then .ok A
  else if A.ncols ≠ B.ncols then .error .invalidArgument
  else do
    let newRows := A.nrows + B.nrows
    let d1 ← forRange A.ncols (fun col d =>
      forRange A.nrows (fun row d => do
        let v ← rawAt A.buf (col * A.nrows + row)
        wrAt newRows A.ncols d row col v) d) (Mem.zeros (newRows * A.ncols))
    let d2 ← forRange A.ncols (fun col d =>
      forRange B.nrows (fun row d => do
        let v ← rawAt B.buf (col * B.nrows + row)
        wrAt newRows A.ncols d (A.nrows + row) col v) d) d1
    let l ← Mem.freeze d2
    .ok ⟨newRows, A.ncols, l⟩

/-- `mat::concatenateColumnWise` (matrix.cpp 1898-1933). -/
def concatenateColumnWise (A B : Mat K) : Res (Mat K) :=
  if A.ncols = 0 then .ok B
  else if B.ncols = 0 then .ok A
  else if A.nrows ≠ B.nrows then .error .invalidArgument
  else do
    let newCols := A.ncols + B.ncols
    let d1 ← forRange A.ncols (fun col d =>
      forRange A.nrows (fun row d => do
        let v ← rawAt A.buf (col * A.nrows + row)
        wrAt A.nrows newCols d row col v) d) (Mem.zeros (A.nrows * newCols))
    let d2 ← forRange B.ncols (fun col d =>
      forRange A.nrows (fun row d => do
        let v ← rawAt B.buf (col * B.nrows + row)
        wrAt A.nrows newCols d row (A.ncols + col) v) d) d1
    let l ← Mem.freeze d2
    .ok ⟨A.nrows, newCols, l⟩

/-- The inner loop of the row lookups (matrix.cpp 1764-1770, 1787-1795): `false` as soon as one
entry of row `i` is further than `tolerance` from `v`. -/
def rowMatches (A : Mat K) (v : List K) (tolerance : K) (i : Nat) : Res Bool :=
  noneOf A.ncols fun j => do
    let a ← rawAt A.buf (j * A.nrows + i)
    let b ← vat v j
    .ok (decide (|a - b| > tolerance))

/-- Outer loop of `findRowIndex` (matrix.cpp 1786-1801), `count` rounds left. -/
def findRowLoop (A : Mat K) (v : List K) (tolerance : K) : Nat → Nat → Res Int
  | _, 0 => .ok (-1)
  | i, k + 1 => do
    let b ← rowMatches A v tolerance i
    if b then .ok (i : Int) else findRowLoop A v tolerance (i + 1) k

/-- `mat::findRowIndex` (matrix.cpp 1780-1802). -/
def findRowIndex (A : Mat K) (v : List K) (tolerance : K) : Res Int :=
  if v.length ≠ A.ncols then .error .invalidArgument
  else findRowLoop A v tolerance 0 A.nrows

/-- Outer loop of `isRowInMatrix` (matrix.cpp 1763-1776). -/
def isRowLoop (A : Mat K) (v : List K) (tolerance : K) : Nat → Nat → Res Bool
  | _, 0 => .ok false
  | i, k + 1 => do
    let b ← rowMatches A v tolerance i
    if b then .ok true else isRowLoop A v tolerance (i + 1) k

/-- `mat::isRowInMatrix` (matrix.cpp 1758-1777). -/
def isRowInMatrix (A : Mat K) (v : List K) (tolerance : K) : Res Bool :=
  if v.length ≠ A.ncols then .ok false
  else isRowLoop A v tolerance 0 A.nrows

/-- `mat::normalizeMatrix(vec, vec)` (matrix.cpp 1805-1841).  `1.0/dim` with `dim = 0` is a division
by zero. -/
def normalizeMatrix (A : Mat K) (xmin xmax : List K) : Res (Mat K) :=
  if xmin.length ≠ xmax.length then .error .invalidArgument
  else if xmin.length ≠ A.ncols then .error .invalidArgument
  else do
    let ok ← noneOf xmin.length fun i => do
      let a ← vat xmin i
      let b ← vat xmax i
      .ok (decide (a ≥ b))
    if ok = false then .error .invalidArgument
    else do
      let d ← forRange A.nrows (fun i d =>
        forRange xmin.length (fun j d => do
          let b ← vat xmax j
          let a ← vat xmin j
          let v ← rawAt A.buf (j * A.nrows + i)
          let q ← fdiv (v - a) (b - a)
          wrAt A.nrows A.ncols d i j q) d) (Mem.zeros (A.nrows * A.ncols))
      let l ← Mem.freeze d
      let s ← fdiv 1 (xmin.length : K)
      smul ⟨A.nrows, A.ncols, l⟩ s

/-- `mat::shuffleRows` (matrix.cpp 1726-1755); `perm` is what `std::shuffle` made of
`0, 1, ..., nrows-1`. -/
def shuffleRows (A : Mat K) (perm : List Nat) : Res (Mat K) := do
  let d ← forRange A.nrows (fun newRow d => do
    let oldRow ← rawAt perm newRow
    forRange A.ncols (fun col d => do
      let v ← rawAt A.buf (col * A.nrows + oldRow)
      Mem.wr d (col * A.nrows + newRow) v) d) (Mem.alloc (A.nrows * A.ncols))
  let l ← Mem.freeze d
  .ok ⟨A.nrows, A.ncols, l⟩

end Mat
end Rodeo
