import Verif.Model.Design

/-! # Model of the random fillings of a matrix (`LinearAlgebra/matrix.cpp`)

`u col row` is the draw in `[0,1)` used for an entry; `perm col` is what `std::shuffle` makes of
`0, 1, ..., nrows-1` in that column.  After an exception in a later column the earlier columns are
already filled; the model delivers only the exception. -/

namespace Rodeo

variable {K : Type} [Field K] [LinearOrder K] [IsStrictOrderedRing K]

namespace Mat

/-- The last loop of a column (matrix.cpp 537-539): `(*this)(row, col) = values[row];`. -/
def writeColumn (values : List K) (col : Nat) (A : Mat K) : Res (Mat K) :=
  forRange A.nrows (fun row A => do
    let v ← rawAt values row
    put A row col v) A

/-- `mat::fillRandom(const std::vector&, const std::vector&)` (matrix.cpp 448-468). -/
def fillRandom (A : Mat K) (lb ub : List K) (u : Nat → Nat → K) : Res (Mat K) :=
  if lb.length ≠ A.ncols ∨ ub.length ≠ A.ncols then .error .invalidArgument
  else forRange A.ncols (fun col A => do
    let l ← rawAt lb col
    let h ← rawAt ub col
    if l > h then .error .invalidArgument
    else do
      let values ← tab A.nrows fun row => .ok (uniformReal l h (u col row))
      writeColumn values col A) A

/-- The samples of one column before the shuffle (matrix.cpp 524-532).  Without rows the quotient is
not used. -/
def strata (n : Nat) (l h : K) (u : Nat → K) : Res (List K) :=
  let size := (h - l) / (n : K)
  tab n fun row => .ok (uniformReal (l + (row : K) * size) (l + ((row + 1 : Nat) : K) * size) (u row))

/-- `mat::fillRandomLHS(const std::vector&, const std::vector&)` (matrix.cpp 508-541); the overload
for `vec` (471-505) is the same text. -/
def fillRandomLHS (A : Mat K) (lb ub : List K) (u : Nat → Nat → K) (perm : Nat → List Nat) :
    Res (Mat K) :=
  if lb.length ≠ A.ncols ∨ ub.length ≠ A.ncols then .error .invalidArgument
  else forRange A.ncols (fun col A => do
    let l ← rawAt lb col
    let h ← rawAt ub col
    if l > h then .error .invalidArgument
    else do
      let intervals ← strata A.nrows l h (u col)
      let shuffled ← tab A.nrows fun row => do
        let k ← rawAt (perm col) row
        rawAt intervals k
      writeColumn shuffled col A) A

end Mat
end Rodeo
