import Verif.Model.DblSearch
import Verif.Model.API

/-! # The initial samples in double arithmetic (`LinearAlgebra/matrix.cpp`, `API/cppAPI.cpp`)

The functions of `Model/Sampling` and `generateDoESamplesInput` with every operation rounded.  Draws and shuffles
are oracles as there. -/

namespace Rodeo.Dbl

variable {K : Type} [Field K] [LinearOrder K] [IsStrictOrderedRing K] [FloorRing K]

/-- `mat::fillRandom(const std::vector&, const std::vector&)` (matrix.cpp 448-468). -/
def fillRandomMat (A : Mat K) (lb ub : List K) (u : Nat → Nat → K) : Res (Mat K) :=
  if lb.length ≠ A.ncols ∨ ub.length ≠ A.ncols then .error .invalidArgument
  else forRange A.ncols (fun col A => do
    let l ← rawAt lb col
    let h ← rawAt ub col
    if l > h then .error .invalidArgument
    else do
      let values ← tab A.nrows fun row => uniformReal l h (u col row)
      Mat.writeColumn values col A) A

/-- A cut point `lb[col] + row * intervalSize` (matrix.cpp 528, 529). -/
def cutPoint (l size : K) (row : Nat) : Res K := do
  let t ← mul (row : K) size
  add l t

/-- The samples of one column before the shuffle (matrix.cpp 524-532).  Without rows the quotient, which is
then not a number, is not used. -/
def strata (n : Nat) (l h : K) (u : Nat → K) : Res (List K) :=
  if n = 0 then .ok []
  else do
    let d ← sub h l
    let size ← div d (n : K)
    tab n fun row => do
      let lower ← cutPoint l size row
      let upper ← cutPoint l size (row + 1)
      uniformReal lower upper (u row)

/-- `mat::fillRandomLHS(const std::vector&, const std::vector&)` (matrix.cpp 508-541); the overload for `vec`
(471-505) is the same text. -/
def fillRandomLHS (A : Mat K) (lb ub : List K) (u : Nat → Nat → K) (perm : Nat → List Nat) : Res (Mat K) :=
  if lb.length ≠ A.ncols ∨ ub.length ≠ A.ncols then .error .invalidArgument
  else forRange A.ncols (fun col A => do
    let l ← rawAt lb col
    let h ← rawAt ub col
    if l > h then .error .invalidArgument
    else do
      let intervals ← strata A.nrows l h (u col)
      let shuffled ← tab A.nrows fun row => do
        let k ← rawAt (perm col) row
        rawAt intervals k
      Mat.writeColumn shuffled col A) A

/-- `generateDoESamplesInput` (cppAPI.cpp 323-334). -/
def generateSamples {F : Type} (E : API.Env K F) (s : API.Study K F) : Res (Mat K) :=
  if s.doe = "random".toList then do
    let A ← Mat.resize Mat.empty s.samplesForDoE s.dimension
    fillRandomMat A s.lb s.ub E.u
  else if s.doe = "lhs".toList then do
    let A ← Mat.resize Mat.empty s.samplesForDoE s.dimension
    fillRandomLHS A s.lb s.ub E.u E.perm
  else .error .invalidArgument

end Rodeo.Dbl
