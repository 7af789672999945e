import Verif.Model.Mat
import Mathlib.Algebra.BigOperators.Group.Finset.Basic
import Mathlib.Algebra.BigOperators.Intervals

/-! # What a matrix object means

`IsMat A n m F` says that the C++ object `A` is an `n x m` matrix whose entry in row `i`, column `j`
(read through the public, bounds-checked `operator()`) is `F i j`, and that its storage has exactly
`n * m` elements. -/

namespace Rodeo.Spec

variable {K : Type} [Field K] [LinearOrder K] [IsStrictOrderedRing K]

/-- `A` represents the `n x m` matrix `F`. -/
def IsMat (A : Mat K) (n m : Nat) (F : Nat → Nat → K) : Prop :=
  A.nrows = n ∧ A.ncols = m ∧ A.buf.length = n * m ∧
    ∀ i j, i < n → j < m → A.at' i j = .ok (F i j)

/-- Insertion of `r` as row `p`. -/
def insertRow (F : Nat → Nat → K) (p : Nat) (r : Nat → K) (i j : Nat) : K :=
  if i < p then F i j else if i = p then r j else F (i - 1) j

/-- Insertion of `c` as column `p`. -/
def insertCol (F : Nat → Nat → K) (p : Nat) (c : Nat → K) (i j : Nat) : K :=
  if j < p then F i j else if j = p then c i else F i (j - 1)

/-- Removal of row `p`. -/
def removeRow (F : Nat → Nat → K) (p : Nat) (i j : Nat) : K :=
  if i < p then F i j else F (i + 1) j

/-- The entries of a C++ vector as a function. -/
def vecFun (v : List K) (i : Nat) : K := v.getD i 0

end Rodeo.Spec
