import Verif.Spec.Dbl
import Mathlib.Algebra.BigOperators.Group.Finset.Basic

/-! # The factors of an LU factorization and the size of rounding errors -/

namespace Rodeo.Spec

variable {K : Type} [Field K] [LinearOrder K] [IsStrictOrderedRing K]

/-- The lower factor: the part of `M` below the diagonal, ones on the diagonal. -/
def lowerUnit (M : Nat → Nat → K) (i l : Nat) : K := if l < i then M i l else if l = i then 1 else 0

/-- The upper factor: the part of `M` on and above the diagonal. -/
def upperPart (M : Nat → Nat → K) (l j : Nat) : K := if l ≤ j then M l j else 0

/-- The entry `i j` of the product of the two factors. -/
def luProduct (n : Nat) (M : Nat → Nat → K) (i j : Nat) : K :=
  ∑ l ∈ Finset.range n, lowerUnit M i l * upperPart M l j

/-- The entry `i j` of the product of the absolute values of the two factors. -/
def luSize (n : Nat) (M : Nat → Nat → K) (i j : Nat) : K :=
  ∑ l ∈ Finset.range n, |lowerUnit M i l * upperPart M l j|

/-- How far `n x n` systems with entries up to `B` are known up to the errors of `n` rounds of elimination. -/
def luError (n : Nat) (B : K) : K := n / 2 ^ 52 * (2 ^ n * B) + (n + 2 ^ n * B) / 2 ^ 1074

/-- The residual of a computed solution `x` in row `i`: relative to the absolute values of the factors and of
`x`, and multiples of the least double for numbers that are too small for a relative error. -/
def luResidual (n : Nat) (M : Nat → Nat → K) (x : Nat → K) (i : Nat) : K :=
  n / 2 ^ 50 * ∑ j ∈ Finset.range n, luSize n M i j * |x j| +
    (n + ∑ j ∈ Finset.range n, (n + |M j j|) * (|x j| + 2)) / 2 ^ 1074

end Rodeo.Spec
