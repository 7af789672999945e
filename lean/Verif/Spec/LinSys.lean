import Mathlib.Algebra.Order.Field.Basic
import Mathlib.Algebra.BigOperators.Group.Finset.Basic
import Mathlib.LinearAlgebra.Matrix.Defs

/-! # Linear systems and quadratic forms, on index functions -/

namespace Rodeo.Spec

variable {K : Type} [Field K] [LinearOrder K] [IsStrictOrderedRing K]

/-- `F` is symmetric as an `n x n` matrix. -/
def Symm (n : Nat) (F : Nat → Nat → K) : Prop := ∀ i j, i < n → j < n → F i j = F j i

/-- The value `x^T F x`. -/
def quadForm (n : Nat) (F : Nat → Nat → K) (x : Nat → K) : K :=
  ∑ i ∈ Finset.range n, ∑ j ∈ Finset.range n, x i * F i j * x j

/-- `F` is positive definite as an `n x n` matrix. -/
def PosDef (n : Nat) (F : Nat → Nat → K) : Prop :=
  ∀ x : Nat → K, (∃ i, i < n ∧ x i ≠ 0) → 0 < quadForm n F x

/-- `F` is positive semidefinite. -/
def PosSemidef (n : Nat) (F : Nat → Nat → K) : Prop := ∀ x : Nat → K, 0 ≤ quadForm n F x

/-- `x` solves `F x = b` (square system of size `n`). -/
def Solves (n : Nat) (F : Nat → Nat → K) (x b : Nat → K) : Prop :=
  ∀ i, i < n → ∑ j ∈ Finset.range n, F i j * x j = b i

/-- `sqrt` is a square root function on the nonnegative numbers. -/
def IsSqrt (sqrt : K → K) : Prop := ∀ t, 0 ≤ t → 0 ≤ sqrt t ∧ sqrt t * sqrt t = t

/-- The `n x n` Mathlib matrix of an index function. -/
def toMatrix (n : Nat) (F : Nat → Nat → K) : Matrix (Fin n) (Fin n) K :=
  Matrix.of fun i j => F i j

end Rodeo.Spec
