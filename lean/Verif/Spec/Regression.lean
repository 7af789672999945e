import Verif.Spec.Mat
import Mathlib.Algebra.BigOperators.Group.Finset.Basic

/-! # Ridge regression -/

namespace Rodeo.Spec

variable {K : Type} [Field K] [LinearOrder K] [IsStrictOrderedRing K]

/-- The affine function with intercept `w 0` and slopes `w 1, ..., w dim`. -/
def affine (dim : Nat) (w x : Nat → K) : K := w 0 + ∑ j ∈ Finset.range dim, x j * w (j + 1)

/-- The sum of the squared residuals of `n` samples `X i`, `y i` plus `lambda` times the squared norm
of the weights. -/
def ridgeLoss (n dim : Nat) (X : Nat → Nat → K) (y : Nat → K) (lambda : K) (w : Nat → K) : K :=
  ∑ i ∈ Finset.range n, (y i - affine dim w (X i)) ^ 2 +
    lambda * ∑ j ∈ Finset.range (dim + 1), w j ^ 2

/-- `w` is the only minimizer of the regularized least squares error. -/
def IsRidge (n dim : Nat) (X : Nat → Nat → K) (y : Nat → K) (lambda : K) (w : Nat → K) : Prop :=
  ∀ w' : Nat → K, ridgeLoss n dim X y lambda w ≤ ridgeLoss n dim X y lambda w' ∧
    (ridgeLoss n dim X y lambda w' = ridgeLoss n dim X y lambda w → ∀ j, j ≤ dim → w' j = w j)

end Rodeo.Spec
