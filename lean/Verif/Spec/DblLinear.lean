import Verif.Spec.DblLU
import Verif.Spec.Regression

/-! # The normal equations of a ridge regression and the size of their rounding errors -/

namespace Rodeo.Spec

variable {K : Type} [Field K] [LinearOrder K] [IsStrictOrderedRing K]

/-- The value of regressor `j` at sample `i`: 1 for the intercept. -/
def regressor (X : Nat → Nat → K) (i j : Nat) : K := if j = 0 then 1 else X i (j - 1)

/-- Equation `j` of the derivative of the regularized least squares error, which is zero at its minimum: half
the derivative of `ridgeLoss` with respect to `w j`. -/
def normalResidual (n dim : Nat) (X : Nat → Nat → K) (y : Nat → K) (lambda : K) (w : Nat → K) (j : Nat) : K :=
  ∑ k ∈ Finset.range n, regressor X k j * (affine dim w (X k) - y k) + lambda * w j

/-- How far the normal equations can be off: `G` is the computed inverse, `2 ^ (dim + 1)` the largest growth of
Gaussian elimination with partial pivoting. -/
def ridgeError (n dim : Nat) (y w : Nat → K) (G : Nat → Nat → K) : K :=
  (n + 2) ^ 2 / 2 ^ 52 * ∑ j ∈ Finset.range (dim + 1), |w j| +
    (dim + 1) * 2 ^ (dim + 1) * (n + 1) / 2 ^ 48 *
      (∑ i ∈ Finset.range (dim + 1), ∑ j ∈ Finset.range (dim + 1), |G i j| + 1) *
      (∑ i ∈ Finset.range n, |y i| + 1 / 2 ^ 950)

/-- The regularization exceeds what the rounding errors of the normal equations and of the elimination can take
away. -/
def RidgeRoom (n dim : Nat) (lambda : K) : Prop :=
  (dim + 1) ^ 2 * 2 ^ (dim + 1) * (n + 1) / 2 ^ 49 + (dim + 1) * (n + 2) ^ 2 / 2 ^ 52 ≤ lambda / 2

end Rodeo.Spec
