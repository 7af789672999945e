import Verif.Spec.LinSys
import Verif.Spec.Mat
import Mathlib.Analysis.SpecialFunctions.Pow.Real

/-! # Correlation of two points, on index functions -/

namespace Rodeo.Spec

open Finset

/-- The Gaussian correlation of two points of dimension `m` with weights `theta`. -/
noncomputable def gaussCorr (m : Nat) (theta x y : Nat → ℝ) : ℝ :=
  Real.exp (-∑ k ∈ range m, theta k * (x k - y k) ^ 2)

/-- The exponential correlation of two points with weights `theta` and exponents `gamma`. -/
noncomputable def expCorr (m : Nat) (theta gamma x y : Nat → ℝ) : ℝ :=
  Real.exp (-∑ k ∈ range m, theta k * |x k - y k| ^ gamma k)

/-- What a correlation matrix of `n` samples must look like: symmetric, ones on the diagonal and
all entries positive and at most one. -/
def IsCorrelation (n : Nat) (R : Nat → Nat → ℝ) : Prop :=
  Symm n R ∧ (∀ i, i < n → R i i = 1) ∧ ∀ i j, i < n → j < n → 0 < R i j ∧ R i j ≤ 1

end Rodeo.Spec
