import Verif.Spec.Kriging
import Verif.Spec.LinSys
import Mathlib.Analysis.SpecialFunctions.Log.Basic
import Mathlib.LinearAlgebra.Matrix.Determinant.Basic
import Verif.Spec.EALive

/-! # Maximum likelihood estimation for a Kriging model, on index functions

`r` are the `n` values of the samples (after subtraction of a trend) and `R` is their correlation
matrix. -/

namespace Rodeo.Spec
open Finset

/-- `s` is the maximum likelihood estimate of the process variance: with the generalized least squares
estimate `beta` of the mean, `s = (r - beta)^T R^-1 (r - beta) / n`.  The weights `w = R^-1 (r - beta)`
sum up to zero: this is the condition that determines `beta`. -/
def EstimatedVariance (n : Nat) (R : Nat → Nat → ℝ) (r : Nat → ℝ) (s : ℝ) : Prop :=
  ∃ (beta : ℝ) (w : Nat → ℝ), Solves n R w (fun i => r i - beta) ∧ ∑ i ∈ range n, w i = 0 ∧
    s = 1 / (n : ℝ) * dotp n (fun i => r i - beta) w

/-- The negative logarithm of the likelihood of the samples, up to a constant, when the process variance
is `s`: what the training minimizes. -/
noncomputable def likelihoodLoss (n : Nat) (R : Nat → Nat → ℝ) (s : ℝ) : ℝ :=
  (n : ℝ) / 2 * Real.log s + 1 / 2 * Real.log (toMatrix n R).det

/-- The smallest probability of an individual to be selected in a search for hyperparameters with this
number of generations and `dim` inputs: see `smallestShare`. -/
noncomputable def trainingShare (dim gens : Nat) : ℝ :=
  1 / (100 * ((min (2 * dim * 100) 5000 + gens * (200 * dim) : Nat) : ℝ))

end Rodeo.Spec
