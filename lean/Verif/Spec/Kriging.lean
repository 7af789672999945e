import Verif.Spec.Corr
import Verif.Spec.Mat

/-! # Ordinary Kriging, on index functions

`n` samples of a random function with constant unknown mean; `R` is their correlation matrix (with the
nugget on the diagonal) and `r` the vector of correlations between the samples and the value to be
predicted. -/

namespace Rodeo.Spec

open Finset

/-- The scalar product. -/
def dotp (n : Nat) (a b : Nat → ℝ) : ℝ := ∑ i ∈ range n, a i * b i

/-- The correlation matrix of the samples `X` (rows) with the number `eps` added to the diagonal. -/
noncomputable def krigingMatrix (m : Nat) (theta gamma : Nat → ℝ) (eps : ℝ) (X : Nat → Nat → ℝ)
    (i j : Nat) : ℝ :=
  if i = j then 1 + eps else expCorr m theta gamma (X i) (X j)

/-- The mean squared error, in units of the process variance, of the linear predictor with weights
`lam`. -/
noncomputable def predictorError (n : Nat) (R : Nat → Nat → ℝ) (r lam : Nat → ℝ) : ℝ :=
  1 - 2 * dotp n lam r + quadForm n R lam

/-- A linear predictor is unbiased for every mean if its weights sum up to one. -/
def Unbiased (n : Nat) (lam : Nat → ℝ) : Prop := ∑ i ∈ range n, lam i = 1

/-- `lam` is the best linear unbiased predictor. -/
def IsBLUP (n : Nat) (R : Nat → Nat → ℝ) (r lam : Nat → ℝ) : Prop :=
  Unbiased n lam ∧ ∀ mu, Unbiased n mu → predictorError n R r lam ≤ predictorError n R r mu

end Rodeo.Spec
