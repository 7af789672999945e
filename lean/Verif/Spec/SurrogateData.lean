import Verif.Model.SurrogateData
import Verif.Spec.Mat

/-! # What a split into training and validation samples means -/

namespace Rodeo.Spec

variable {K : Type} [Field K] [LinearOrder K] [IsStrictOrderedRing K]

/-- The number of columns of a training data file for `dim` parameters: parameters, value, and
possibly the gradient, or a directional derivative and its direction. -/
def dataColumns (grad direct : Bool) (dim : Nat) : Nat :=
  if grad then 2 * dim + 1 else if direct then 2 * dim + 2 else dim + 1

/-- The object holds the rows `tr` of the table `F` as training samples and the rows `va` as
validation samples (row numbers count from zero; column `dim` is the value). -/
structure HoldsSplit (d : SMData K) (dim : Nat) (F : Nat → Nat → K) (tr va : List Nat) : Prop where
  dimension : d.dimension = dim
  trainCount : d.numberOfSamples = tr.length
  trainX : IsMat d.X tr.length dim (fun i j => F (tr.getD i 0) j)
  trainY : d.y = tr.map fun r => F r dim
  validCount : d.numberOfValidationSamples = va.length
  validX : va ≠ [] → IsMat d.XValidation va.length dim (fun i j => F (va.getD i 0) j)
  validY : va ≠ [] → d.yValidation = va.map fun r => F r dim

/-- Every one of the `n` rows is in exactly one of the two parts, and the second has `k` rows. -/
def IsSplit (n k : Nat) (tr va : List Nat) : Prop :=
  (tr ++ va).Perm (List.range n) ∧ va.length = k

end Rodeo.Spec
