import Mathlib.Algebra.Order.Field.Basic
import Mathlib.Algebra.Order.Group.Abs
import Mathlib.Data.Int.Cast.Basic

/-! # Samples in the parts of a range, up to rounding -/

namespace Rodeo.Spec

variable {K : Type} [Field K] [LinearOrder K] [IsStrictOrderedRing K]

/-- Eight units in the last place of the bounds, and a number below all that matters. -/
def sampleError (l h : K) : K := (|l| + |h|) / 2 ^ 50 + 2 ^ (-1040 : ℤ)

/-- `x` lies in part number `r` of the range from `l` to `h` cut into `n` equal parts, or nearly so. -/
def NearStratum (n : Nat) (l h : K) (r : Nat) (x : K) : Prop :=
  l + (r : K) * ((h - l) / (n : K)) - sampleError l h ≤ x ∧
  x ≤ l + ((r : K) + 1) * ((h - l) / (n : K)) + sampleError l h

/-- The samples `x 0, ..., x (n-1)` of one parameter: part number `r` of the range has the sample number `at r`,
different parts have different samples, the samples are ordered as the parts are, and none is below the lower
bound or above the upper one by more than rounding. -/
def NearlyStratified (n : Nat) (l h : K) (x : Nat → K) : Prop :=
  (∃ at' : Nat → Nat, (∀ r, r < n → at' r < n) ∧ (∀ r s, r < n → s < n → at' r = at' s → r = s) ∧
    (∀ r, r < n → NearStratum n l h r (x (at' r))) ∧
    ∀ r s, r ≤ s → s < n → x (at' r) ≤ x (at' s)) ∧
  ∀ i, i < n → l ≤ x i ∧ x i ≤ h + sampleError l h

end Rodeo.Spec
