import Mathlib.Algebra.Order.Field.Basic

/-! # What a double is (IEEE 754 binary64) -/

namespace Rodeo.Spec

variable {K : Type} [Field K] [LinearOrder K] [IsStrictOrderedRing K]

/-- The numbers `m * 2 ^ e` with at most 53 binary digits and exponent at least -1074: the finite doubles,
if there were no largest one. -/
def IsDouble (x : K) : Prop := ∃ m e : ℤ, |m| < 2 ^ 53 ∧ -1074 ≤ e ∧ x = (m : K) * 2 ^ e

/-- `r` is a rounding of `x` to nearest: it is a double and no double is nearer to `x`. -/
def IsNearest (x r : K) : Prop := IsDouble r ∧ ∀ d : K, IsDouble d → |r - x| ≤ |d - x|

/-- All numbers of a list are doubles. -/
def Doubles (l : List K) : Prop := ∀ x ∈ l, IsDouble x

end Rodeo.Spec
