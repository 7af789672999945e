import Mathlib.Algebra.Order.Field.Basic

/-! # Specification: decimal numbers -/

namespace Rodeo.Spec

variable {K : Type} [Field K] [LinearOrder K] [IsStrictOrderedRing K]

/-- `x` has at most `p` digits after the decimal point. -/
def Decimals (p : Nat) (x : K) : Prop := ∃ z : Int, x * 10 ^ p = z

/-- `x` has at most `n` significant decimal digits. -/
def SigDigits (n : Nat) (x : K) : Prop := ∃ (k : Nat) (j : Int), |x| = (k : K) * (10 : K) ^ j ∧ k < 10 ^ n

end Rodeo.Spec
