import Verif.Spec.DblVar
import Verif.Spec.KrigingLive

/-! # What is assumed of the logarithm of the C library, and the error of a log determinant -/

namespace Rodeo.Spec

/-- `log` of a positive double is a double with an error below one unit in the last place. -/
def AccurateLog (log : ℝ → ℝ) : Prop :=
  ∀ x, IsDouble x → 0 < x → IsDouble (log x) ∧
    |log x - Real.log x| ≤ |Real.log x| / 2 ^ 52 + 2 ^ (-1074 : ℤ)

/-- The relative size of the rounding errors in the correlation matrix of `n` samples of `m` variables and
in its factor, against the number `e` on the diagonal. -/
noncomputable def pivotError (n m : Nat) (e : ℝ) : ℝ :=
  n * (33 / 32 * ((n + 2) / 2 ^ 53) * (1 + 2 * e) + ((m : ℝ) + 10) / 2 ^ 54) / e

end Rodeo.Spec
