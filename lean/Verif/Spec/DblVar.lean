import Verif.Spec.DblCorr

/-! # What is assumed of the square of the C library -/

namespace Rodeo.Spec

/-- `pow(a, 2)` has an error below one unit in the last place, also for negative `a`. -/
def AccurateSquare (L : Dbl.Libm ℝ) : Prop :=
  ∀ a, IsDouble a → |a| ≤ 2 ^ (102 : ℤ) →
    ∃ r, L.pow a 2 = .ok r ∧ IsDouble r ∧ 0 ≤ r ∧ |r - a ^ 2| ≤ a ^ 2 / 2 ^ 52 + 2 ^ (-1074 : ℤ)

end Rodeo.Spec
