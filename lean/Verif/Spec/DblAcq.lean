import Verif.Spec.DblVar
import Verif.Model.Acquisition
import Mathlib.Probability.Distributions.Gaussian.Real

/-! # What is assumed of the error function of the C library, and the probability of a normal variable -/

namespace Rodeo.Spec

open MeasureTheory ProbabilityTheory

/-- `erf` returns doubles in `[-1, 1]` with an error below one unit in the last place. -/
def AccurateErf (erf : ℝ → ℝ) : Prop :=
  ∀ x, IsDouble x → IsDouble (erf x) ∧ |erf x| ≤ 1 ∧
    |erf x - realErf x| ≤ |realErf x| / 2 ^ 52 + 2 ^ (-1074 : ℤ)

end Rodeo.Spec
