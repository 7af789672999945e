import Mathlib.Algebra.Order.Field.Basic

/-! # Boxes: what "inside the bounds" means, independent of the models -/

namespace Rodeo.Spec

variable {K : Type} [LinearOrder K]

/-- `x` is a point of the box `[lb, ub]`: same dimension and `lb i ≤ x i ≤ ub i` everywhere. -/
def InBox (lb ub x : List K) : Prop :=
  x.length = lb.length ∧ x.length = ub.length ∧
  ∀ (i : Nat) (l u v : K), lb[i]? = some l → ub[i]? = some u → x[i]? = some v → l ≤ v ∧ v ≤ u

/-- A non-degenerate box of dimension `d`: `d > 0`, both corners have `d` entries, and each lower
bound is strictly below its upper bound. -/
def ValidBox (d : Nat) (lb ub : List K) : Prop :=
  0 < d ∧ lb.length = d ∧ ub.length = d ∧
  ∀ (i : Nat) (l u : K), lb[i]? = some l → ub[i]? = some u → l < u

end Rodeo.Spec
