import Verif.Basic
import Mathlib.Algebra.BigOperators.Group.List.Basic
import Mathlib.Algebra.Order.Field.Basic

/-! # Roulette wheels

A wheel gives every element of a list a sector as long as its share of the total weight; a draw in [0,1)
selects the element whose sector it hits. -/

namespace Rodeo.Spec

variable {K : Type} [Field K] [LinearOrder K] [IsStrictOrderedRing K]

/-- The share of the weight `w x` in the total weight of `l`. -/
def share {α : Type} (w : α → K) (l : List α) (x : α) : K := w x / (l.map w).sum

/-- `pick` turns the wheel with these weights, up to `δ` at the ends of the sectors: for every draw below
`1 - δ` it selects an element whose sector, widened by `δ` at both ends, contains the draw. -/
def Fair {α : Type} (δ : K) (w : α → K) (l : List α) (pick : K → Res α) : Prop :=
  ∀ u : K, 0 ≤ u → u < 1 - δ → ∃ l1 x l2, l = l1 ++ x :: l2 ∧ pick u = .ok x ∧
    (l1.map (share w l)).sum - δ ≤ u ∧ u < ((l1 ++ [x]).map (share w l)).sum + δ

/-- `a` is `b` up to the relative error `δ`. -/
def RelNear (δ a b : K) : Prop := |a - b| ≤ δ * |b|

end Rodeo.Spec
