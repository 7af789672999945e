import Verif.Model.EAPop
import Verif.Spec.Text

/-! # What the warm start properties talk about -/

namespace Rodeo.Spec

variable {K : Type} [Field K] [LinearOrder K] [IsStrictOrderedRing K]

/-- `b` agrees with `a` to ten significant digits: the relative error is at most half a unit of the
tenth digit, and there is no error when ten digits suffice to write `a`. -/
def Near (a b : K) : Prop := |b - a| ≤ 1 / 2 / 10 ^ 9 * |a| ∧ (SigDigits 10 a → b = a)

/-- `y` is the individual `x` of a `d`-dimensional population, up to ten significant digits. -/
def Restored (d : Nat) (x y : Indiv K) : Prop :=
  y.id = x.id ∧ Near x.obj y.obj ∧ Near x.fitness y.fitness ∧ Near x.rep y.rep ∧
    Near x.death y.death ∧ List.Forall₂ Near x.genes y.genes ∧ y.dim = d

end Rodeo.Spec
