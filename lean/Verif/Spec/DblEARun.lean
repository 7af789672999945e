import Verif.Spec.EA
import Verif.Spec.Dbl

/-! # What the properties of a run of the evolutionary optimizer in double arithmetic talk about -/

namespace Rodeo.Spec

variable {K : Type} [Field K] [LinearOrder K] [IsStrictOrderedRing K]

/-- Draws of the uniform generators lie in `[0,1)`, those that become genes are doubles; the normal draws are
arbitrary. -/
def DblDraws (E : EAEnv K) : Prop := Draws E ∧ ∀ k j, IsDouble (E.vecs k j)

/-- A box whose corners are doubles; sides of length zero are allowed. -/
def IsDblBox (d : Nat) (lb ub : List K) : Prop := IsBox d lb ub ∧ Doubles lb ∧ Doubles ub

end Rodeo.Spec
