import Verif.Spec.EA

/-! # What a completing search needs -/

namespace Rodeo.Spec

variable {K : Type} [Field K] [LinearOrder K] [IsStrictOrderedRing K]

/-- Among any `E.fuel` consecutive selection draws one falls into each subinterval of `[0,1]` of length
`eps`: the generator does not avoid any part of the roulette wheel for that long. -/
def FairDraws (E : EAEnv K) (eps : K) : Prop :=
  ∀ (i : Nat) (a : K), 0 ≤ a → a + eps ≤ 1 → ∃ j, j < E.fuel ∧ a ≤ E.pick (i + j) ∧ E.pick (i + j) < a + eps

/-- The smallest probability an individual can have to be selected as a parent during a search: its
fitness is at least 1/100, that of the others at most 1, and there are at most this many of them. -/
def smallestShare (o : EA K) : K := 1 / (100 * ((o.sizeInit + o.gens * o.births : Nat) : K))

/-- An optimizer ready for its first search: all settings are accepted, the bounds form a box, the
mutation probability is a proper one, and there are at least three individuals at the beginning and at
the end. -/
structure ReadyToSearch (o : EA K) : Prop where
  box : IsBox o.dim o.lb o.ub
  boundsSet : o.boundsSet = true
  dimPos : 0 < o.dim
  births : 0 < o.births
  gens : 0 < o.gens
  maxEvals : 0 < o.maxEvals
  mutProb : 0 < o.mutProb ∧ o.mutProb < 1
  three : 3 ≤ o.sizeInit
  threeLeft : o.gens * o.deaths + 3 ≤ o.sizeInit + o.gens * o.births
  population : o.population = (Pop.new : Pop K).setDimension o.dim
  generated : o.generated.dim = o.dim
  removed : o.removed.dim = o.dim
  history : o.history.dim = o.dim

end Rodeo.Spec
