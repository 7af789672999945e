import Verif.Model.EA
import Verif.Spec.Box

/-! # What the properties of the evolutionary optimizer talk about -/

namespace Rodeo.Spec

variable {K : Type} [Field K] [LinearOrder K] [IsStrictOrderedRing K]

/-- A box of dimension `d`; sides of length zero are allowed. -/
def IsBox (d : Nat) (lb ub : List K) : Prop :=
  lb.length = d ∧ ub.length = d ∧
  ∀ (i : Nat) (l u : K), lb[i]? = some l → ub[i]? = some u → l ≤ u

/-- Draws of the uniform generators lie in `[0,1)`; the normal draws are arbitrary. -/
def Draws (E : EAEnv K) : Prop :=
  (∀ i, 0 ≤ E.pick i ∧ E.pick i < 1) ∧ (∀ k j, 0 ≤ E.vecs k j ∧ E.vecs k j < 1) ∧
  (∀ i, 0 ≤ E.muts i ∧ E.muts i < 1)

/-- The same environment with another objective. -/
def withF (E : EAEnv K) (g : List K → Res K) : EAEnv K := { E with f := g }

/-- The points of an evolutionary optimization started from the settings `o`: after the initial
population, after the births of a generation, after an update of the population properties, after a
death, and after the final search for the extreme values. -/
inductive Point [FloorRing K] (E : EAEnv K) (o : EA K) : EA K → Prop
  | start {a} : EA.initializePopulation E { o with total := 0 } = .ok a → Point E o a
  | births {a b} : Point E o a → EA.addNewIndividuals E a = .ok b → Point E o b
  | update {a p} : Point E o a → a.population.updateProperties = .ok p →
      Point E o { a with population := p }
  | death {a b} : Point E o a → EA.removeOne E a = .ok b → Point E o b
  | extremes {a} : Point E o a → Point E o { a with population := a.population.updateMinMax }

/-- The points between two generations, with the number of completed generations. -/
inductive GenPoint [FloorRing K] (E : EAEnv K) (o : EA K) : Nat → EA K → Prop
  | start {a} : EA.initializePopulation E { o with total := 0 } = .ok a → GenPoint E o 0 a
  | next {k a b} : GenPoint E o k a → EA.newGeneration E a = .ok b → GenPoint E o (k + 1) b

/-- Among the `n` deaths picked from `a`, one fails because the fitness of the survivors, at least two,
cannot be computed. -/
def FitnessFails [FloorRing K] (E : EAEnv K) (n : Nat) (a : EA K) : Prop :=
  ∃ (j : Nat) (c : EA K) (x : Indiv K) (q : Pop K) (e : Err), j < n ∧
    EA.removeIndividuals E j a = .ok c ∧ c.population.pickDeath (E.pick c.nPick) = .ok x ∧
    c.population.removeById x.id = .ok q ∧ 2 ≤ q.inds.length ∧ q.updateFitness = .error e

end Rodeo.Spec
