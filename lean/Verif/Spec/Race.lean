import Verif.Model.Race

/-! # Data races

Two threads race if both can make a step now, and the two steps touch the same variable, at least one of them
writing it.  A C++ program with a data race has undefined behaviour. -/

namespace Rodeo.Spec

open Par (Ev Loop St)

variable {S T V : Type}

/-- Both steps access the variable `v`, and at least one writes it. -/
def ConflictOn (v : V) : Ev V → Ev V → Prop
  | .access r w, .access r' w' => (v ∈ w ∧ v ∈ r' ++ w') ∨ (v ∈ r ++ w ∧ v ∈ w')
  | _, _ => False

/-- Two different threads can make conflicting steps on `v`. -/
def RaceOn (L : Loop S T V) (v : V) (s : St S T) : Prop :=
  ∃ (i j : Nat) (t u : T) (e f : Ev V), i ≠ j ∧ s.threads[i]? = some t ∧ s.threads[j]? = some u ∧
    (L.next s.shared t).map (·.1) = some e ∧ (L.next s.shared u).map (·.1) = some f ∧ ConflictOn v e f

/-- In no execution that starts in `s` there is a race on `v`. -/
def NoRaceOn (L : Loop S T V) (v : V) (s : St S T) : Prop := ∀ schedule, ¬ RaceOn L v (Par.run L s schedule)

/-- In no execution that starts in `s` there is a data race. -/
def RaceFree (L : Loop S T V) (s : St S T) : Prop := ∀ v, NoRaceOn L v s

end Rodeo.Spec
