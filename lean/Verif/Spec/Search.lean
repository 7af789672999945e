import Verif.Model.AcqSearch

/-! # Specification: executions of a parallel search -/

namespace Rodeo.Spec

variable {K : Type} [Field K] [LinearOrder K]

/-- An execution of a parallel loop over the candidates `cs`, from the design `best`: every round belongs
to one of the threads, only these threads make steps, and all of them reach the end of the loop. -/
def ValidExecution (x : Execution) (best : BODesign K) (cs : List (BODesign K)) : Prop :=
  (∀ i, i < cs.length → x.owner i < x.threads) ∧ (∀ i ∈ x.schedule, i < x.threads) ∧
  ((SearchState.start best (chunks x cs)).run x.schedule).Finished

/-- Whenever a candidate has passed the test, the next step of the schedule is its assignment. -/
def Uninterrupted : SearchState K → List Nat → Prop
  | _, [] => True
  | s, i :: l => (∀ (j : Nat) t, s.threads[j]? = some t → t.pending ≠ none → j = i) ∧
      Uninterrupted (s.step i) l

/-- `r` is the best of `best` and the candidates. -/
def IsBestOf (best : BODesign K) (cs : List (BODesign K)) (r : BODesign K) : Prop :=
  (r = best ∨ r ∈ cs) ∧ best.value ≤ r.value ∧ ∀ c ∈ cs, c.value ≤ r.value

end Rodeo.Spec
