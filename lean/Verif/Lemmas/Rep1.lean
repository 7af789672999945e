import Verif.Lemmas.Mat

set_option linter.unusedSectionVars false

namespace Rodeo

section
variable {K : Type}

/-- `d` is a block of `n` elements holding `f`. -/
def Rep1 (d : List (Option K)) (n : Nat) (f : Nat → Option K) : Prop :=
  d.length = n ∧ ∀ i, i < n → d[i]? = some (f i)

theorem Rep1.congr {d : List (Option K)} {n : Nat} {f g : Nat → Option K} (h : Rep1 d n f)
    (hfg : ∀ i, i < n → f i = g i) : Rep1 d n g :=
  ⟨h.1, fun i hi => by rw [h.2 i hi, hfg i hi]⟩

theorem rep1_alloc (n : Nat) : Rep1 (Mem.alloc n : List (Option K)) n (fun _ => none) :=
  ⟨by simp, fun _ hi => Mem.alloc_get hi⟩

theorem rep1_zeros [Zero K] (n : Nat) : Rep1 (Mem.zeros n : List (Option K)) n (fun _ => some 0) :=
  ⟨by simp [Mem.zeros], fun i hi => by simp [Mem.zeros, hi]⟩

theorem Rep1.wr {d : List (Option K)} {n : Nat} {f : Nat → Option K} (h : Rep1 d n f)
    {i : Nat} {v : K} (hi : i < n) :
    OkP (Mem.wr d i v) (fun d' => Rep1 d' n (fun a => if a = i then some v else f a)) := by
  refine ⟨d.set i (some v), Mem.wr_ok (by rw [h.1]; exact hi), by simp [h.1], ?_⟩
  intro a ha
  rw [List.getElem?_set]
  by_cases hc : i = a
  · subst hc
    rw [if_pos rfl, if_pos (by rw [h.1]; exact hi)]
    simp
  · rw [if_neg hc]
    have : ¬ (a = i) := fun h => hc h.symm
    simp only [if_neg this]
    exact h.2 a ha

theorem Rep1.rd {d : List (Option K)} {n : Nat} {f : Nat → Option K} (h : Rep1 d n f)
    {i : Nat} {v : K} (hi : i < n) (hv : f i = some v) : Mem.rd d i = .ok v := by
  simp [Mem.rd, h.2 i hi, hv]

theorem Rep1.freeze {d : List (Option K)} {n : Nat} {g : Nat → K}
    (h : Rep1 d n (fun i => some (g i))) : Mem.freeze d = .ok ((List.range n).map g) := by
  apply Mem.freeze_ok
  · simp [h.1]
  · intro k hk
    simp at hk
    rw [h.2 k hk]
    simp [hk]

end
end Rodeo
