import Verif.Lemmas.EAFile
import Verif.Props.EA

/-! # C18: warm start of the evolutionary optimizer -/

set_option linter.unusedSectionVars false

namespace Rodeo
open Spec Text

variable {K : Type} [Field K] [LinearOrder K] [IsStrictOrderedRing K] [FloorRing K]

/-- A completed run `o1` saved its population in `text`; an optimizer `o2` with the same dimension
starts warm from it. -/
def WarmStart (E : EAEnv K) (o o1 o2 : EA K) (text : Str) : Prop :=
  Draws E ∧ IsBox o.dim o.lb o.ub ∧ EA.optimize E o = .ok o1 ∧
    o1.population.writeToCSV = .ok text ∧ o2.dim = o.dim ∧ o2.population.dim = o.dim ∧ o2.total = 0

/-- C18, first half: the restored population is the saved one. -/
def C18_values_full (K : Type) [Field K] [LinearOrder K] [IsStrictOrderedRing K] [FloorRing K] : Prop :=
  ∀ (E : EAEnv K) (o o1 o2 : EA K) (text : Str), WarmStart E o o1 o2 text →
    ∃ a, o2.readWarmRestartFile text = .ok a ∧ a.population.inds = o1.population.inds

/-- C18, second half: children born after a warm start get IDs no restored individual has. -/
def C18_ids_full (K : Type) [Field K] [LinearOrder K] [IsStrictOrderedRing K] [FloorRing K] : Prop :=
  ∀ (E : EAEnv K) (o o1 o2 : EA K) (text : Str), WarmStart E o o1 o2 text →
    ∀ (E2 : EAEnv K) (a b : EA K), Draws E2 → IsBox o2.dim o2.lb o2.ub →
      o2.readWarmRestartFile text = .ok a → EA.addNewIndividuals E2 a = .ok b →
      ∀ ys, b.population.inds = a.population.inds ++ ys →
        ∀ x ∈ a.population.inds, ∀ y ∈ ys, y.id ≠ x.id

def C18_full (K : Type) [Field K] [LinearOrder K] [IsStrictOrderedRing K] [FloorRing K] : Prop :=
  C18_values_full K ∧ C18_ids_full K

namespace EADemo

/-- The settings of the second optimizer of the counterexample. -/
def warm : EA ℚ := { cfg 2 3 1 1 with total := 0 }

/-- A run, its file and the warm start from it. -/
def warmTest (P : EA ℚ → EA ℚ → Bool) : Bool :=
  test (EA.optimize (env 5) (cfg 2 2 1 1)) fun o1 =>
    test o1.population.writeToCSV fun text =>
      test (warm.readWarmRestartFile text) fun a => P o1 a

set_option maxRecDepth 100000 in
theorem warm_values : warmTest (fun o1 a =>
    decide (a.population.inds.map (·.rep) ≠ o1.population.inds.map (·.rep))) = true := by
  decide +kernel

/-- The births after the warm start: the third child and the first restored individual have the same
ID. -/
def collide (a : EA ℚ) : Bool :=
  test (EA.addNewIndividuals (env 5) a) fun b =>
    decide (a.population.inds.length = 3 ∧
      (b.population.inds[0]?).map (·.id) = some 2 ∧ (b.population.inds[5]?).map (·.id) = some 2)

set_option maxRecDepth 100000 in
theorem warm_ids : warmTest (fun _ a => collide a) = true := by
  decide +kernel

theorem warm_start {o1 : EA ℚ} {text : Str} (h1 : EA.optimize (env 5) (cfg 2 2 1 1) = .ok o1)
    (h2 : o1.population.writeToCSV = .ok text) : WarmStart (env 5) (cfg 2 2 1 1) o1 warm text :=
  ⟨draws 5, box 2 2 1 1, h1, h2, rfl, rfl, rfl⟩

end EADemo

/-- C18 is false: reproduction probabilities such as `1/201` lose digits in the file. -/
theorem C18_values_false : ¬ C18_values_full ℚ := by
  intro h
  obtain ⟨o1, h1, t1⟩ := EADemo.of_test EADemo.warm_values
  obtain ⟨text, h2, t2⟩ := EADemo.of_test t1
  obtain ⟨a, h3, t3⟩ := EADemo.of_test t2
  obtain ⟨a', h4, h5⟩ := h _ _ _ _ _ (EADemo.warm_start h1 h2)
  rw [h3] at h4
  cases h4
  exact of_decide_eq_true t3 (by rw [h5])

theorem EA.readWarm_post {o a : EA K} {text : Str} (h : o.readWarmRestartFile text = .ok a) :
    ∃ p, o.population.readFromCSV text = .ok p ∧
      a = { o with population := p, initialized := true } := by
  unfold EA.readWarmRestartFile at h
  split at h
  · next p hp => exact ⟨p, hp, (Except.ok.inj h).symm⟩
  · cases h

/-- Children born in the first generation after a warm start get the IDs `0, 1, …`, whatever the IDs in
the file are. -/
theorem C18_child_ids {E : EAEnv K} {o a b : EA K} {text : Str} (hE : Draws E)
    (hB : IsBox o.dim o.lb o.ub) (hd : o.population.dim = o.dim) (h0 : o.total = 0)
    (h : o.readWarmRestartFile text = .ok a) (hb : EA.addNewIndividuals E a = .ok b) :
    ∃ ys, b.population.inds = a.population.inds ++ ys ∧ ys.map (·.id) = List.range o.births := by
  obtain ⟨p, hp, rfl⟩ := EA.readWarm_post h
  obtain ⟨ys, hys⟩ := (EA.addNewIndividuals_rel (o := { o with population := p, initialized := true }) hE
    (g := E.f) (fun _ _ => rfl) hB (by
    intro x hx
    exact ((Pop.readFromCSV_post _ _ _ hp).2 x hx).2.trans hd)).2 b hb
  refine ⟨ys, hys.pop, ?_⟩
  rw [hys.ids]
  show List.range' o.total o.births = _
  rw [h0, List.range_eq_range']

/-- C18 is false: the ID counter starts again at zero, so a child gets the ID of a restored
individual. -/
theorem C18_ids_false : ¬ C18_ids_full ℚ := by
  intro h
  obtain ⟨o1, h1, t1⟩ := EADemo.of_test EADemo.warm_ids
  obtain ⟨text, h2, t2⟩ := EADemo.of_test t1
  obtain ⟨a, h3, t3⟩ := EADemo.of_test t2
  obtain ⟨b, h4, t4⟩ := EADemo.of_test t3
  obtain ⟨c1, c2, c3⟩ := of_decide_eq_true t4
  obtain ⟨ys, hp, -⟩ := C18_child_ids (EADemo.draws 5) (EADemo.box 2 3 1 1) rfl rfl h3 h4
  have := h _ _ _ _ _ (EADemo.warm_start h1 h2) (EADemo.env 5) a b (EADemo.draws 5)
    (EADemo.box 2 3 1 1) h3 h4 ys hp
  rw [hp, List.getElem?_append_left (by omega)] at c2
  rw [hp, List.getElem?_append_right (by omega)] at c3
  obtain ⟨x, hx, hx2⟩ := Option.map_eq_some_iff.1 c2
  obtain ⟨y, hy, hy2⟩ := Option.map_eq_some_iff.1 c3
  exact this x (List.mem_of_getElem? hx) y (List.mem_of_getElem? hy) (hy2.trans hx2.symm)

theorem C18_false : ¬ C18_full ℚ := fun h => C18_values_false h.1

/-- The part of `C18_ids_full` that holds: no child of the first generation shares its ID with a
restored individual exactly when every restored ID is at least the number of births. -/
theorem C18_ids_partial {E : EAEnv K} {o a b : EA K} {text : Str} (hE : Draws E)
    (hB : IsBox o.dim o.lb o.ub) (hd : o.population.dim = o.dim) (h0 : o.total = 0)
    (h : o.readWarmRestartFile text = .ok a) (hb : EA.addNewIndividuals E a = .ok b) :
    (∀ ys, b.population.inds = a.population.inds ++ ys →
      ∀ x ∈ a.population.inds, ∀ y ∈ ys, y.id ≠ x.id) ↔
    ∀ x ∈ a.population.inds, o.births ≤ x.id := by
  obtain ⟨ys, hp, hi⟩ := C18_child_ids hE hB hd h0 h hb
  constructor
  · intro H x hx
    by_contra hc
    have : x.id ∈ ys.map (·.id) := by
      rw [hi]
      exact List.mem_range.2 (by omega)
    obtain ⟨y, hy, hy2⟩ := List.mem_map.1 this
    exact H ys hp x hx y hy hy2
  · intro H ys' hp' x hx y hy he
    rw [hp] at hp'
    rw [← List.append_cancel_left hp'] at hy
    have : y.id ∈ ys.map (·.id) := List.mem_map_of_mem hy
    rw [hi, List.mem_range] at this
    have := H x hx
    omega

/-- The part of `C18_values_full` that holds: any population that can be printed is restored in order,
with its IDs, and its numbers to ten significant digits; the population object read into may hold
anything.  Missing: numbers that need more digits. -/
theorem C18_partial (p q : Pop K) (hd : p.dim ≠ 0) (hq : q.dim = p.dim)
    (h : ∀ x ∈ p.inds, x.genes.length = p.dim ∧ x.id < 2 ^ 31 ∧ 0 < x.rep ∧
      x.rep ≤ 1 - 1 / 10 ^ 9 ∧ 0 ≤ x.death ∧ x.death ≤ 1) :
    ∃ (text : Str) (r : Pop K), p.writeToCSV = .ok text ∧ q.readFromCSV text = .ok r ∧
      List.Forall₂ (Restored p.dim) p.inds r.inds := by
  have hw : p.writeToCSV = .ok (Pop.csvHeader p.dim ++ (p.inds.map Pop.csvLine).flatten) := by
    unfold Pop.writeToCSV
    rw [if_neg hd]
  obtain ⟨hd', hpieces⟩ := Pop.pieces_file hw
  obtain ⟨r, ys, h1, h2, h3⟩ := Pop.foldRes_append_ok (d := p.dim) p.inds q.reset hq (by
    intro x hx
    obtain ⟨a1, a2, a3, a4, a5, a6⟩ := h x hx
    exact Pop.readLine_ok a1 a2 a3 a4 a5 a6)
  refine ⟨_, r, hw, ?_, ?_⟩
  · unfold Pop.readFromCSV
    rw [hpieces]
    exact h1
  · rw [h2]
    exact h3

/-- A population of two individuals in two dimensions meets the hypotheses. -/
example : ∃ p : Pop ℚ, p.inds.length = 2 ∧ p.dim ≠ 0 ∧
    ∀ x ∈ p.inds, x.genes.length = p.dim ∧ x.id < 2 ^ 31 ∧ 0 < x.rep ∧
      x.rep ≤ 1 - 1 / 10 ^ 9 ∧ 0 ≤ x.death ∧ x.death ≤ 1 :=
  ⟨{ (Pop.new : Pop ℚ) with
      dim := 2
      inds := [⟨4, 1, 2, 1 / 3, 2 / 3, 2, [1 / 7, 0]⟩, ⟨9, 1 / 100, -3, 2 / 3, 1 / 3, 2, [2, 5]⟩] },
    by decide +kernel⟩

/-- The population at the end of the demo run meets them too. -/
example : ∃ o1, EA.optimize (EADemo.env 5) (EADemo.cfg 2 2 1 1) = .ok o1 ∧ o1.population.dim = 1 ∧
    o1.population.inds.length = 3 ∧ ∀ x ∈ o1.population.inds, x.genes.length = 1 ∧ x.id < 2 ^ 31 ∧
      0 < x.rep ∧ x.rep ≤ 1 - 1 / 10 ^ 9 ∧ 0 ≤ x.death ∧ x.death ≤ 1 := by
  have : EADemo.test (EA.optimize (EADemo.env 5) (EADemo.cfg 2 2 1 1)) (fun o1 =>
      decide (o1.population.dim = 1 ∧ o1.population.inds.length = 3 ∧
        ∀ x ∈ o1.population.inds, x.genes.length = 1 ∧ x.id < 2 ^ 31 ∧
          0 < x.rep ∧ x.rep ≤ 1 - 1 / 10 ^ 9 ∧ 0 ≤ x.death ∧ x.death ≤ 1)) = true := by
    decide +kernel
  obtain ⟨o1, h1, t⟩ := EADemo.of_test this
  exact ⟨o1, h1, of_decide_eq_true t⟩

end Rodeo
