import Verif.Lemmas.InPlace
import Verif.Lemmas.Rounding
import Verif.Spec.Search
import Mathlib.Tactic.NormNum
import Mathlib.Tactic.Positivity

set_option linter.unusedSectionVars false

namespace Rodeo

open Spec

variable {K : Type} [Field K] [LinearOrder K] [IsStrictOrderedRing K]

/-- A box of dimension `d`, possibly with empty interior. -/
def SearchBox (d : Nat) (lb ub : List K) : Prop :=
  lb.length = d ∧ ub.length = d ∧ ∀ (i : Nat) (l u : K), lb[i]? = some l → ub[i]? = some u → l ≤ u

theorem clampBody_eq {lb ub : List K} {k : Nat} {dv : List K} {a l u : K} (ha : dv[k]? = some a)
    (hl : lb[k]? = some l) (hu : ub[k]? = some u) :
    clampBody lb ub k dv = .ok (dv.set k (clampTo l u a)) := by
  have hk : k < dv.length := (List.getElem?_eq_some_iff.1 ha).1
  have hself : dv.set k a = dv := by
    apply List.ext_getElem?
    intro j
    rw [List.getElem?_set]
    split_ifs with h1
    · subst h1; exact ha.symm
    · rfl
  unfold clampBody
  refine bind_eq (vat_eq_ok.2 ha) (bind_eq (vat_eq_ok.2 hl) ?_)
  by_cases h0 : a < l
  · refine bind_eq (a := l) (vat_eq_ok.2 (by rw [if_pos h0]; simp [hk])) ?_
    refine bind_eq (vat_eq_ok.2 hu) ?_
    simp only [h0, if_true, clampTo]
    split_ifs <;> simp
  · refine bind_eq (a := a) (vat_eq_ok.2 (by rw [if_neg h0]; exact ha)) ?_
    refine bind_eq (vat_eq_ok.2 hu) ?_
    simp only [h0, if_false, clampTo]
    split_ifs <;> simp [hself]

theorem gradientUpdate_ok {dim : Nat} {dv grad lb ub : List K} (hb : SearchBox dim lb ub)
    (hdv : dv.length = dim) (hg : grad.length = dim) (step : K) :
    OkP (gradientUpdate dim dv grad lb ub step) (fun r => InBox lb ub r ∧
      ∀ (i : Nat) (x g l u : K), dv[i]? = some x → grad[i]? = some g → lb[i]? = some l →
        ub[i]? = some u → r[i]? = some (clampTo l u (x + g * step))) := by
  obtain ⟨b1, b2, b3⟩ := hb
  unfold gradientUpdate
  refine bind_okP (Vec.add_eq (by simp [Vec.scale, hdv, hg])) ?_
  set y := List.zipWith (fun a b => a + b) dv (Vec.scale grad step) with hy
  have hyl : y.length = dim := by simp [hy, Vec.scale, hdv, hg]
  refine (forRange_map (fun i a => clampTo (lb.getD i 0) (ub.getD i 0) a) hyl.ge ?_).mono ?_
  · intro i a z hi hz ha
    have h1 : i < lb.length := by omega
    have h2 : i < ub.length := by omega
    exact clampBody_eq ha (by simp [List.getD, h1]) (by simp [List.getD, h2])
  · rintro r ⟨h1, h2⟩
    refine ⟨⟨by omega, by omega, ?_⟩, ?_⟩
    · intro i l u v hl hu hv
      have hi : i < y.length := by
        have := (List.getElem?_eq_some_iff.1 hv).1; omega
      have h3 := h2 i y[i] (List.getElem?_eq_getElem hi)
      rw [if_pos (by omega), hv] at h3
      rw [Option.some.inj h3]
      have e1 : lb.getD i 0 = l := by simp [List.getD, hl]
      have e2 : ub.getD i 0 = u := by simp [List.getD, hu]
      rw [e1, e2]
      exact clampTo_mem (b3 i l u hl hu) _
    · intro i x g l u hx hg' hl hu
      have hi : i < dim := by
        have := (List.getElem?_eq_some_iff.1 hx).1; omega
      have h3 := h2 i (x + g * step) (by simp [hy, Vec.scale, List.getElem?_zipWith, hx, hg'])
      rw [if_pos hi] at h3
      have e1 : lb.getD i 0 = l := by simp [List.getD, hl]
      have e2 : ub.getD i 0 = u := by simp [List.getD, hu]
      rwa [e1, e2] at h3

/-- The step of the difference quotient. -/
def acqEps (x : K) : K := max (x * (1 / 10 ^ 5)) (1 / 10 ^ 8)

theorem acqGradient_ok {E : Acq K} {dim : Nat} (hd : 0 < dim) {d : BODesign K}
    (hl : d.dv.length = dim) (evals : Nat) :
    OkP (acqGradient E dim d evals) (fun g => g.design.dv = d.dv ∧ g.grad.length = dim ∧
      g.evals = evals + 2 * dim ∧
      ∀ (i : Nat) (x : K), d.dv[i]? = some x → g.grad[i]? = some
        ((E.ei (d.dv.set i (x + acqEps x)) - E.ei (d.dv.set i (x - acqEps x))) / (2 * acqEps x))) := by
  unfold acqGradient
  rw [if_neg (by omega)]
  obtain ⟨g, h1, h2, h3, h4, h5⟩ := forRange_inv (body := acqGradBody E) (n := dim)
    (s := ⟨d, [], evals⟩)
    (fun n g => g.design.dv = d.dv ∧ g.grad.length = n ∧ g.evals = evals + 2 * n ∧
      ∀ (i : Nat) (x : K), i < n → d.dv[i]? = some x → g.grad[i]? = some
        ((E.ei (d.dv.set i (x + acqEps x)) - E.ei (d.dv.set i (x - acqEps x))) / (2 * acqEps x)))
    ⟨rfl, rfl, rfl, fun i x hi => absurd hi (Nat.not_lt_zero _)⟩ (by
      rintro j g hj ⟨e1, e2, e3, e4⟩
      have hx : d.dv[j]? = some d.dv[j] := List.getElem?_eq_getElem (by omega)
      refine ⟨_, bind_eq (vat_eq_ok.2 (by rw [e1]; exact hx)) rfl, ?_, by simp [e2],
        by simp only [e3]; omega, ?_⟩
      · simp only [List.set_set, e1, List.set_getElem_self]
      · intro i x hi hxi
        by_cases hij : i < j
        · rw [List.getElem?_append_left (by omega)]
          exact e4 i x hij hxi
        · obtain rfl : i = j := by omega
          rw [hx] at hxi
          obtain rfl := Option.some.inj hxi
          rw [List.getElem?_append_right (by omega), e2]
          simp only [Nat.sub_self, List.getElem?_cons_zero, List.set_set, e1]
          congr 1
          have : d.dv[i] + acqEps d.dv[i] - 2 * acqEps d.dv[i] = d.dv[i] - acqEps d.dv[i] := by ring
          rw [← this]
          rfl)
  exact ⟨g, h1, h2, h3, h4, fun i x hx => h5 i x (by
    have := (List.getElem?_eq_some_iff.1 hx).1; omega) hx⟩

theorem acqLineSearch_ok {E : Acq K} {dim : Nat} {grad lb ub : List K} {save : BODesign K} {f0 : K}
    (hb : SearchBox dim lb ub) (hs : save.dv.length = dim) (hg : grad.length = dim) :
    ∀ (m fuel evals : Nat) (step : K), m ≤ fuel → 0 < m → step * (1 / 2) ^ m < 1 / 10 ^ 11 →
      OkP (acqLineSearch E dim grad lb ub save f0 fuel evals step) (fun r =>
        evals < r.evals ∧ r.evals ≤ evals + m ∧
        ((r.stop = false ∧ InBox lb ub r.design.dv ∧ r.f0 = E.value r.design.dv ∧
            r.design.value = r.f0 ∧ f0 < r.f0) ∨
          (r.stop = true ∧ r.design = save ∧ r.f0 = f0))) := by
  intro m
  induction m with
  | zero => intro _ _ _ _ h; exact absurd h (lt_irrefl _)
  | succ m ih =>
    intro fuel evals step hf _ hstep
    obtain ⟨fuel, rfl⟩ : ∃ k, fuel = k + 1 := ⟨fuel - 1, by omega⟩
    unfold acqLineSearch
    refine (gradientUpdate_ok hb hs hg step).bind ?_
    rintro dv ⟨hdv, -⟩
    simp only
    split_ifs with h1 h2
    · exact okP_ok ⟨Nat.lt_succ_self _, by simp only; omega, Or.inl ⟨rfl, hdv, rfl, rfl, h1⟩⟩
    · exact okP_ok ⟨Nat.lt_succ_self _, by simp only; omega, Or.inr ⟨rfl, rfl, rfl⟩⟩
    · have hm : 0 < m := by
        rcases Nat.eq_zero_or_pos m with rfl | h
        · simp only [Nat.zero_add, pow_one] at hstep
          exact absurd hstep h2
        · exact h
      refine (ih fuel (evals + 1) (step * (1 / 2)) (by omega) hm ?_).mono ?_
      · rw [mul_assoc, ← pow_succ']; exact hstep
      · rintro r ⟨e1, e2, e3⟩
        exact ⟨by omega, by omega, e3⟩

theorem acqLoop_ok {E : Acq K} {dim : Nat} {lb ub : List K} (hd : 0 < dim)
    (hb : SearchBox dim lb ub) {fuel : Nat} (hf : 27 ≤ fuel) {start : List K}
    (hst : start.length = dim) :
    ∀ (rounds : Nat) (s : AcqLine K),
      (s.design.dv = start ∨ InBox lb ub s.design.dv) → s.f0 = E.value s.design.dv →
      E.value start ≤ s.f0 →
      OkP (acqLoop E dim lb ub fuel rounds s) (fun r =>
        (r.design.dv = start ∨ InBox lb ub r.design.dv) ∧ E.value start ≤ E.value r.design.dv ∧
        r.evals ≤ s.evals + rounds * (2 * dim + 27)) := by
  intro rounds
  induction rounds with
  | zero =>
    intro s h1 h2 h3
    exact okP_ok ⟨h1, by rw [← h2]; exact h3, by simp⟩
  | succ n ih =>
    intro s h1 h2 h3
    have hlen : s.design.dv.length = dim := by
      rcases h1 with h1 | h1
      · rw [h1, hst]
      · rw [h1.1, hb.1]
    unfold acqLoop
    refine (acqGradient_ok hd hlen s.evals).bind ?_
    rintro g ⟨g1, g2, g3, -⟩
    refine (acqLineSearch_ok (E := E) (f0 := s.f0) hb (by rw [g1]; exact hlen) g2 27 fuel g.evals
      (1 / 10 ^ 3) hf (by norm_num) (by norm_num)).bind ?_
    rintro r ⟨e1, e2, e3⟩
    rcases e3 with ⟨q1, q2, q3, q4, q5⟩ | ⟨q1, q2, q3⟩
    · simp only [q1, Bool.false_eq_true, if_false]
      refine (ih r (Or.inr q2) q3 (h3.trans q5.le)).mono ?_
      rintro r' ⟨a1, a2, a3⟩
      refine ⟨a1, a2, a3.trans ?_⟩
      have : (n + 1) * (2 * dim + 27) = n * (2 * dim + 27) + (2 * dim + 27) := Nat.succ_mul n _
      omega
    · simp only [q1, if_true]
      refine okP_ok ⟨?_, ?_, ?_⟩
      · rw [q2, g1]; exact h1
      · rw [q2, g1, ← h2]; exact h3
      · have : (n + 1) * (2 * dim + 27) = n * (2 * dim + 27) + (2 * dim + 27) := Nat.succ_mul n _
        omega

/-! ## Parallel search -/

namespace SearchState

/-- What holds in every state of a search that started with `best` and the candidates `cs`. -/
structure Inv (best : BODesign K) (cs : List (BODesign K)) (s : SearchState K) : Prop where
  shared : s.shared = best ∨ (s.shared ∈ cs ∧ best.value < s.shared.value)
  todo : ∀ t ∈ s.threads, ∀ c ∈ t.todo, c ∈ cs
  pending : ∀ t ∈ s.threads, ∀ c, t.pending = some c → c ∈ cs ∧ best.value < c.value
  seen : ∀ c ∈ cs, best.value < c.value → (∃ t ∈ s.threads, c ∈ t.todo) ∨
    best.value < s.shared.value ∨ ∃ t ∈ s.threads, t.pending ≠ none

theorem Inv.start (best : BODesign K) (chunks : List (List (BODesign K))) :
    Inv best chunks.flatten (SearchState.start best chunks) := by
  refine ⟨Or.inl rfl, ?_, ?_, ?_⟩
  · intro t ht c hc
    simp only [SearchState.start, List.mem_map] at ht
    obtain ⟨a, ha, rfl⟩ := ht
    exact List.mem_flatten.2 ⟨a, ha, hc⟩
  · intro t ht c hc
    simp only [SearchState.start, List.mem_map] at ht
    obtain ⟨a, ha, rfl⟩ := ht
    cases hc
  · intro c hc _
    obtain ⟨a, ha, hca⟩ := List.mem_flatten.1 hc
    exact Or.inl ⟨⟨a, none⟩, by simp only [SearchState.start, List.mem_map]; exact ⟨a, ha, rfl⟩, hca⟩

/-- Members of a list in which entry `i` has been replaced. -/
theorem mem_set_cases {α : Type} {l : List α} {i : Nat} {a b : α} (h : b ∈ l.set i a) :
    b = a ∨ b ∈ l := by
  rcases List.mem_or_eq_of_mem_set h with h | h
  · exact Or.inr h
  · exact Or.inl h

/-- A member that is not entry `i` is still there, or it equals entry `i`. -/
theorem mem_set_of_mem {α : Type} {l : List α} {i : Nat} {a b t : α} (hi : l[i]? = some t)
    (h : b ∈ l) : b = t ∨ b ∈ l.set i a := by
  obtain ⟨j, hj, rfl⟩ := List.getElem_of_mem h
  by_cases hij : i = j
  · subst hij
    rw [List.getElem?_eq_getElem hj] at hi
    exact Or.inl (Option.some.inj hi)
  · right
    rw [List.mem_iff_getElem?]
    exact ⟨j, by rw [List.getElem?_set_ne hij, List.getElem?_eq_getElem hj]⟩

theorem mem_set_self' {α : Type} {l : List α} {i : Nat} {a t : α} (hi : l[i]? = some t) :
    a ∈ l.set i a := by
  rw [List.mem_iff_getElem?]
  exact ⟨i, by rw [List.getElem?_set_self (List.getElem?_eq_some_iff.1 hi).1]⟩

/-- The three kinds of steps. -/
theorem step_cases (s : SearchState K) (i : Nat) :
    (s.step i = s) ∨
    (∃ t c, s.threads[i]? = some t ∧ t.pending = some c ∧
      s.step i = ⟨c, s.threads.set i ⟨t.todo, none⟩⟩) ∨
    (∃ t c cs, s.threads[i]? = some t ∧ t.pending = none ∧ t.todo = c :: cs ∧
      s.step i = ⟨s.shared, s.threads.set i ⟨cs, if c.value > s.shared.value then some c else none⟩⟩) := by
  unfold step
  cases ht : s.threads[i]? with
  | none => exact Or.inl rfl
  | some t =>
    obtain ⟨todo, pending⟩ := t
    cases pending with
    | some c => exact Or.inr (Or.inl ⟨_, c, rfl, rfl, rfl⟩)
    | none =>
      cases todo with
      | cons c cs => exact Or.inr (Or.inr ⟨_, c, cs, rfl, rfl, rfl, rfl⟩)
      | nil =>
        left
        simp only [threadStep]
        have : s.threads.set i ⟨[], none⟩ = s.threads := by
          apply List.ext_getElem?
          intro j
          rw [List.getElem?_set]
          split_ifs with h1 h2
          · subst h1; exact ht.symm
          · subst h1; exact absurd (List.getElem?_eq_some_iff.1 ht).1 h2
          · rfl
        rw [this]

theorem Inv.step {best : BODesign K} {cs : List (BODesign K)} {s : SearchState K}
    (h : Inv best cs s) (i : Nat) : Inv best cs (s.step i) := by
  rcases s.step_cases i with e | ⟨t, c, ht, hp, e⟩ | ⟨t, c, rest, ht, hp, htodo, e⟩
  · rw [e]; exact h
  · have htm : t ∈ s.threads := List.mem_of_getElem? ht
    have hc := h.pending t htm c hp
    rw [e]
    refine ⟨Or.inr hc, ?_, ?_, fun c' _ _ => Or.inr (Or.inl hc.2)⟩
    · intro t' ht' c' hc'
      rcases mem_set_cases ht' with rfl | h'
      · exact h.todo t htm c' hc'
      · exact h.todo t' h' c' hc'
    · intro t' ht' c' hc'
      rcases mem_set_cases ht' with rfl | h'
      · cases hc'
      · exact h.pending t' h' c' hc'
  · have htm : t ∈ s.threads := List.mem_of_getElem? ht
    have hcm : c ∈ cs := h.todo t htm c (by rw [htodo]; exact List.mem_cons_self)
    have hle : best.value ≤ s.shared.value := by
      rcases h.shared with e | ⟨-, e⟩
      · rw [e]
      · exact e.le
    rw [e]
    refine ⟨h.shared, ?_, ?_, ?_⟩
    · intro t' ht' c' hc'
      rcases mem_set_cases ht' with rfl | h'
      · exact h.todo t htm c' (by rw [htodo]; exact List.mem_cons_of_mem _ hc')
      · exact h.todo t' h' c' hc'
    · intro t' ht' c' hc'
      rcases mem_set_cases ht' with rfl | h'
      · simp only at hc'
        split_ifs at hc' with hv
        obtain rfl := Option.some.inj hc'
        exact ⟨hcm, hle.trans_lt hv⟩
      · exact h.pending t' h' c' hc'
    · intro c' hc' hb
      rcases h.seen c' hc' hb with ⟨t', ht', hm⟩ | h' | ⟨t', ht', hm⟩
      · rcases mem_set_of_mem (a := (⟨rest, if c.value > s.shared.value then some c else none⟩ :
            SearchThread K)) ht ht' with rfl | h''
        · rw [htodo] at hm
          rcases List.mem_cons.1 hm with rfl | hm
          · by_cases hv : c'.value > s.shared.value
            · exact Or.inr (Or.inr ⟨_, mem_set_self' ht, by simp [hv]⟩)
            · exact Or.inr (Or.inl (hb.trans_le (not_lt.1 hv)))
          · exact Or.inl ⟨_, mem_set_self' ht, hm⟩
        · exact Or.inl ⟨t', h'', hm⟩
      · exact Or.inr (Or.inl h')
      · rcases mem_set_of_mem (a := (⟨rest, if c.value > s.shared.value then some c else none⟩ :
            SearchThread K)) ht ht' with rfl | h''
        · exact absurd hp hm
        · exact Or.inr (Or.inr ⟨t', h'', hm⟩)

theorem Inv.run {best : BODesign K} {cs : List (BODesign K)} :
    ∀ (schedule : List Nat) {s : SearchState K}, Inv best cs s → Inv best cs (s.run schedule) := by
  intro schedule
  induction schedule with
  | nil => intro s h; exact h
  | cons i l ih => intro s h; exact ih (h.step i)

/-- What holds in addition under such a schedule. -/
structure Best (cs : List (BODesign K)) (s : SearchState K) : Prop where
  pending : ∀ t ∈ s.threads, ∀ c, t.pending = some c → s.shared.value < c.value
  seen : ∀ c ∈ cs, (∃ t ∈ s.threads, c ∈ t.todo) ∨ c.value ≤ s.shared.value ∨
    ∃ t ∈ s.threads, ∃ c', t.pending = some c' ∧ c.value ≤ c'.value

theorem Best.start (best : BODesign K) (chunks : List (List (BODesign K))) :
    Best chunks.flatten (SearchState.start best chunks) := by
  refine ⟨?_, ?_⟩
  · intro t ht c hc
    simp only [SearchState.start, List.mem_map] at ht
    obtain ⟨a, ha, rfl⟩ := ht
    cases hc
  · intro c hc
    obtain ⟨a, ha, hca⟩ := List.mem_flatten.1 hc
    exact Or.inl ⟨⟨a, none⟩, by simp only [SearchState.start, List.mem_map]; exact ⟨a, ha, rfl⟩, hca⟩

theorem Best.step {cs : List (BODesign K)} {s : SearchState K} (h : Best cs s) (i : Nat)
    (hi : ∀ (j : Nat) t, s.threads[j]? = some t → t.pending ≠ none → j = i) : Best cs (s.step i) := by
  rcases s.step_cases i with e | ⟨t, c, ht, hp, e⟩ | ⟨t, c, rest, ht, hp, htodo, e⟩
  · rw [e]; exact h
  · have htm : t ∈ s.threads := List.mem_of_getElem? ht
    have honly : ∀ t' ∈ s.threads, t'.pending ≠ none → t' = t := by
      intro t' ht' hne
      obtain ⟨j, hj⟩ := List.mem_iff_getElem?.1 ht'
      obtain rfl := hi j t' hj hne
      rw [ht] at hj
      exact (Option.some.inj hj).symm
    have hc := h.pending t htm c hp
    rw [e]
    refine ⟨?_, ?_⟩
    · intro t' ht' c' hc'
      obtain ⟨j, hj⟩ := List.mem_iff_getElem?.1 ht'
      simp only [List.getElem?_set] at hj
      split_ifs at hj with h1 h2
      · obtain rfl := Option.some.inj hj; cases hc'
      · have := hi j t' hj (by rw [hc']; simp)
        exact absurd this.symm h1
    · intro c' hc'
      rcases h.seen c' hc' with ⟨t', ht', hm⟩ | h' | ⟨t', ht', c'', hm, hle⟩
      · rcases mem_set_of_mem (a := (⟨t.todo, none⟩ : SearchThread K)) ht ht' with rfl | h''
        · exact Or.inl ⟨_, mem_set_self' ht, hm⟩
        · exact Or.inl ⟨t', h'', hm⟩
      · exact Or.inr (Or.inl (h'.trans hc.le))
      · obtain rfl := honly t' ht' (by rw [hm]; simp)
        rw [hp] at hm
        obtain rfl := Option.some.inj hm
        exact Or.inr (Or.inl hle)
  · have htm : t ∈ s.threads := List.mem_of_getElem? ht
    have hnone : ∀ t' ∈ s.threads, t'.pending = none := by
      intro t' ht'
      by_contra hne
      obtain ⟨j, hj⟩ := List.mem_iff_getElem?.1 ht'
      obtain rfl := hi j t' hj hne
      rw [ht] at hj
      obtain rfl := Option.some.inj hj
      exact hne hp
    rw [e]
    refine ⟨?_, ?_⟩
    · intro t' ht' c' hc'
      rcases mem_set_cases ht' with rfl | h'
      · simp only at hc'
        split_ifs at hc' with hv
        obtain rfl := Option.some.inj hc'
        exact hv
      · rw [hnone t' h'] at hc'; cases hc'
    · intro c' hc'
      rcases h.seen c' hc' with ⟨t', ht', hm⟩ | h' | ⟨t', ht', c'', hm, hle⟩
      · rcases mem_set_of_mem (a := (⟨rest, if c.value > s.shared.value then some c else none⟩ :
            SearchThread K)) ht ht' with rfl | h''
        · rw [htodo] at hm
          rcases List.mem_cons.1 hm with rfl | hm
          · by_cases hv : c'.value > s.shared.value
            · exact Or.inr (Or.inr ⟨_, mem_set_self' ht, c', by simp [hv], le_refl _⟩)
            · exact Or.inr (Or.inl (not_lt.1 hv))
          · exact Or.inl ⟨_, mem_set_self' ht, hm⟩
        · exact Or.inl ⟨t', h'', hm⟩
      · exact Or.inr (Or.inl h')
      · rw [hnone t' ht'] at hm; cases hm

theorem Best.run {cs : List (BODesign K)} :
    ∀ (schedule : List Nat) {s : SearchState K}, Best cs s → Uninterrupted s schedule →
      Best cs (s.run schedule) := by
  intro schedule
  induction schedule with
  | nil => intro s h _; exact h
  | cons i l ih => intro s h hu; exact ih (h.step i hu.1) hu.2

/-- A single thread is never interrupted. -/
theorem uninterrupted_single : ∀ (schedule : List Nat) (s : SearchState K), s.threads.length ≤ 1 →
    (∀ i ∈ schedule, i = 0) → Uninterrupted s schedule := by
  intro schedule
  induction schedule with
  | nil => intro s _ _; exact trivial
  | cons i l ih =>
    intro s hs hi
    refine ⟨?_, ih _ ?_ (fun j hj => hi j (List.mem_cons_of_mem _ hj))⟩
    · intro j t hj _
      have := (List.getElem?_eq_some_iff.1 hj).1
      have h0 := hi i List.mem_cons_self
      omega
    · rcases s.step_cases i with e | ⟨_, _, _, _, e⟩ | ⟨_, _, _, _, _, _, e⟩ <;> rw [e] <;> simpa using hs

end SearchState

theorem mem_chunks_sub {x : Execution} {cs : List (BODesign K)} {c : BODesign K}
    (h : c ∈ (chunks x cs).flatten) : c ∈ cs := by
  obtain ⟨a, ha, hc⟩ := List.mem_flatten.1 h
  simp only [chunks, List.mem_map, List.mem_range] at ha
  obtain ⟨t, -, rfl⟩ := ha
  simp only [List.mem_map, List.mem_filter] at hc
  obtain ⟨p, ⟨hp, -⟩, rfl⟩ := hc
  obtain ⟨c, i⟩ := p
  exact List.mem_of_getElem? (List.mem_zipIdx_iff_getElem?.1 hp)

theorem mem_chunks {x : Execution} {cs : List (BODesign K)}
    (hx : ∀ i, i < cs.length → x.owner i < x.threads) {c : BODesign K} (h : c ∈ cs) :
    c ∈ (chunks x cs).flatten := by
  obtain ⟨i, hi, rfl⟩ := List.getElem_of_mem h
  refine List.mem_flatten.2 ⟨_, List.mem_map.2 ⟨x.owner i, List.mem_range.2 (hx i hi), rfl⟩, ?_⟩
  refine List.mem_map.2 ⟨(cs[i], i), List.mem_filter.2 ⟨?_, by simp⟩, rfl⟩
  exact List.mem_zipIdx_iff_getElem?.2 (List.getElem?_eq_getElem hi)

/-- Every execution ends with the first design or with a candidate. -/
theorem search_mem (x : Execution) (cs : List (BODesign K)) (best : BODesign K) :
    ((SearchState.start best (chunks x cs)).run x.schedule).shared = best ∨
      ((SearchState.start best (chunks x cs)).run x.schedule).shared ∈ cs := by
  rcases ((SearchState.Inv.start best (chunks x cs)).run x.schedule).shared with h | h
  · exact Or.inl h
  · exact Or.inr (mem_chunks_sub h.1)

theorem fillRandom_ok {dim : Nat} {lb ub : List K} (hb : SearchBox dim lb ub) {u : Nat → K}
    (hu : ∀ i, 0 ≤ u i ∧ u i < 1) : OkP (Vec.fillRandom dim lb ub u) (InBox lb ub) := by
  obtain ⟨h1, h2, h3⟩ := hb
  unfold Vec.fillRandom
  rw [if_neg (by omega)]
  have key : ∀ j, j < dim → lb.getD j 0 ≤ ub.getD j 0 := by
    intro j hj
    have hl : j < lb.length := by omega
    have hu' : j < ub.length := by omega
    have := h3 j lb[j] ub[j] (by simp) (by simp)
    simpa [List.getD, hl, hu'] using this
  refine ⟨_, tab_ok (g := fun i => uniformReal (lb.getD i 0) (ub.getD i 0) (u i)) ?_, by simp [h1],
    by simp [h2], ?_⟩
  · intro j hj
    have hl : j < lb.length := by omega
    have hu' : j < ub.length := by omega
    have hlt := h3 j lb[j] ub[j] (by simp) (by simp)
    simp [vat_ok_of_lt hl, vat_ok_of_lt hu', not_lt.2 hlt, List.getD, hl, hu']
  · intro i l u' v hl hu' hv
    have hid : i < dim := by have := (List.getElem?_eq_some_iff.1 hl).1; omega
    have hk := key i hid
    have e1 : lb.getD i 0 = l := by simp [List.getD, hl]
    have e2 : ub.getD i 0 = u' := by simp [List.getD, hu']
    rw [List.getElem?_map, List.getElem?_range hid] at hv
    simp only [Option.map_some, Option.some.injEq, e1, e2, uniformReal] at hv
    rw [e1, e2] at hk
    obtain ⟨hu1, hu2⟩ := hu i
    subst hv
    constructor <;> nlinarith

theorem aroundBounds_ok {dim : Nat} {lb ub sample : List K} (hb : SearchBox dim lb ub)
    (hs : InBox lb ub sample) {factor : K} (hf : 0 ≤ factor) :
    OkP (aroundBounds dim sample lb ub factor) (fun b => SearchBox dim b.1 b.2 ∧
      ∀ x, InBox b.1 b.2 x → InBox lb ub x) := by
  obtain ⟨h1, h2, h3⟩ := hb
  obtain ⟨s1, s2, s3⟩ := hs
  have hdx : (0 : K) ≤ factor / (dim : K) := by positivity
  unfold aroundBounds
  rw [if_neg (by omega)]
  refine bind_okP (tab_ok (g := fun i => max (sample.getD i 0 - factor / (dim : K)) (lb.getD i 0)) ?_) ?_
  · intro j hj
    have a1 : j < sample.length := by omega
    have a2 : j < lb.length := by omega
    exact bind_eq (vat_ok_of_lt a1) (bind_eq (vat_ok_of_lt a2) (by simp [List.getD, a1, a2]))
  refine bind_okP (tab_ok (g := fun i => min (sample.getD i 0 + factor / (dim : K)) (ub.getD i 0)) ?_) ?_
  · intro j hj
    have a1 : j < sample.length := by omega
    have a2 : j < ub.length := by omega
    exact bind_eq (vat_ok_of_lt a1) (bind_eq (vat_ok_of_lt a2) (by simp [List.getD, a1, a2]))
  have hs3 : ∀ i, i < dim → lb.getD i 0 ≤ sample.getD i 0 ∧ sample.getD i 0 ≤ ub.getD i 0 := by
    intro i hi
    have a1 : i < sample.length := by omega
    have a2 : i < lb.length := by omega
    have a3 : i < ub.length := by omega
    have := s3 i lb[i] ub[i] sample[i] (by simp) (by simp) (by simp)
    simpa [List.getD, a1, a2, a3] using this
  refine okP_ok ⟨⟨by simp, by simp, ?_⟩, ?_⟩
  · intro i l u hl hu
    have hi : i < dim := by have := (List.getElem?_eq_some_iff.1 hl).1; simpa using this
    simp only [List.getElem?_map, List.getElem?_range hi, Option.map_some, Option.some.injEq] at hl hu
    subst hl hu
    obtain ⟨q1, q2⟩ := hs3 i hi
    refine max_le (le_min (by linarith) (by linarith)) (le_min (by linarith) (by linarith))
  · rintro x ⟨x1, x2, x3⟩
    refine ⟨by simpa [h1] using x1, by simpa [h2] using x2, ?_⟩
    intro i l u v hl hu hv
    have hi : i < dim := by have := (List.getElem?_eq_some_iff.1 hl).1; omega
    obtain ⟨q1, q2⟩ := x3 i _ _ v (by simp only [List.getElem?_map, List.getElem?_range hi]; rfl)
      (by simp only [List.getElem?_map, List.getElem?_range hi]; rfl) hv
    have e1 : lb.getD i 0 = l := by simp [List.getD, hl]
    have e2 : ub.getD i 0 = u := by simp [List.getD, hu]
    simp only [e1] at q1
    simp only [e2] at q2
    exact ⟨(le_max_right _ _).trans q1, q2.trans (min_le_right _ _)⟩

/-- A table whose entries all satisfy `P`. -/
theorem tab_all {α : Type} {n : Nat} {f : Nat → Res α} {P : α → Prop}
    (h : ∀ j, j < n → OkP (f j) P) : OkP (tab n f) (fun l => l.length = n ∧ ∀ a ∈ l, P a) := by
  by_cases hn : n = 0
  · subst hn
    exact ⟨[], rfl, rfl, fun a ha => by cases ha⟩
  · obtain ⟨b0, -, -⟩ := h 0 (by omega)
    have h'' : ∀ j, ∃ a : α, j < n → f j = .ok a ∧ P a := by
      intro j
      by_cases hj : j < n
      · obtain ⟨b, h1, h2⟩ := h j hj
        exact ⟨b, fun _ => ⟨h1, h2⟩⟩
      · exact ⟨b0, fun h => absurd h hj⟩
    choose g hg using h''
    refine ⟨_, tab_ok (g := g) (fun j hj => (hg j hj).1), by simp, ?_⟩
    intro a ha
    obtain ⟨j, hj, rfl⟩ := List.mem_map.1 ha
    exact (hg j (List.mem_range.1 hj)).2

end Rodeo
