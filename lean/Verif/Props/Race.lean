import Verif.Spec.Race
import Mathlib.Data.Rat.Floor

/-! # Data races in the parallel loops (C118) -/

set_option linter.unusedSectionVars false

namespace Rodeo
open Par Spec

variable {S T V : Type}

namespace Par

theorem step_length (L : Loop S T V) (s : St S T) (i : Nat) :
    (Par.step L s i).threads.length = s.threads.length := by
  unfold Par.step
  cases s.threads[i]? with
  | none => rfl
  | some t =>
    simp only []
    rcases L.next s.shared t with _ | ⟨e, sh, t'⟩
    · rfl
    · cases e with
      | access r w => simp
      | enter => cases s.holder <;> simp
      | leave => simp

/-- What a property of states that every step keeps tells about executions. -/
theorem run_inv {L : Loop S T V} (P : St S T → Prop) (hstep : ∀ s i, P s → P (Par.step L s i)) :
    ∀ (l : List Nat) (s : St S T), P s → P (Par.run L s l)
  | [], _, h => h
  | i :: l, s, h => run_inv P hstep l _ (hstep s i h)

theorem run_append (L : Loop S T V) : ∀ (l m : List Nat) (s : St S T),
    Par.run L s (l ++ m) = Par.run L (Par.run L s l) m
  | [], _, _ => rfl
  | _ :: l, m, _ => run_append L l m _

/-- The effect of a step on the threads: either nothing changes, or thread `i` makes its next step. -/
theorem step_cases (L : Loop S T V) (s : St S T) (i : Nat) :
    Par.step L s i = s ∨ ∃ t e sh t', s.threads[i]? = some t ∧ L.next s.shared t = some (e, sh, t') ∧
      (Par.step L s i).shared = sh ∧ (Par.step L s i).threads = s.threads.set i t' ∧
      ((∃ r w, e = .access r w) ∧ (Par.step L s i).holder = s.holder ∨
        e = .enter ∧ s.holder = none ∧ (Par.step L s i).holder = some i ∨
        e = .leave ∧ (Par.step L s i).holder = none) := by
  unfold Par.step
  cases h : s.threads[i]? with
  | none => exact .inl rfl
  | some t =>
    simp only []
    rcases hn : L.next s.shared t with _ | ⟨e, sh, t'⟩
    · exact .inl rfl
    · cases e with
      | access r w => exact .inr ⟨t, _, sh, t', rfl, hn, rfl, rfl, .inl ⟨⟨r, w, rfl⟩, rfl⟩⟩
      | enter =>
        cases hh : s.holder with
        | some j => exact .inl rfl
        | none => exact .inr ⟨t, _, sh, t', rfl, hn, rfl, rfl, .inr (.inl ⟨rfl, rfl, rfl⟩)⟩
      | leave => exact .inr ⟨t, _, sh, t', rfl, hn, rfl, rfl, .inr (.inr ⟨rfl, rfl⟩)⟩

theorem get_set {l : List T} {i j : Nat} {t u : T} (h : (l.set i t)[j]? = some u) :
    (j = i ∧ u = t) ∨ (j ≠ i ∧ l[j]? = some u) := by
  rw [List.getElem?_set] at h
  by_cases e : i = j
  · subst e
    rw [if_pos rfl] at h
    split at h
    · exact .inl ⟨rfl, (Option.some.inj h).symm⟩
    · cases h
  · rw [if_neg e] at h
    exact .inr ⟨fun e' => e e'.symm, h⟩

/-- A property of single threads that every step of the loop keeps. -/
theorem threads_inv {L : Loop S T V} (P : Nat → T → Prop)
    (hstep : ∀ sh t e sh' t' i, P i t → L.next sh t = some (e, sh', t') → P i t')
    {s : St S T} (h0 : ∀ (i : Nat) t, s.threads[i]? = some t → P i t) (l : List Nat) :
    ∀ (i : Nat) t, (Par.run L s l).threads[i]? = some t → P i t := by
  refine run_inv (L := L) (fun s => ∀ (i : Nat) t, s.threads[i]? = some t → P i t) ?_ l s h0
  intro s i h
  rcases step_cases L s i with e | ⟨t, e, sh, t', ht, hn, -, hth, -⟩
  · rw [e]; exact h
  · rw [hth]
    intro j u hu
    rcases get_set hu with ⟨rfl, rfl⟩ | ⟨-, hu⟩
    · exact hstep _ _ _ _ _ j (h j t ht) hn
    · exact h j u hu

end Par

/-- C118, one thread: no loop has a data race. -/
theorem C118_partial (L : Loop S T V) (s : St S T) (h : s.threads.length ≤ 1) : RaceFree L s := by
  intro v l
  have hl : (Par.run L s l).threads.length ≤ 1 :=
    Par.run_inv (L := L) (fun s => s.threads.length ≤ 1) (fun s i h => by rw [Par.step_length]; exact h) l s h
  rintro ⟨i, j, t, u, -, -, hij, hi, hj, -⟩
  have h1 := (List.getElem?_eq_some_iff.1 hi).1
  have h2 := (List.getElem?_eq_some_iff.1 hj).1
  omega

/-! ## The search for the next design -/

variable {K : Type} [Field K] [LinearOrder K] [IsStrictOrderedRing K]

namespace Par

/-- Only the thread inside the critical section is at the assignment. -/
def SearchLocked (s : St (BODesign K) (SearchTask K)) : Prop :=
  ∀ (i : Nat) t, s.threads[i]? = some t → (∃ c, t.pc = .assign c) ∨ t.pc = .exit → s.holder = some i

theorem SearchLocked.step {s : St (BODesign K) (SearchTask K)} (h : SearchLocked s) (i : Nat) :
    SearchLocked (Par.step searchLoop s i) := by
  rcases step_cases searchLoop s i with e | ⟨t, e, sh, t', ht, hn, -, hth, hh⟩
  · rw [e]; exact h
  intro j u hu hpc
  rw [hth] at hu
  obtain ⟨todo, pc⟩ := t
  rcases get_set hu with ⟨rfl, rfl⟩ | ⟨hji, hu⟩
  · cases pc with
    | compare =>
      cases todo with
      | nil => simp [searchLoop] at hn
      | cons c cs =>
        simp only [searchLoop, Option.some.injEq, Prod.mk.injEq] at hn
        obtain ⟨-, -, rfl⟩ := hn
        split at hpc <;> simp at hpc
    | entrance c =>
      simp only [searchLoop, Option.some.injEq, Prod.mk.injEq] at hn
      obtain ⟨rfl, -, rfl⟩ := hn
      rcases hh with ⟨⟨r, w, e⟩, -⟩ | ⟨-, -, hh⟩ | ⟨e, -⟩
      · cases e
      · exact hh
      · cases e
    | assign c =>
      simp only [searchLoop, Option.some.injEq, Prod.mk.injEq] at hn
      obtain ⟨rfl, -, rfl⟩ := hn
      rcases hh with ⟨-, hh⟩ | ⟨e, -⟩ | ⟨e, -⟩
      · rw [hh]; exact h j _ ht (.inl ⟨c, rfl⟩)
      · cases e
      · cases e
    | exit =>
      simp only [searchLoop, Option.some.injEq, Prod.mk.injEq] at hn
      obtain ⟨-, -, rfl⟩ := hn
      simp at hpc
  · have hold := h j u hu hpc
    rcases hh with ⟨-, hh⟩ | ⟨-, hh, -⟩ | ⟨e, hh⟩
    · rw [hh]; exact hold
    · rw [hh] at hold; cases hold
    · exfalso
      subst e
      cases pc with
      | compare =>
        cases todo with
        | nil => simp [searchLoop] at hn
        | cons c cs => simp [searchLoop] at hn
      | entrance c => simp [searchLoop] at hn
      | assign c => simp [searchLoop] at hn
      | exit =>
        have := h i _ ht (.inr rfl)
        rw [hold] at this
        exact hji (Option.some.inj this)

theorem searchStart_get {best : BODesign K} {chunks : List (List (BODesign K))} {i : Nat} {t : SearchTask K}
    (h : (searchStart best chunks).threads[i]? = some t) : ∃ c, chunks[i]? = some c ∧ t = ⟨c, .compare⟩ := by
  simp only [searchStart, List.getElem?_map, Option.map_eq_some_iff] at h
  obtain ⟨c, hc, rfl⟩ := h
  exact ⟨c, hc, rfl⟩

/-- Thread `i` alone runs until it stands before the assignment. -/
theorem reach_assign {best : BODesign K} {i j : Nat} (hij : i ≠ j) {cj : List (BODesign K)} :
    ∀ (ci : List (BODesign K)) (s : St (BODesign K) (SearchTask K)), s.shared = best → s.holder = none →
    s.threads[i]? = some ⟨ci, .compare⟩ → s.threads[j]? = some ⟨cj, .compare⟩ →
    (∃ c ∈ ci, c.value > best.value) →
    ∃ l c cs, (Par.run searchLoop s l).threads[i]? = some ⟨cs, .assign c⟩ ∧
      (Par.run searchLoop s l).threads[j]? = some ⟨cj, .compare⟩
  | [], _, _, _, _, _, ⟨c, hc, _⟩ => by cases hc
  | c :: cs, s, hs, hh, hi, hj, hb => by
    have hlt := (List.getElem?_eq_some_iff.1 hi).1
    have h1 : Par.step searchLoop s i =
        ⟨best, s.threads.set i ⟨cs, if c.value > best.value then .entrance c else .compare⟩, none⟩ := by
      simp only [Par.step, hi, searchLoop, hs, hh]
    have hset : ∀ t : SearchTask K, (s.threads.set i t)[i]? = some t := fun t => by
      rw [List.getElem?_set_self hlt]
    have hset' : ∀ t : SearchTask K, (s.threads.set i t)[j]? = some ⟨cj, .compare⟩ := fun t => by
      rw [List.getElem?_set_ne hij, hj]
    by_cases hc : c.value > best.value
    · rw [if_pos hc] at h1
      refine ⟨[i, i], c, cs, ?_⟩
      have h2 : Par.step searchLoop (Par.step searchLoop s i) i =
          ⟨best, (s.threads.set i ⟨cs, .entrance c⟩).set i ⟨cs, .assign c⟩, some i⟩ := by
        rw [h1]
        simp only [Par.step, hset, searchLoop]
      simp only [Par.run, h2, List.set_set]
      exact ⟨hset _, hset' _⟩
    · rw [if_neg hc] at h1
      obtain ⟨l, c', cs', h3, h4⟩ := reach_assign hij cs (Par.step searchLoop s i) (by rw [h1]) (by rw [h1])
        (by rw [h1]; exact hset _) (by rw [h1]; exact hset' _)
        (by
          obtain ⟨d, hd, hdv⟩ := hb
          rcases List.mem_cons.1 hd with rfl | hd
          · exact absurd hdv hc
          · exact ⟨d, hd, hdv⟩)
      exact ⟨i :: l, c', cs', h3, h4⟩

end Par

/-- C118, the search for the next design: it is free of data races exactly if no thread has a candidate that
beats the design found so far while another thread has any candidate at all.  (The comparison with the best
design is outside the critical section.) -/
theorem C118_search (best : BODesign K) (chunks : List (List (BODesign K))) :
    RaceFree searchLoop (searchStart best chunks) ↔
      ∀ (i j : Nat) ci cj, i ≠ j → chunks[i]? = some ci → chunks[j]? = some cj →
        (∀ c ∈ ci, c.value ≤ best.value) ∨ cj = [] := by
  constructor
  · intro h i j ci cj hij hi hj
    by_contra hcon
    simp only [not_or, not_forall, not_le] at hcon
    obtain ⟨⟨c, hc, hcv⟩, hne⟩ := hcon
    obtain ⟨l, c', cs, h1, h2⟩ := reach_assign (best := best) (cj := cj) hij ci (searchStart best chunks) rfl rfl
      (by simp [searchStart, hi]) (by simp [searchStart, hj]) ⟨c, hc, hcv⟩
    refine h .best l ⟨i, j, _, _, .access [] [.best], .access [.best] [], hij, h1, h2, rfl, ?_, .inl (by simp)⟩
    cases cj with
    | nil => exact absurd rfl hne
    | cons d ds => rfl
  · intro h v l
    cases v
    rintro ⟨a, b, t, u, e, f, hab, ha, hb, he, hf, hc⟩
    by_cases hall : ∀ (i : Nat) ci, chunks[i]? = some ci → ∀ c ∈ ci, c.value ≤ best.value
    · -- nothing is ever assigned
      have hinv := Par.run_inv (L := searchLoop)
        (fun s : St (BODesign K) (SearchTask K) => s.shared = best ∧ ∀ (i : Nat) t, s.threads[i]? = some t →
          t.pc = .compare ∧ ∀ c ∈ t.todo, c.value ≤ best.value)
        (fun s i hs => by
          rcases step_cases searchLoop s i with e | ⟨t, e, sh, t', ht, hn, hsh, hth, hh⟩
          · rw [e]; exact hs
          obtain ⟨hpc, htodo⟩ := hs.2 i t ht
          obtain ⟨todo, pc⟩ := t
          simp only [] at hpc htodo
          subst hpc
          cases todo with
          | nil => simp [searchLoop] at hn
          | cons c cs =>
            have hcb := htodo c (by simp)
            simp only [searchLoop, Option.some.injEq, Prod.mk.injEq] at hn
            obtain ⟨-, rfl, rfl⟩ := hn
            refine ⟨by rw [hsh]; exact hs.1, ?_⟩
            rw [hth]
            intro j w hw
            rcases get_set hw with ⟨-, rfl⟩ | ⟨-, hw⟩
            · rw [hs.1, if_neg (not_lt.2 hcb)]
              exact ⟨rfl, fun d hd => htodo d (List.mem_cons_of_mem _ hd)⟩
            · exact hs.2 j w hw)
        l (searchStart best chunks)
        ⟨rfl, fun i t ht => by
          obtain ⟨c, hc, rfl⟩ := searchStart_get ht
          exact ⟨rfl, hall i c hc⟩⟩
      have key : ∀ (t : SearchTask K) (sh : BODesign K) e, t.pc = .compare →
          (searchLoop.next sh t).map (·.1) = some e → e = .access [.best] [] := by
        rintro ⟨todo, pc⟩ sh e hpc he
        simp only [] at hpc
        subst hpc
        cases todo with
        | nil => simp [searchLoop] at he
        | cons c cs =>
          simp only [searchLoop, Option.map_some, Option.some.injEq] at he
          exact he.symm
      rw [key t _ e (hinv.2 a t ha).1 he, key u _ f (hinv.2 b u hb).1 hf] at hc
      simp [ConflictOn] at hc
    · -- only one thread works
      simp only [not_forall, not_le] at hall
      obtain ⟨i, ci, hi, c, hc', hcv⟩ := hall
      have hothers : ∀ (j : Nat) cj, j ≠ i → chunks[j]? = some cj → cj = [] := fun j cj hji hj =>
        (h i j ci cj (Ne.symm hji) hi hj).elim (fun h' => absurd (h' c hc') (not_le.2 hcv)) id
      have hinv := Par.threads_inv (L := searchLoop) (V := SearchVar)
        (fun (j : Nat) (t : SearchTask K) => j ≠ i → t = ⟨[], .compare⟩)
        (fun sh t e sh' t' j hj hn hji => by
          rw [hj hji] at hn
          simp [searchLoop] at hn)
        (s := searchStart best chunks)
        (fun j t ht hji => by
          obtain ⟨cj, hcj, rfl⟩ := searchStart_get ht
          rw [hothers j cj hji hcj]) l
      by_cases hai : a = i
      · rw [hinv b u hb (fun e => hab (hai.trans e.symm))] at hf
        simp [searchLoop] at hf
      · rw [hinv a t ha hai] at he
        simp [searchLoop] at he

/-- C118, the search for the next design: whatever the threads do, the best design is never assigned by two
threads at the same time.  So a race in this loop is one between a comparison and an assignment. -/
theorem C118_search_assignments (best : BODesign K) (chunks : List (List (BODesign K))) (schedule : List Nat) :
    let s := Par.run searchLoop (searchStart best chunks) schedule
    ∀ (i j : Nat) t u c d, s.threads[i]? = some t → s.threads[j]? = some u → t.pc = .assign c → u.pc = .assign d →
      i = j := by
  intro s i j t u c d hi hj ht hu
  have hl : SearchLocked s := Par.run_inv (L := searchLoop) SearchLocked (fun s i h => h.step i) schedule
    (searchStart best chunks) (fun i t ht hpc => by
      obtain ⟨c, -, rfl⟩ := searchStart_get ht
      simp at hpc)
  have h1 := hl i t hi (.inl ⟨c, ht⟩)
  have h2 := hl j u hj (.inl ⟨d, hu⟩)
  rw [h1] at h2
  exact Option.some.inj h2

/-- The state of the coarser model of the search (`Model/AcqSearch`), in which the test is one step and the
critical section is another one. -/
def Par.coarse (s : St (BODesign K) (SearchTask K)) : SearchState K :=
  ⟨s.shared, s.threads.map fun t => ⟨t.todo,
    match t.pc with
    | .entrance c => some c
    | .assign c => some c
    | _ => none⟩⟩

/-- C118, link with C26: every execution of this model is an execution of the model of C26, with the same
design at the end. -/
theorem C118_search_refines (best : BODesign K) (chunks : List (List (BODesign K))) (schedule : List Nat) :
    ∃ schedule', ((SearchState.start best chunks).run schedule').shared =
        (Par.run searchLoop (searchStart best chunks) schedule).shared ∧
      ((∀ t ∈ (Par.run searchLoop (searchStart best chunks) schedule).threads, searchLoop.next best t = none) →
        ((SearchState.start best chunks).run schedule').Finished) := by
  have hrun : ∀ (l : List Nat) (s : St (BODesign K) (SearchTask K)),
      ∃ l', (Par.coarse s).run l' = Par.coarse (Par.run searchLoop s l) := by
    intro l
    induction l with
    | nil => intro s; exact ⟨[], rfl⟩
    | cons i l ih =>
      intro s
      obtain ⟨l', hl'⟩ := ih (Par.step searchLoop s i)
      suffices h : Par.coarse (Par.step searchLoop s i) = Par.coarse s ∨
          Par.coarse (Par.step searchLoop s i) = (Par.coarse s).step i by
        rcases h with h | h
        · exact ⟨l', by rw [← h]; exact hl'⟩
        · exact ⟨i :: l', by rw [SearchState.run, ← h]; exact hl'⟩
      rcases step_cases searchLoop s i with e | ⟨t, e, sh, t', ht, hn, hsh, hth, -⟩
      · rw [e]; exact .inl rfl
      have hlt := (List.getElem?_eq_some_iff.1 ht).1
      have hget := (List.getElem?_eq_some_iff.1 ht).2
      have hsame : ∀ (l : List (SearchThread K)) (t : SearchThread K), l[i]? = some t → l.set i t = l := by
        intro l t h
        apply List.ext_getElem?
        intro k
        rw [List.getElem?_set]
        by_cases e : i = k
        · subst e
          rw [if_pos rfl, if_pos (List.getElem?_eq_some_iff.1 h).1, h]
        · rw [if_neg e]
      obtain ⟨todo, pc⟩ := t
      cases pc with
      | compare =>
        cases todo with
        | nil => simp [searchLoop] at hn
        | cons c cs =>
          right
          simp only [searchLoop, Option.some.injEq, Prod.mk.injEq] at hn
          obtain ⟨-, rfl, rfl⟩ := hn
          simp only [Par.coarse, SearchState.step, hsh, hth, List.getElem?_map, ht, Option.map_some,
            SearchState.threadStep, List.map_set]
          congr 3
          by_cases hv : c.value > s.shared.value
          · rw [if_pos hv]; exact (if_pos hv).symm
          · rw [if_neg hv]; exact (if_neg hv).symm
      | entrance c =>
        left
        simp only [searchLoop, Option.some.injEq, Prod.mk.injEq] at hn
        obtain ⟨-, rfl, rfl⟩ := hn
        simp only [Par.coarse, hsh, hth, List.map_set]
        rw [hsame]
        simp [ht]
      | assign c =>
        right
        simp only [searchLoop, Option.some.injEq, Prod.mk.injEq] at hn
        obtain ⟨-, rfl, rfl⟩ := hn
        simp only [Par.coarse, SearchState.step, hsh, hth, List.getElem?_map, ht, Option.map_some,
          SearchState.threadStep, List.map_set]
      | exit =>
        left
        simp only [searchLoop, Option.some.injEq, Prod.mk.injEq] at hn
        obtain ⟨-, rfl, rfl⟩ := hn
        simp only [Par.coarse, hsh, hth, List.map_set]
        rw [hsame]
        simp [ht]
  obtain ⟨l', hl'⟩ := hrun schedule (searchStart best chunks)
  have h0 : Par.coarse (searchStart best chunks) = SearchState.start best chunks := by
    simp [Par.coarse, searchStart, SearchState.start]
  rw [h0] at hl'
  refine ⟨l', by rw [hl']; rfl, fun hfin t ht => ?_⟩
  rw [hl'] at ht
  simp only [Par.coarse, List.mem_map] at ht
  obtain ⟨u, hu, rfl⟩ := ht
  have := hfin u hu
  obtain ⟨todo, pc⟩ := u
  cases pc with
  | compare =>
    cases todo with
    | nil => exact ⟨rfl, rfl⟩
    | cons c cs => simp [searchLoop] at this
  | entrance c => simp [searchLoop] at this
  | assign c => simp [searchLoop] at this
  | exit => simp [searchLoop] at this

/-! ## The gradient-based search -/

/-- C118, the gradient-based search: it is free of data races exactly if only one thread has trials.  (All
threads write the same trial design.) -/
theorem C118_gradient (constrained : Bool) (E : GradAcq K) (g incumbent : List K) (shared : GradSearch K)
    (chunks : List (List (List K))) :
    RaceFree (gradLoop constrained E g incumbent) ⟨shared, chunks.map fun c => ⟨c, .generate⟩, none⟩ ↔
      ∀ (i j : Nat) ci cj, i ≠ j → chunks[i]? = some ci → chunks[j]? = some cj → ci = [] ∨ cj = [] := by
  have hnone : ∀ sh : GradSearch K, (gradLoop constrained E g incumbent).next sh ⟨[], .generate⟩ = none := fun sh => by
    simp [gradLoop]
  constructor
  · intro h i j ci cj hij hi hj
    by_contra hcon
    simp only [not_or] at hcon
    obtain ⟨h1, h2⟩ := hcon
    have hfirst : ∀ c : List (List K), c ≠ [] → ((gradLoop constrained E g incumbent).next shared
        ⟨c, .generate⟩).map (·.1) = some (.access [] [.trial]) := by
      intro c hc
      cases c with
      | nil => exact absurd rfl hc
      | cons d ds => simp [gradLoop, GradSearch.threadStep, gradAccess]
    exact h .trial [] ⟨i, j, _, _, _, _, hij, by simp [Par.run, hi], by simp [Par.run, hj],
      hfirst ci h1, hfirst cj h2, .inl (by simp)⟩
  · intro h v l
    rintro ⟨a, b, t, u, e, f, hab, ha, hb, he, hf, hc⟩
    by_cases hall : ∀ (i : Nat) ci, chunks[i]? = some ci → ci = []
    · have hinv := Par.threads_inv (L := gradLoop constrained E g incumbent)
        (fun (_ : Nat) (t : GradThread K) => t = ⟨[], .generate⟩)
        (fun sh t e sh' t' j hj hn => by rw [hj, hnone] at hn; cases hn)
        (s := ⟨shared, chunks.map fun c => ⟨c, .generate⟩, none⟩)
        (fun j t ht => by
          simp only [List.getElem?_map, Option.map_eq_some_iff] at ht
          obtain ⟨c, hc, rfl⟩ := ht
          rw [hall j c hc]) l
      rw [hinv a t ha, hnone] at he
      cases he
    · simp only [not_forall] at hall
      obtain ⟨i, ci, hi, hne⟩ := hall
      have hinv := Par.threads_inv (L := gradLoop constrained E g incumbent)
        (fun (j : Nat) (t : GradThread K) => j ≠ i → t = ⟨[], .generate⟩)
        (fun sh t e sh' t' j hj hn hji => by rw [hj hji, hnone] at hn; cases hn)
        (s := ⟨shared, chunks.map fun c => ⟨c, .generate⟩, none⟩)
        (fun j t ht hji => by
          simp only [List.getElem?_map, Option.map_eq_some_iff] at ht
          obtain ⟨c, hc, rfl⟩ := ht
          rw [(h i j ci c (Ne.symm hji) hi hc).elim (fun e => absurd e hne) id]) l
      by_cases hai : a = i
      · rw [hinv b u hb (fun e => hab (hai.trans e.symm)), hnone] at hf
        cases hf
      · rw [hinv a t ha hai, hnone] at he
        cases he

/-! ## Training -/

namespace Par

/-- Only the thread inside the critical section is at the comparison or the assignment. -/
def TrainLocked (s : St (List K × K) (TrainTask K)) : Prop :=
  ∀ (i : Nat) t, s.threads[i]? = some t → t.pc = .compare ∨ t.pc = .assign ∨ t.pc = .exit → s.holder = some i

theorem TrainLocked.step {s : St (List K × K) (TrainTask K)} (h : TrainLocked s) (i : Nat) :
    TrainLocked (Par.step trainLoop s i) := by
  rcases step_cases trainLoop s i with e | ⟨t, e, sh, t', ht, hn, -, hth, hh⟩
  · rw [e]; exact h
  intro j u hu hpc
  rw [hth] at hu
  obtain ⟨pc, res⟩ := t
  rcases get_set hu with ⟨rfl, rfl⟩ | ⟨hji, hu⟩
  · cases pc with
    | draws n =>
      cases n with
      | zero =>
        simp only [trainLoop, Option.some.injEq, Prod.mk.injEq] at hn
        obtain ⟨rfl, -, rfl⟩ := hn
        rcases hh with ⟨⟨r, w, e⟩, -⟩ | ⟨-, -, hh⟩ | ⟨e, -⟩
        · cases e
        · exact hh
        · cases e
      | succ n =>
        simp only [trainLoop, Option.some.injEq, Prod.mk.injEq] at hn
        obtain ⟨-, -, rfl⟩ := hn
        simp at hpc
    | compare =>
      simp only [trainLoop, Option.some.injEq, Prod.mk.injEq] at hn
      obtain ⟨rfl, -, -⟩ := hn
      rcases hh with ⟨-, hh⟩ | ⟨e, -⟩ | ⟨e, -⟩
      · rw [hh]; exact h j _ ht (.inl rfl)
      · cases e
      · cases e
    | assign =>
      simp only [trainLoop, Option.some.injEq, Prod.mk.injEq] at hn
      obtain ⟨rfl, -, -⟩ := hn
      rcases hh with ⟨-, hh⟩ | ⟨e, -⟩ | ⟨e, -⟩
      · rw [hh]; exact h j _ ht (.inr (.inl rfl))
      · cases e
      · cases e
    | exit =>
      simp only [trainLoop, Option.some.injEq, Prod.mk.injEq] at hn
      obtain ⟨-, -, rfl⟩ := hn
      simp at hpc
    | done => simp [trainLoop] at hn
  · have hold := h j u hu hpc
    rcases hh with ⟨-, hh⟩ | ⟨-, hh, -⟩ | ⟨e, hh⟩
    · rw [hh]; exact hold
    · rw [hh] at hold; cases hold
    · exfalso
      subst e
      cases pc with
      | draws n => cases n <;> simp [trainLoop] at hn
      | compare => simp [trainLoop] at hn
      | assign => simp [trainLoop] at hn
      | exit =>
        have := h i _ ht (.inr (.inr rfl))
        rw [hold] at this
        exact hji (Option.some.inj this)
      | done => simp [trainLoop] at hn

theorem trainStart_get {best : List K × K} {tasks : List (Nat × List K × K)} {i : Nat} {t : TrainTask K}
    (h : (trainStart best tasks).threads[i]? = some t) : ∃ p, tasks[i]? = some p ∧ t = ⟨.draws p.1, p.2⟩ := by
  simp only [trainStart, List.getElem?_map, Option.map_eq_some_iff] at h
  obtain ⟨c, hc, rfl⟩ := h
  exact ⟨c, hc, rfl⟩

/-- A step of the training that accesses the best result is inside the critical section. -/
theorem train_access {sh : List K × K} {t : TrainTask K} {r w : List TrainVar}
    (h : (trainLoop.next sh t).map (·.1) = some (.access r w)) :
    ((t.pc = .compare ∨ t.pc = .assign) ∧ TrainVar.generator ∉ r ++ w) ∨
      ((∃ n, t.pc = .draws (n + 1)) ∧ TrainVar.best ∉ r ++ w) := by
  obtain ⟨pc, res⟩ := t
  cases pc with
  | draws n =>
    cases n with
    | zero => simp [trainLoop] at h
    | succ n =>
      simp only [trainLoop, Option.map_some, Option.some.injEq, Ev.access.injEq] at h
      obtain ⟨rfl, rfl⟩ := h
      exact .inr ⟨⟨n, rfl⟩, by simp⟩
  | compare =>
    simp only [trainLoop, Option.map_some, Option.some.injEq, Ev.access.injEq] at h
    obtain ⟨rfl, rfl⟩ := h
    exact .inl ⟨.inl rfl, by simp⟩
  | assign =>
    simp only [trainLoop, Option.map_some, Option.some.injEq, Ev.access.injEq] at h
    obtain ⟨rfl, rfl⟩ := h
    exact .inl ⟨.inr rfl, by simp⟩
  | exit => simp [trainLoop] at h
  | done => simp [trainLoop] at h

end Par

/-- C118, training: whatever the threads do, the best hyperparameters and their score are free of data
races. -/
theorem C118_training_result (best : List K × K) (tasks : List (Nat × List K × K)) :
    NoRaceOn trainLoop .best (trainStart best tasks) := by
  intro l
  rintro ⟨a, b, t, u, e, f, hab, ha, hb, he, hf, hc⟩
  have hl : TrainLocked (Par.run trainLoop (trainStart best tasks) l) :=
    Par.run_inv (L := trainLoop) TrainLocked (fun s i h => h.step i) l (trainStart best tasks)
      (fun i t ht hpc => by
        obtain ⟨c, -, rfl⟩ := trainStart_get ht
        simp at hpc)
  cases e with
  | enter => cases hc
  | leave => cases hc
  | access r w =>
    cases f with
    | enter => cases hc
    | leave => cases hc
    | access r' w' =>
      have hm : TrainVar.best ∈ r ++ w ∧ TrainVar.best ∈ r' ++ w' :=
        hc.elim (fun h => ⟨List.mem_append_right _ h.1, h.2⟩) (fun h => ⟨h.1, List.mem_append_right _ h.2⟩)
      rcases train_access he with ⟨h1, -⟩ | ⟨-, h1⟩
      · rcases train_access hf with ⟨h2, -⟩ | ⟨-, h2⟩
        · have e1 := hl a t ha (h1.imp id .inl)
          have e2 := hl b u hb (h2.imp id .inl)
          rw [e1] at e2
          exact hab (Option.some.inj e2)
        · exact h2 hm.2
      · exact h1 hm.1

/-- C118, training: it is free of data races exactly if at most one thread draws random numbers.  (The
generator of the populations is one object for all threads.) -/
theorem C118_training (best : List K × K) (tasks : List (Nat × List K × K)) :
    RaceFree trainLoop (trainStart best tasks) ↔
      ∀ (i j : Nat) p q, i ≠ j → tasks[i]? = some p → tasks[j]? = some q → p.1 = 0 ∨ q.1 = 0 := by
  constructor
  · intro h i j p q hij hi hj
    by_contra hcon
    simp only [not_or] at hcon
    obtain ⟨h1, h2⟩ := hcon
    have hfirst : ∀ p : Nat × List K × K, p.1 ≠ 0 → (trainLoop.next best ⟨.draws p.1, p.2⟩).map (·.1) =
        some (.access [.generator] [.generator]) := by
      rintro ⟨n, r⟩ hp
      cases n with
      | zero => exact absurd rfl hp
      | succ n => rfl
    exact h .generator [] ⟨i, j, _, _, _, _, hij, by simp [Par.run, trainStart, hi],
      by simp [Par.run, trainStart, hj], hfirst p h1, hfirst q h2, .inl (by simp)⟩
  · intro h v l
    cases v with
    | best => exact C118_training_result best tasks l
    | generator =>
      rintro ⟨a, b, t, u, e, f, hab, ha, hb, he, hf, hc⟩
      have hinv := Par.threads_inv (L := trainLoop)
        (fun (j : Nat) (t : TrainTask K) => ∀ p, tasks[j]? = some p → p.1 = 0 → ∀ n, t.pc ≠ .draws (n + 1))
        (fun sh t e sh' t' j hj hn p hp hp0 n hpc => by
          have := hj p hp hp0
          obtain ⟨pc, res⟩ := t
          cases pc with
          | draws m =>
            cases m with
            | zero =>
              simp only [trainLoop, Option.some.injEq, Prod.mk.injEq] at hn
              obtain ⟨-, -, rfl⟩ := hn
              simp at hpc
            | succ m => exact this m rfl
          | compare =>
            simp only [trainLoop, Option.some.injEq, Prod.mk.injEq] at hn
            obtain ⟨-, -, rfl⟩ := hn
            split at hpc <;> simp at hpc
          | assign =>
            simp only [trainLoop, Option.some.injEq, Prod.mk.injEq] at hn
            obtain ⟨-, -, rfl⟩ := hn
            simp at hpc
          | exit =>
            simp only [trainLoop, Option.some.injEq, Prod.mk.injEq] at hn
            obtain ⟨-, -, rfl⟩ := hn
            simp at hpc
          | done => simp [trainLoop] at hn)
        (s := trainStart best tasks)
        (fun j t ht p hp hp0 n hpc => by
          obtain ⟨c, hc, rfl⟩ := trainStart_get ht
          rw [hc] at hp
          cases hp
          simp only [TrainPc.draws.injEq] at hpc
          omega) l
      have hex : ∀ (j : Nat) t, (Par.run trainLoop (trainStart best tasks) l).threads[j]? = some t →
          ∃ p, tasks[j]? = some p := by
        intro j t hj
        have hlen := Par.run_inv (L := trainLoop)
          (fun s : St (List K × K) (TrainTask K) => s.threads.length = tasks.length)
          (fun s i h => by rw [Par.step_length]; exact h) l (trainStart best tasks) (by simp [trainStart])
        have := (List.getElem?_eq_some_iff.1 hj).1
        exact ⟨tasks[j]'(by omega), List.getElem?_eq_getElem (by omega)⟩
      cases e with
      | enter => cases hc
      | leave => cases hc
      | access r w =>
        cases f with
        | enter => cases hc
        | leave => cases hc
        | access r' w' =>
          have hm : TrainVar.generator ∈ r ++ w ∧ TrainVar.generator ∈ r' ++ w' :=
            hc.elim (fun h => ⟨List.mem_append_right _ h.1, h.2⟩) (fun h => ⟨h.1, List.mem_append_right _ h.2⟩)
          rcases train_access he with ⟨-, h1⟩ | ⟨⟨n, h1⟩, -⟩
          · exact h1 hm.1
          rcases train_access hf with ⟨-, h2⟩ | ⟨⟨m, h2⟩, -⟩
          · exact h2 hm.2
          obtain ⟨p, hp⟩ := hex a t ha
          obtain ⟨q, hq⟩ := hex b u hb
          rcases h a b p q hab hp hq with e | e
          · exact hinv a t ha p hp e n h1
          · exact hinv b u hb q hq e m h2

/-! ## What the races can do -/

namespace Par

theorem Twister.run_append (l m : List Nat) : ∀ (s t : Twister), s.run l = .ok t → s.run (l ++ m) = t.run m := by
  induction l with
  | nil => intro s t h; cases h; rfl
  | cons i l ih =>
    intro s t h
    simp only [Twister.run, List.cons_append] at h ⊢
    cases hs : s.step i with
    | error e => rw [hs] at h; cases h
    | ok s' => rw [hs] at h; exact ih s' t h

/-- One undisturbed draw from a table that is not used up. -/
theorem Twister.draw {p n i : Nat} {l : List (Nat × DrawPc)} (hp : p < 624) (hi : l[i]? = some (n + 1, .check)) :
    Twister.run ⟨p, l⟩ [i, i, i, i] = .ok ⟨p + 1, l.set i (n, .check)⟩ := by
  have hlt := (List.getElem?_eq_some_iff.1 hi).1
  have hset : ∀ t : Nat × DrawPc, (l.set i t)[i]? = some t := fun t => List.getElem?_set_self hlt
  simp only [Twister.run, Twister.step, hi, hset, ge_iff_le, not_le.2 hp, if_false, List.set_set, if_pos hp]

/-- Several undisturbed draws. -/
theorem Twister.draws {i : Nat} : ∀ (m p n : Nat) (l : List (Nat × DrawPc)), p + m ≤ 624 →
    l[i]? = some (n + m, .check) → ∃ sched, Twister.run ⟨p, l⟩ sched = .ok ⟨p + m, l.set i (n, .check)⟩
  | 0, p, n, l, _, hi => ⟨[], by
      simp only [Twister.run, Nat.add_zero] at hi ⊢
      congr 2
      apply List.ext_getElem?
      intro k
      rw [List.getElem?_set]
      by_cases e : i = k
      · subst e; rw [if_pos rfl, if_pos (List.getElem?_eq_some_iff.1 hi).1, hi]
      · rw [if_neg e]⟩
  | m + 1, p, n, l, hp, hi => by
    have hlt := (List.getElem?_eq_some_iff.1 hi).1
    have h1 := Twister.draw (p := p) (n := n + m) (i := i) (l := l) (by omega) hi
    obtain ⟨sched, h2⟩ := Twister.draws m (p + 1) n (l.set i (n + m, .check)) (by omega)
      (List.getElem?_set_self hlt)
    refine ⟨[i, i, i, i] ++ sched, ?_⟩
    rw [Twister.run_append _ _ _ _ h1, h2, List.set_set]
    congr 2
    omega

end Par

/-- C118, what the race on the generator can do: if one thread draws at least 624 numbers and another one at
least one, then in some execution a number is read from outside the table of the generator. -/
theorem C118_generator (draws : List Nat) (i j n m : Nat) (hij : i ≠ j) (hi : draws[i]? = some n)
    (hj : draws[j]? = some m) (hn : 624 ≤ n) (hm : 1 ≤ m) :
    ∃ schedule, (Twister.seeded draws).run schedule = .error .ub := by
  obtain ⟨n, rfl⟩ := Nat.exists_eq_add_of_le hn
  obtain ⟨m, rfl⟩ := Nat.exists_eq_add_of_le hm
  set l := draws.map fun n => ((n, DrawPc.check) : Nat × DrawPc) with hl
  have hli : l[i]? = some (624 + n, .check) := by simp [hl, hi]
  have hlj : l[j]? = some (1 + m, .check) := by simp [hl, hj]
  have hlt := (List.getElem?_eq_some_iff.1 hli).1
  have hlt' := (List.getElem?_eq_some_iff.1 hlj).1
  -- the first draw fills the table
  have h1 : Twister.run ⟨624, l⟩ [i, i, i, i, i] = .ok ⟨1, l.set i (623 + n, .check)⟩ := by
    have hset : ∀ t : Nat × DrawPc, (l.set i t)[i]? = some t := fun t => List.getElem?_set_self hlt
    have e : 624 + n = (623 + n) + 1 := by omega
    rw [e] at hli
    simp [Twister.run, Twister.step, hli, hset]
  obtain ⟨sched, h2⟩ := Twister.draws (i := i) 622 1 (n + 1) (l.set i (623 + n, .check)) (by omega)
    (by rw [List.getElem?_set_self hlt]; congr 2; omega)
  rw [List.set_set] at h2
  refine ⟨[i, i, i, i, i] ++ (sched ++ [i, j, i, i, j, j, j]), ?_⟩
  rw [Twister.seeded, ← hl, Twister.run_append _ _ _ _ h1, Twister.run_append _ _ _ _ h2]
  have e : 1 + m = m + 1 := by omega
  rw [e] at hlj
  generalize hL : l.set i (n + 1, DrawPc.check) = L
  have hLi : L[i]? = some (n + 1, .check) := by rw [← hL, List.getElem?_set_self hlt]
  have hLj : L[j]? = some (m + 1, .check) := by rw [← hL, List.getElem?_set_ne hij, hlj]
  have gi : ∀ (M : List (Nat × DrawPc)) t u, M[i]? = some u → (M.set i t)[i]? = some t := fun M t u h =>
    List.getElem?_set_self (List.getElem?_eq_some_iff.1 h).1
  have gj : ∀ (M : List (Nat × DrawPc)) t u, M[j]? = some u → (M.set j t)[j]? = some t := fun M t u h =>
    List.getElem?_set_self (List.getElem?_eq_some_iff.1 h).1
  -- both threads see that the table is not used up; then both take a word of it
  have a1 := gi L (n + 1, .load) _ hLi
  have b1 : (L.set i (n + 1, DrawPc.load))[j]? = some (m + 1, .check) := by rw [List.getElem?_set_ne hij, hLj]
  generalize hL1 : L.set i (n + 1, DrawPc.load) = L1 at a1 b1
  have b2 := gj L1 (m + 1, .load) _ b1
  have a2 : (L1.set j (m + 1, DrawPc.load))[i]? = some (n + 1, .load) := by
    rw [List.getElem?_set_ne (Ne.symm hij), a1]
  generalize hL2 : L1.set j (m + 1, DrawPc.load) = L2 at a2 b2
  have a3 := gi L2 (n + 1, .store 623) _ a2
  have b3 : (L2.set i (n + 1, DrawPc.store 623))[j]? = some (m + 1, .load) := by rw [List.getElem?_set_ne hij, b2]
  generalize hL3 : L2.set i (n + 1, DrawPc.store 623) = L3 at a3 b3
  have b4 : (L3.set i (n + 1, DrawPc.fetch 623))[j]? = some (m + 1, .load) := by rw [List.getElem?_set_ne hij, b3]
  generalize hL4 : L3.set i (n + 1, DrawPc.fetch 623) = L4 at b4
  have b5 := gj L4 (m + 1, .store 624) _ b4
  generalize hL5 : L4.set j (m + 1, DrawPc.store 624) = L5 at b5
  have b6 := gj L5 (m + 1, .fetch 624) _ b5
  have s1 : Twister.step ⟨1 + 622, L⟩ i = .ok ⟨623, L1⟩ := by simp [Twister.step, hLi, hL1]
  have s2 : Twister.step ⟨623, L1⟩ j = .ok ⟨623, L2⟩ := by simp [Twister.step, b1, hL2]
  have s3 : Twister.step ⟨623, L2⟩ i = .ok ⟨623, L3⟩ := by simp [Twister.step, a2, hL3]
  have s4 : Twister.step ⟨623, L3⟩ i = .ok ⟨624, L4⟩ := by simp [Twister.step, a3, hL4]
  have s5 : Twister.step ⟨624, L4⟩ j = .ok ⟨624, L5⟩ := by simp [Twister.step, b4, hL5]
  have s6 : Twister.step ⟨624, L5⟩ j = .ok ⟨625, L5.set j (m + 1, .fetch 624)⟩ := by simp [Twister.step, b5]
  have s7 : Twister.step ⟨625, L5.set j (m + 1, .fetch 624)⟩ j = .error .ub := by
    simp only [Twister.step, b6]
    simp
  simp only [Twister.run, s1, s2, s3, s4, s5, s6, s7]

/-- C118, one thread: the generator is never read outside its table. -/
theorem C118_generator_single (n : Nat) (schedule : List Nat) :
    ∃ s, (Twister.seeded [n]).run schedule = .ok s := by
  have key : ∀ (l : List Nat) (s : Twister) (k : Nat) (pc : DrawPc), s.threads = [(k, pc)] →
      s.pos ≤ 624 → (match pc with
        | .check => True
        | .refill => True
        | .load => s.pos < 624
        | .store q => q < 624
        | .fetch q => q < 624) → ∃ t, s.run l = .ok t := by
    intro l
    induction l with
    | nil => intro s k pc _ _ _; exact ⟨s, rfl⟩
    | cons i l ih =>
      rintro ⟨p, th⟩ k pc hth hpos hpc
      simp only [] at hth hpos hpc
      subst hth
      cases i with
      | succ i =>
        simp only [Twister.run, Twister.step, List.getElem?_cons_succ, List.getElem?_nil]
        exact ih ⟨p, [(k, pc)]⟩ k pc rfl hpos hpc
      | zero =>
        cases k with
        | zero =>
          simp only [Twister.run, Twister.step, List.getElem?_cons_zero]
          exact ih ⟨p, [(0, pc)]⟩ 0 pc rfl hpos hpc
        | succ k =>
          cases pc with
          | check =>
            simp only [Twister.run, Twister.step, List.getElem?_cons_zero, List.set_cons_zero]
            by_cases hp : p ≥ 624
            · rw [if_pos hp]; exact ih ⟨p, [(k + 1, .refill)]⟩ (k + 1) .refill rfl hpos trivial
            · rw [if_neg hp]; exact ih ⟨p, [(k + 1, .load)]⟩ (k + 1) .load rfl hpos (by simpa using hp)
          | refill =>
            simp only [Twister.run, Twister.step, List.getElem?_cons_zero, List.set_cons_zero]
            exact ih ⟨0, [(k + 1, .load)]⟩ (k + 1) .load rfl (by simp) (by simp)
          | load =>
            simp only [Twister.run, Twister.step, List.getElem?_cons_zero, List.set_cons_zero]
            exact ih ⟨p, [(k + 1, .store p)]⟩ (k + 1) (.store p) rfl hpos hpc
          | store q =>
            simp only [] at hpc
            simp only [Twister.run, Twister.step, List.getElem?_cons_zero, List.set_cons_zero]
            exact ih ⟨q + 1, [(k + 1, .fetch q)]⟩ (k + 1) (.fetch q) rfl (by simp only []; omega) hpc
          | fetch q =>
            simp only [] at hpc
            simp only [Twister.run, Twister.step, List.getElem?_cons_zero, List.set_cons_zero, if_pos hpc]
            exact ih ⟨p, [(k, .check)]⟩ k .check rfl hpos trivial
  exact key schedule (Twister.seeded [n]) n .check rfl (by simp [Twister.seeded]) trivial

/-- C118, what the race on the best design of the gradient-based search can do: if two threads assign to the
same vector, the second deletes the memory that the first has deleted before the first has got new one. -/
theorem C118_assignment (threads : List AssignPc) (i j : Nat) (hij : i ≠ j) (hi : threads[i]? = some .delete)
    (hj : threads[j]? = some .delete) :
    Assigning.run ⟨true, threads⟩ [i, j] = .error .ub := by
  have hj' : (threads.set i .allocate)[j]? = some .delete := by rw [List.getElem?_set_ne hij, hj]
  simp [Assigning.run, Assigning.step, hi, hj']

/-- C118, full statement: no parallel loop of the library has a data race, whatever its threads have to do. -/
def C118_full : Prop :=
  (∀ (best : BODesign ℚ) (chunks : List (List (BODesign ℚ))), RaceFree searchLoop (searchStart best chunks)) ∧
  (∀ (constrained : Bool) (E : GradAcq ℚ) (g incumbent : List ℚ) (shared : GradSearch ℚ)
    (chunks : List (List (List ℚ))),
    RaceFree (gradLoop constrained E g incumbent) ⟨shared, chunks.map fun c => ⟨c, .generate⟩, none⟩) ∧
  (∀ (best : List ℚ × ℚ) (tasks : List (Nat × List ℚ × ℚ)), RaceFree trainLoop (trainStart best tasks))

/-- C118 does not hold in full: two threads that train a model draw from the same generator. -/
theorem C118_false : ¬ C118_full := by
  intro h
  have := (C118_training ([], 10) [(800, [1, 2], 3), (800, [2, 1], 4)]).1
    (h.2.2 ([], 10) [(800, [1, 2], 3), (800, [2, 1], 4)]) 0 1 _ _ (by decide) rfl rfl
  simp at this

/-! ### Witnesses -/

/-- The criteria are met by non-trivial cases: two threads without a candidate that beats the start. -/
example : RaceFree searchLoop (searchStart (⟨[0], 5⟩ : BODesign ℚ) [[⟨[1], 4⟩, ⟨[2], 3⟩], [⟨[3], 5⟩]]) := by
  refine (C118_search _ _).2 fun i j ci cj hij hi hj => .inl ?_
  rcases i with _ | _ | i
  · cases hi; decide +kernel
  · cases hi; decide +kernel
  · simp at hi

/-- Two threads with candidates that beat the start race. -/
example : ¬ RaceFree searchLoop (searchStart (⟨[0], -1⟩ : BODesign ℚ) [[⟨[1], 4⟩], [⟨[3], 5⟩]]) := by
  intro h
  have := (C118_search _ _).1 h 0 1 _ _ (by decide) rfl rfl
  revert this
  decide +kernel

/-- The generator is really read outside its table, with the two threads of the witness above. -/
example : ∃ schedule, (Twister.seeded [800, 800]).run schedule = .error .ub :=
  C118_generator [800, 800] 0 1 800 800 (by decide) rfl rfl (by decide) (by decide)

/-- One thread trains. -/
example : RaceFree trainLoop (trainStart (([], 10) : List ℚ × ℚ) [(800, [1, 2], 3)]) :=
  C118_partial _ _ (by decide)

end Rodeo
