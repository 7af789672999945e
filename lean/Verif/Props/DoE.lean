import Verif.Lemmas.API
import Mathlib.Data.Rat.Floor

/-! # C41: the initial sampling and the files it leaves

C41: if the process stops at any point during the initial sampling, the training data file of the
objective function holds exactly the samples evaluated and saved so far, each with its own function
value and in order; on completion it holds all of them.

The sampling rewrites the whole file after each sample, so the claim fails for a stop between the
truncation of the file and the end of the write (`C41_false`).  It holds at every other point
(`C41_partial`); within a write the file holds a part of the table (`C41_torn`). -/

set_option linter.unusedSectionVars false

namespace Rodeo
open Text Spec API Mat

variable {K : Type} [Field K] [LinearOrder K] [IsStrictOrderedRing K] [FloorRing K]
variable {F : Type}

/-- The value of the objective function, 0 where it throws. -/
def API.valueOf (E : Env K F) (fn : F) (x : List K) : K :=
  match E.eval fn x with
  | .ok v => v
  | .error _ => 0

theorem API.valueOf_ok {E : Env K F} {fn : F} {x : List K} {v : K} (h : E.eval fn x = .ok v) :
    v = valueOf E fn x := by
  unfold valueOf; rw [h]

theorem API.samples_of {E : Env K F} {fn : F} {xs : List (List K)}
    (h : ∀ x ∈ xs, ∃ v, E.eval fn x = .ok v) :
    Samples (E.eval fn) xs (xs.map fun x => x ++ [valueOf E fn x]) := by
  induction xs with
  | nil => exact .nil
  | cons x xs ih =>
    obtain ⟨v, hv⟩ := h x (by simp)
    refine .cons ⟨v, hv, ?_⟩ (ih fun y hy => h y (by simp [hy]))
    rw [valueOf_ok hv]

/-- The events of the initial sampling: complete samples, then an evaluation that failed or could not
be saved, or the events of the constraints. -/
theorem API.performDoE_events (E : Env K F) (s : Study K F) {fn : F} (hfn : s.objFn = some fn) :
    ∃ (xs : List (List K)) (tail : List (Event K)),
      (performDoE E s).1 = blocks (valueOf E fn) s.file [] xs ++ tail ∧
      (∀ x ∈ xs, ∃ v, E.eval fn x = .ok v) ∧
      ((∃ x, tail = [.evalObjective x]) ∨ ∀ e ∈ tail, OfConstraints s 0 e) := by
  unfold performDoE
  cases hS : generateSamples E s with
  | error e => exact ⟨[], [], rfl, fun x hx => (by cases hx), Or.inr fun e he => (by cases he)⟩
  | ok S =>
    rw [hfn]
    dsimp only
    by_cases h0 : s.samplesForDoE = 0
    · rw [if_pos h0]
      exact ⟨[], [], rfl, fun x hx => (by cases hx), Or.inr fun e he => (by cases he)⟩
    · rw [if_neg h0]
      obtain ⟨G, hG⟩ := generateSamples_size hS
      obtain ⟨xs, h1, -, h2⟩ := objectiveLoop_events E fn s.file S (valueOf E fn)
        (fun x v h => valueOf_ok h) s.samplesForDoE 0 Mat.empty [] (hasRows_empty _)
        (by rw [hG.1]; omega) (by rw [hG.2.2.1, hG.1, hG.2.1])
      rcases h2 with ⟨h2, -⟩ | ⟨x, -, -, -, h2⟩
      · rw [h2]
        exact ⟨xs, (constraintsDoE E s S).1, rfl, h1, Or.inr (constraintsDoE_events E s S)⟩
      · rw [h2]
        exact ⟨xs, [.evalObjective x], rfl, h1, Or.inl ⟨x, rfl⟩⟩

/-- The events of `run` up to the optimization are those of the initial sampling, or there are none. -/
theorem API.runDoE_events (isDir : Str → Bool) (E : Env K F) (s : Study K F) :
    (runDoE isDir E s).1 = [] ∨ (runDoE isDir E s).1 = (performDoE E s).1 := by
  unfold runDoE
  split
  · exact Or.inl rfl
  · split_ifs
    · exact Or.inl rfl
    · exact Or.inl rfl
    · exact Or.inr rfl
    · exact Or.inl rfl

/-- The full claim: after every part of the events of a run. -/
def C41_full (K F : Type) [Field K] [LinearOrder K] [IsStrictOrderedRing K] [FloorRing K] : Prop :=
  ∀ (isDir : Str → Bool) (hist : List (Call K F)) (E : Env K F) (s : Study K F) (fn : F) (fs : Files)
    (t rest : List (Event K)), calls isDir new hist = some s → s.objFn = some fn →
    s.file ∉ s.constraintFiles → (runDoE isDir E s).1 = t ++ rest →
    HoldsSaved fs t (E.eval fn) s.file

/-- **C41** at every point at which the program is not in the middle of writing the file: the file
holds exactly the samples evaluated and saved so far. -/
theorem C41_partial (isDir : Str → Bool) (E : Env K F) (s : Study K F) {fn : F} (fs : Files)
    {t rest : List (Event K)} (hfn : s.objFn = some fn) (hfile : s.file ∉ s.constraintFiles)
    (htr : (runDoE isDir E s).1 = t ++ rest)
    (hrest : ∀ c, rest.head? ≠ some (.put s.file c)) :
    HoldsSaved fs t (E.eval fn) s.file := by
  have hempty : HoldsSaved fs ([] : List (Event K)) (E.eval fn) s.file :=
    Or.inl ⟨le_refl _, [], .nil, rfl⟩
  rcases runDoE_events isDir E s with h | h
  · rw [h] at htr
    rw [(List.append_eq_nil_iff.1 htr.symm).1]
    exact hempty
  rw [h] at htr
  obtain ⟨xs, tail, h1, h2, h3⟩ := performDoE_events E s hfn
  rw [h1] at htr
  have hpts := blocks_points (valueOf E fn) s.file xs []
  have hnot : ∀ j, 0 ≤ j → s.constraintFiles[j]? ≠ some s.file := fun j _ h =>
    hfile (List.mem_of_getElem? h)
  have hsam : ∀ k, Samples (E.eval fn) (xs.take k) ((xs.take k).map fun x => x ++ [valueOf E fn x]) :=
    fun k => samples_of fun x hx => h2 x (List.mem_of_mem_take hx)
  -- within the complete samples
  have inner : ∀ a : List (Event K), blocks (valueOf E fn) s.file [] xs = t ++ a →
      (∀ c, a.head? ≠ some (.put s.file c)) → HoldsSaved fs t (E.eval fn) s.file := by
    intro a ha hhead
    obtain ⟨k, hk1, hk2⟩ := blocks_files (valueOf E fn) s.file xs fs [] t a ha hhead
      (fun h => absurd rfl h)
    have hp : points t ++ points a = xs := by rw [← points_append, ← ha, hpts]
    have htake : ∀ k, k ≤ (points t).length → (points t).take k = xs.take k := by
      intro k hk
      rw [← hp, List.take_append_of_le_length hk]
    have hfirst : HoldsFirst fs t (E.eval fn) s.file k := by
      refine ⟨by omega, (xs.take k).map fun x => x ++ [valueOf E fn x], ?_, ?_⟩
      · rw [htake k (by omega)]; exact hsam k
      · rw [hk2]; simp
    rcases hk1 with rfl | hk1
    · exact Or.inl hfirst
    · refine Or.inr ⟨by omega, ?_⟩
      have : (points t).length - 1 = k := by omega
      rw [this]; exact hfirst
  -- after the complete samples
  have whole : files fs (blocks (valueOf E fn) s.file [] xs) s.file =
      if xs.length = 0 then fs s.file else some (csv (xs.map fun x => x ++ [valueOf E fn x])) := by
    obtain ⟨k, hk1, hk2⟩ := blocks_files (valueOf E fn) s.file xs fs []
      (blocks (valueOf E fn) s.file [] xs) [] (by simp) (by simp) (fun h => absurd rfl h)
    rw [hpts] at hk1
    rcases hk1 with rfl | hk1
    · rw [hk2]; simp
    · obtain ⟨xs', x, rfl⟩ : ∃ xs' x, xs = xs' ++ [x] := by
        rcases List.eq_nil_or_concat xs with rfl | ⟨xs', x, rfl⟩
        · simp at hk1
        · exact ⟨xs', x, by simp⟩
      rw [blocks_whole]
      simp
  rcases List.append_eq_append_iff.1 htr with ⟨a, ha1, ha2⟩ | ⟨a, ha1, ha2⟩
  · subst ha1
    rcases h3 with ⟨x, rfl⟩ | h3
    · rcases a with _ | ⟨e, a⟩
      · exact inner [] (by simp) (by simp)
      · obtain ⟨rfl, he⟩ := List.cons.inj ha2
        have : a = [] := (List.append_eq_nil_iff.1 he.symm).1
        subst this
        have hp : points (blocks (valueOf E fn) s.file [] xs ++ [Event.evalObjective x]) = xs ++ [x] := by
          rw [points_append, hpts]; rfl
        refine Or.inr ⟨by rw [hp]; simp, ?_⟩
        rw [hp]
        simp only [List.length_append, List.length_singleton, Nat.add_sub_cancel]
        refine ⟨by rw [hp]; simp, xs.map fun x => x ++ [valueOf E fn x], ?_, ?_⟩
        · rw [hp]
          simpa using hsam xs.length
        · rw [files_append, files_other (by
            intro e he
            simp only [List.mem_singleton] at he
            subst he
            exact fun h => h), whole]
    · have hmem : ∀ e ∈ a, OfConstraints s 0 e := fun e he => h3 e (by rw [ha2]; simp [he])
      have hp : points (blocks (valueOf E fn) s.file [] xs ++ a) = xs := by
        rw [points_append, hpts, points_nil fun e he => (hmem e he).no_point, List.append_nil]
      left
      rw [hp]
      refine ⟨by rw [hp], xs.map fun x => x ++ [valueOf E fn x], ?_, ?_⟩
      · rw [hp]
        simpa using hsam xs.length
      · rw [files_append, files_other fun e he => (hmem e he).not_touches hnot, whole]
  · refine inner a ha1 fun c hc => ?_
    rcases a with _ | ⟨e, a⟩
    · simp at hc
    · rw [ha2] at hrest
      exact hrest c (by simpa using hc)

/-- In the middle of writing the file the file holds a beginning of the table of all samples evaluated
so far. -/
theorem C41_torn (isDir : Str → Bool) (E : Env K F) (s : Study K F) {fn : F} (fs : Files)
    {t rest : List (Event K)} {c : Char} (hfn : s.objFn = some fn) (hfile : s.file ∉ s.constraintFiles)
    (htr : (runDoE isDir E s).1 = t ++ .put s.file c :: rest) :
    ∃ rows p q, Samples (E.eval fn) (points t) rows ∧ p ++ q = csv rows ∧
      files fs t s.file = some p := by
  rcases runDoE_events isDir E s with h | h
  · rw [h] at htr
    exact absurd htr (by simp)
  rw [h] at htr
  obtain ⟨xs, tail, h1, h2, h3⟩ := performDoE_events E s hfn
  rw [h1] at htr
  have hpts := blocks_points (valueOf E fn) s.file xs []
  rcases List.append_eq_append_iff.1 htr with ⟨a, ha1, ha2⟩ | ⟨a, ha1, ha2⟩
  · exfalso
    rcases h3 with ⟨x, rfl⟩ | h3
    · rcases a with _ | ⟨e, a⟩
      · simp at ha2
      · have := (List.cons.inj ha2).2
        simp at this
    · refine (h3 (.put s.file c) (by rw [ha2]; simp)).not_touches (fun j _ h => ?_) rfl
      exact hfile (List.mem_of_getElem? h)
  · rcases a with _ | ⟨e, a⟩
    · simp only [List.nil_append] at ha2
      exfalso
      rcases h3 with ⟨x, rfl⟩ | h3
      · have := (List.cons.inj ha2).1
        cases this
      · refine (h3 (.put s.file c) (by rw [← ha2]; simp)).not_touches (fun j _ h => ?_) rfl
        exact hfile (List.mem_of_getElem? h)
    · obtain ⟨he, ha2'⟩ := List.cons.inj ha2
      subst he
      obtain ⟨p, q, g0, g1, g2⟩ := blocks_torn (valueOf E fn) s.file xs fs [] t a c ha1
      have hp : points t ++ points (Event.put s.file c :: a) = xs := by
        rw [← points_append, ← ha1, hpts]
      have ht : xs.take (points t).length = points t := by
        rw [← hp, List.take_append_of_le_length (le_refl _), List.take_length]
      refine ⟨_, p, q, samples_of (E := E) (fn := fn) (xs := points t) fun x hx => h2 x ?_, ?_, g1⟩
      · rw [← hp]; simp [hx]
      · rw [g2, ht]; rfl

/-! ## Reachable studies -/

/-- The bounds a study has collected are ordered. -/
def API.Ordered (s : Study K F) : Prop :=
  s.lb.length = s.ub.length ∧ ∀ (i : Nat) (l u : K), s.lb[i]? = some l → s.ub[i]? = some u → l < u

theorem API.pushBounds_ordered (lb ub : List K) : ∀ (n i : Nat) (L U : List K),
    (L.length = U.length ∧ ∀ (i : Nat) (l u : K), L[i]? = some l → U[i]? = some u → l < u) →
    (pushBounds lb ub n i L U).1.length = (pushBounds lb ub n i L U).2.1.length ∧
      ∀ (j : Nat) (l u : K), (pushBounds lb ub n i L U).1[j]? = some l →
        (pushBounds lb ub n i L U).2.1[j]? = some u → l < u := by
  intro n
  induction n with
  | zero => intro i L U h; exact h
  | succ n ih =>
    intro i L U h
    unfold pushBounds
    split
    · rename_i l u h1 h2
      split_ifs with hlu
      · exact h
      · refine ih (i + 1) _ _ ⟨by simp [h.1], fun j a b ha hb => ?_⟩
        by_cases hj : j < L.length
        · rw [List.getElem?_append_left hj] at ha
          rw [List.getElem?_append_left (by omega)] at hb
          exact h.2 j a b ha hb
        · rw [List.getElem?_append_right (by omega)] at ha
          rw [List.getElem?_append_right (by omega), ← h.1] at hb
          rcases hd : j - L.length with _ | d
          · rw [hd] at ha hb
            simp only [List.getElem?_cons_zero, Option.some.injEq] at ha hb
            subst ha hb
            exact not_le.1 hlu
          · rw [hd] at ha
            simp at ha
    · exact h
    · exact h

theorem API.setBoxConstraints_bounds (s : Study K F) (lb ub : List K) :
    ((setBoxConstraints s lb ub).1.lb, (setBoxConstraints s lb ub).1.ub) =
      if s.dimension = 0 then (s.lb, s.ub)
      else ((pushBounds lb ub s.dimension 0 s.lb s.ub).1,
        (pushBounds lb ub s.dimension 0 s.lb s.ub).2.1) := by
  unfold setBoxConstraints
  split_ifs
  · rfl
  · dsimp only
    split
    · rfl
    · split
      · rfl
      · split <;> rfl

theorem API.step_ordered (isDir : Str → Bool) (s : Study K F) (c : Call K F) (h : Ordered s) :
    Ordered (step isDir s c).1 := by
  cases c with
  | setBoxConstraints lb ub =>
    have e := setBoxConstraints_bounds s lb ub
    unfold Ordered step
    dsimp only
    split_ifs at e with h0
    · obtain ⟨e1, e2⟩ := Prod.mk.inj e
      rw [e1, e2]
      exact h
    · obtain ⟨e1, e2⟩ := Prod.mk.inj e
      rw [e1, e2]
      exact pushBounds_ordered lb ub _ _ _ _ h
  | setName n => simp only [step, setName]; split_ifs <;> exact h
  | setCwd d => simp only [step, setCwd]; split_ifs <;> exact h
  | setDoEStrategy i => simp only [step, setDoEStrategy]; split_ifs <;> exact h
  | setNameOfTrainingDataFile f => simp only [step, setNameOfTrainingDataFile]; split_ifs <;> exact h
  | setDimension d => simp only [step, setDimension]; split_ifs <;> exact h
  | setObjectiveFunction f n file =>
    simp only [step, setObjectiveFunction]
    repeat' split
    all_goals exact h
  | addConstraint f e file =>
    simp only [step, addConstraint]
    repeat' split
    all_goals exact h
  | setDoEOn n => exact h
  | setMaxEvaluations n => exact h

/-- Induction over the histories of calls. -/
theorem API.calls_inv {isDir : Str → Bool} (P : Study K F → Prop)
    (hstep : ∀ s c, P s → fatal (step isDir s c).2 = false → P (step isDir s c).1) :
    ∀ (hist : List (Call K F)) (s s' : Study K F), P s → calls isDir s hist = some s' → P s' := by
  intro hist
  induction hist with
  | nil => intro s s' h e; cases e; exact h
  | cons c cs ih =>
    intro s s' h e
    unfold calls at e
    split_ifs at e with hf
    exact ih _ _ (hstep s c h (by simpa using hf)) e

theorem API.calls_ordered {isDir : Str → Bool} {hist : List (Call K F)} {s : Study K F}
    (h : calls isDir new hist = some s) : Ordered s :=
  calls_inv Ordered (fun s c hs _ => step_ordered isDir s c hs) hist new s
    ⟨rfl, fun i l u h => by simp [new] at h⟩ h

theorem API.pushBounds_length (lb ub : List K) : ∀ (n i : Nat) (L U : List K),
    (pushBounds lb ub n i L U).2.2 = .ok () → (pushBounds lb ub n i L U).1.length = L.length + n := by
  intro n
  induction n with
  | zero => intro i L U _; rfl
  | succ n ih =>
    intro i L U h
    unfold pushBounds at h ⊢
    cases h1 : rawAt lb i with
    | error e => simp only [h1] at h; cases h
    | ok l =>
      cases h2 : rawAt ub i with
      | error e => simp only [h1, h2] at h; cases h
      | ok u =>
        simp only [h1, h2] at h ⊢
        split_ifs at h ⊢ with hlu
        rw [ih _ _ _ h]
        simp
        omega

theorem API.pushBounds_mono (lb ub : List K) : ∀ (n i : Nat) (L U : List K),
    L.length ≤ (pushBounds lb ub n i L U).1.length := by
  intro n
  induction n with
  | zero => intro i L U; exact le_refl _
  | succ n ih =>
    intro i L U
    unfold pushBounds
    split
    · split_ifs
      · exact le_refl _
      · exact le_trans (by simp) (ih _ _ _)
    · exact le_refl _
    · exact le_refl _

theorem API.step_boxSet (isDir : Str → Bool) (s : Study K F) (c : Call K F)
    (h : s.boxSet = true → s.lb ≠ []) :
    (step isDir s c).1.boxSet = true → (step isDir s c).1.lb ≠ [] := by
  cases c with
  | setBoxConstraints lb ub =>
    simp only [step, setBoxConstraints]
    have hm := pushBounds_mono lb ub s.dimension 0 s.lb s.ub
    have keep : s.boxSet = true → (pushBounds lb ub s.dimension 0 s.lb s.ub).1 ≠ [] := fun hb he => by
      have := List.length_pos_iff.2 (h hb)
      rw [he] at hm
      simp at hm
      exact h hb hm
    split_ifs with h0
    · exact h
    · split
      · exact keep
      · rename_i hok
        have hl := pushBounds_length lb ub _ _ _ _ hok
        split
        · exact keep
        · split
          · exact keep
          · intro _ he
            dsimp only at he
            rw [he] at hl
            simp at hl
            omega
  | setName n => simp only [step, setName]; split_ifs <;> exact h
  | setCwd d => simp only [step, setCwd]; split_ifs <;> exact h
  | setDoEStrategy i => simp only [step, setDoEStrategy]; split_ifs <;> exact h
  | setNameOfTrainingDataFile f => simp only [step, setNameOfTrainingDataFile]; split_ifs <;> exact h
  | setDimension d => simp only [step, setDimension]; split_ifs <;> exact h
  | setObjectiveFunction f n file =>
    simp only [step, setObjectiveFunction]
    repeat' split
    all_goals exact h
  | addConstraint f e file =>
    simp only [step, addConstraint]
    repeat' split
    all_goals exact h
  | setDoEOn n => exact h
  | setMaxEvaluations n => exact h

theorem API.calls_boxSet {isDir : Str → Bool} {hist : List (Call K F)} {s : Study K F}
    (h : calls isDir new hist = some s) : s.boxSet = true → s.lb ≠ [] :=
  calls_inv (fun s => s.boxSet = true → s.lb ≠ []) (fun s c hs _ => step_boxSet isDir s c hs) hist new s
    (fun h => by simp [new] at h) h

/-! ## Completion -/

theorem API.generateSamples_length {E : Env K F} {s : Study K F} {S : Mat K}
    (h : generateSamples E s = .ok S) : s.lb.length = s.dimension := by
  obtain ⟨A, hA1, hA2⟩ := resize_ok (isMat_empty (K := K)) s.samplesForDoE s.dimension
  unfold generateSamples at h
  by_contra hne
  split_ifs at h
  · rw [bind_eq hA1 rfl, (C42_rejects hA2 s.lb s.ub E.u E.perm (Or.inl hne)).2] at h
    cases h
  · rw [bind_eq hA1 rfl, (C42_rejects hA2 s.lb s.ub E.u E.perm (Or.inl hne)).1] at h
    cases h

/-- The samples lie in the box. -/
theorem API.generateSamples_box {E : Env K F} {s : Study K F} {S : Mat K}
    (h : generateSamples E s = .ok S) (hord : Ordered s) (h0 : 0 < s.dimension)
    (hu : ∀ c r, 0 ≤ E.u c r ∧ E.u c r < 1)
    (hp : ∀ c, (E.perm c).Perm (List.range s.samplesForDoE)) :
    ∃ G, IsMat S s.samplesForDoE s.dimension G ∧ ∀ i, i < s.samplesForDoE →
      InBox s.lb s.ub ((List.range s.dimension).map (G i)) := by
  obtain ⟨A, hA1, hA2⟩ := resize_ok (isMat_empty (K := K)) s.samplesForDoE s.dimension
  have key : s.lb.length = s.dimension → ∀ G, IsMat S s.samplesForDoE s.dimension G →
      (∀ c l h, s.lb[c]? = some l → s.ub[c]? = some h → ∀ i, i < s.samplesForDoE →
        l ≤ G i c ∧ G i c < h) →
      ∃ G, IsMat S s.samplesForDoE s.dimension G ∧ ∀ i, i < s.samplesForDoE →
      InBox s.lb s.ub ((List.range s.dimension).map (G i)) := by
    intro hl G h1 h2
    refine ⟨G, h1, fun i hi => ⟨by simp [hl], by simp [← hord.1, hl], ?_⟩⟩
    intro c l u v hc1 hc2 hc3
    have := h2 c l u hc1 hc2 i hi
    have hv : v = G i c := by
      obtain ⟨hlt, rfl⟩ := List.getElem?_eq_some_iff.1 hc3
      simp
    rw [hv]
    exact ⟨this.1, this.2.le⟩
  have hl := generateSamples_length h
  unfold generateSamples at h
  split_ifs at h
  · rw [bind_eq hA1 rfl] at h
    obtain ⟨B, G, g1, g2, g3⟩ := C42_random hA2 (lb := s.lb) (ub := s.ub)
      ⟨h0, hl, by rw [← hord.1, hl], hord.2⟩ hu
    rw [g1] at h
    cases h
    exact key hl G g2 g3
  · rw [bind_eq hA1 rfl] at h
    obtain ⟨B, G, g1, g2, g3⟩ := C42_lhs hA2 (lb := s.lb) (ub := s.ub)
      ⟨h0, hl, by rw [← hord.1, hl], hord.2⟩ hu hp
    rw [g1] at h
    cases h
    exact key hl G g2 fun c l h h1 h2 => (g3 c l h h1 h2).2

/-- **C41, on completion**: a study configured by any history of calls, whose initial sampling has
ended without an error, has evaluated the objective function at as many points as requested, all of
them within the bounds, and the training data file holds every one of them with its own function
value. -/
theorem C41_complete {isDir : Str → Bool} {hist : List (Call K F)} {E : Env K F} {s : Study K F}
    {fn : F} {fs : Files} {ev : List (Event K)} (hs : calls isDir new hist = some s)
    (hu : ∀ c r, 0 ≤ E.u c r ∧ E.u c r < 1)
    (hp : ∀ c, (E.perm c).Perm (List.range s.samplesForDoE))
    (hfn : s.objFn = some fn) (hdoe : s.startWithDoE = true)
    (hrun : runDoE isDir E s = (ev, .ok ())) :
    (points ev).length = s.samplesForDoE ∧ (∀ x ∈ points ev, InBox s.lb s.ub x) ∧
      (s.file ∉ s.constraintFiles → ∃ rows, Samples (E.eval fn) (points ev) rows ∧
        files fs ev s.file = some (csv rows)) ∧
      (s.constraintFiles.Nodup → ∀ j g file, j < s.numberOfConstraints →
        s.constraintFns[j]? = some g → s.constraintFiles[j]? = some file →
        constraintPoints j ev = points ev ∧ ∃ rows, Samples (E.eval g) (points ev) rows ∧
          files fs ev file = some (csv rows)) := by
  have hperf : performDoE E s = (ev, .ok ()) := by
    unfold runDoE at hrun
    split at hrun
    · simp at hrun
    · rw [hdoe] at hrun
      split_ifs at hrun
      all_goals first
        | exact hrun
        | contradiction
        | (simp at hrun)
  have hbs : s.boxSet = true := by
    unfold runDoE checkSettings at hrun
    by_contra hb
    simp only [Bool.not_eq_true] at hb
    rw [hb] at hrun
    split_ifs at hrun
    all_goals first
      | contradiction
      | (simp at hrun)
  unfold performDoE at hperf
  cases hS : generateSamples E s with
  | error e => rw [hS] at hperf; simp at hperf
  | ok S =>
    have hdim : 0 < s.dimension := by
      rw [← generateSamples_length hS]
      exact List.length_pos_iff.2 (calls_boxSet hs hbs)
    rw [hS, hfn] at hperf
    dsimp only at hperf
    split_ifs at hperf with h0
    · simp at hperf
    obtain ⟨G, hG, hbox⟩ := generateSamples_box hS (calls_ordered hs) hdim hu hp
    obtain ⟨xs, h1, h1', h2⟩ := objectiveLoop_events E fn s.file S (valueOf E fn)
      (fun x v h => valueOf_ok h) s.samplesForDoE 0 Mat.empty [] (hasRows_empty _)
      (by rw [hG.1]; omega) (by rw [hG.2.2.1, hG.1, hG.2.1])
    have hpts := blocks_points (valueOf E fn) s.file xs []
    rcases h2 with ⟨h2, hlen⟩ | ⟨x, -, -, -, h2⟩
    swap
    · rw [h2] at hperf; simp at hperf
    rw [h2] at hperf
    dsimp only at hperf
    obtain ⟨hev, hres⟩ := Prod.mk.inj hperf
    have hcon := constraintsDoE_events E s S
    have hp : points ev = xs := by
      rw [← hev, points_append, hpts, points_nil fun e he => (hcon e he).no_point, List.append_nil]
    have hxs : xs = (List.range s.samplesForDoE).map (fun p => (List.range s.dimension).map (G p)) := by
      refine List.ext_getElem (by simp [hlen]) fun i hi1 hi2 => ?_
      have h3 := h1' i hi1
      have hi : i < s.samplesForDoE := by simpa using hi2
      rw [getRow_ok hG (rowIndex := ((0 + i : Nat) : Int)) (p := i) hi (Or.inl (by simp))] at h3
      have h4 := Except.ok.inj h3
      simp only [List.getElem_map, List.getElem_range]
      rw [h4]
      simp [List.getD, hi1]
    refine ⟨by rw [hp, hlen], ?_, ?_, ?_⟩
    · rw [hp, hxs]
      intro x hx
      obtain ⟨i, hi, rfl⟩ := List.mem_map.1 hx
      exact hbox i (by simpa using hi)
    · intro hfile
      refine ⟨xs.map fun x => x ++ [valueOf E fn x], by rw [hp]; exact samples_of h1, ?_⟩
      rw [← hev, files_append, files_other fun e he => (hcon e he).not_touches fun j _ h =>
        hfile (List.mem_of_getElem? h)]
      rcases List.eq_nil_or_concat xs with rfl | ⟨xs', x, rfl⟩
      · simp at hlen; omega
      · rw [List.concat_eq_append, blocks_whole]
        simp
    · intro hnd j g file hj hg hfile
      have hnum : s.numberOfConstraints > 0 := by omega
      unfold constraintsDoE at hres hev
      rw [if_pos hnum] at hres hev
      split_ifs at hres hev with hne
      have hloop := constraintLoop_ok E s hG (by omega) hnd s.numberOfConstraints 0
        (files fs (blocks (valueOf E fn) s.file [] xs)) _ (Prod.ext rfl hres) j g file
        (by omega) (by omega) hg hfile
      rw [hp, hxs, ← hev, constraintPoints_append]
      have hz : constraintPoints j (blocks (valueOf E fn) s.file [] xs) = [] :=
        blocks_constraintPoints _ _ _ _ _
      rw [hz, List.nil_append, files_append]
      exact hloop

/-- A configured study whose functions deliver values and whose files can be opened completes the
initial sampling. -/
theorem C41_total {isDir : Str → Bool} {E : Env K F} {s : Study K F} {fn : F}
    (hu : ∀ c r, 0 ≤ E.u c r ∧ E.u c r < 1)
    (hp : ∀ c, (E.perm c).Perm (List.range s.samplesForDoE))
    (hset : 0 < s.evaluations ∧ s.dimSet = true ∧ s.boxSet = true ∧ s.objSet = true)
    (hcwd : s.cwd ≠ [] ∧ isDir s.cwd = true) (hdoe : 0 < s.samplesForDoE)
    (hstr : s.doe = "random".toList ∨ s.doe = "lhs".toList)
    (hbox : ValidBox s.dimension s.lb s.ub) (hfn : s.objFn = some fn)
    (hcon : s.constraintFns.length = s.numberOfConstraints ∧
      s.constraintFiles.length = s.numberOfConstraints)
    (hval : ∀ g ∈ fn :: s.constraintFns, ∀ x : List K, x.length = s.dimension → ∃ v, E.eval g x = .ok v)
    (hopen : ∀ file ∈ s.file :: s.constraintFiles, E.canOpen file = true) :
    (runDoE isDir E s).2 = .ok () := by
  obtain ⟨A, hA1, hA2⟩ := resize_ok (isMat_empty (K := K)) s.samplesForDoE s.dimension
  have hgen : ∃ S, generateSamples E s = .ok S := by
    unfold generateSamples
    rcases hstr with h | h
    · rw [if_pos h, bind_eq hA1 rfl]
      obtain ⟨B, G, g1, -⟩ := C42_random hA2 hbox hu
      exact ⟨B, g1⟩
    · rw [if_neg (by rw [h]; decide), if_pos h, bind_eq hA1 rfl]
      obtain ⟨B, G, g1, -⟩ := C42_lhs hA2 hbox hu hp
      exact ⟨B, g1⟩
  obtain ⟨S, hS⟩ := hgen
  have hperf : (performDoE E s).2 = .ok () := by
    unfold performDoE
    rw [hS, hfn]
    dsimp only
    rw [if_neg (by omega)]
    obtain ⟨G, hG⟩ := generateSamples_size hS
    obtain ⟨xs, h1, h1', h2⟩ := objectiveLoop_events E fn s.file S (valueOf E fn)
      (fun x v h => valueOf_ok h) s.samplesForDoE 0 Mat.empty [] (hasRows_empty _)
      (by rw [hG.1]; omega) (by rw [hG.2.2.1, hG.1, hG.2.1])
    rcases h2 with ⟨h2, -⟩ | ⟨x, -, hx, h3 | h3, h2⟩
    · rw [h2]
      dsimp only
      unfold constraintsDoE
      split_ifs with h4 h5
      · rw [h5] at hcon
        simp at hcon
        omega
      · exact constraintLoop_total E s hG hdoe (fun g hg => hval g (by simp [hg]))
          (fun f hf => hopen f (by simp [hf])) hcon.1 hcon.2 _ _ (by omega)
      · rfl
    · exfalso
      obtain ⟨e, he⟩ := h3
      obtain ⟨v, hv⟩ := hval fn (by simp) x (by rw [hx, hG.2.1])
      rw [he] at hv
      cases hv
    · rw [hopen s.file (by simp)] at h3
      cases h3
  unfold runDoE checkSettings
  rw [if_neg (by omega), if_neg (by simp [hset.2.1]), if_neg (by simp [hset.2.2.1]),
    if_neg (by simp [hset.2.2.2])]
  dsimp only
  rw [if_neg (by simp [hcwd.1, hcwd.2])]
  split_ifs
  · omega
  · exact hperf
  · rfl

/-! ## A run -/

/-- Two samples of a function of one variable, and a constraint. -/
def C41_calls : List (Call ℚ Bool) :=
  [.setDimension 1, .setObjectiveFunction (some false) "f".toList "f.csv".toList,
    .setBoxConstraints [0] [1], .addConstraint (some true) "g > 1".toList "g.csv".toList,
    .setCwd "run".toList, .setMaxEvaluations 10, .setDoEOn 2]

def C41_env : Env ℚ Bool where
  eval f x := .ok (if f then x.sum + 1 else x.sum * 3)
  canOpen _ := true
  u _ r := if r = 0 then 1 / 4 else 1 / 2
  perm _ := [0, 1]

def C41_study : Study ℚ Bool := (calls (fun _ => true) new C41_calls).getD new

set_option maxRecDepth 100000 in
theorem C41_study_reached : calls (fun _ => true) new C41_calls = some C41_study := by decide +kernel

set_option maxRecDepth 100000 in
/-- The run completes, and leaves these files. -/
example : (runDoE (fun _ => true) C41_env C41_study).2 = .ok () ∧
    files (fun _ => none) (runDoE (fun _ => true) C41_env C41_study).1 "f.csv".toList =
      some "0.250000,0.750000\n0.500000,1.500000\n".toList ∧
    files (fun _ => none) (runDoE (fun _ => true) C41_env C41_study).1 "g.csv".toList =
      some "0.250000,1.250000\n0.500000,1.500000\n".toList := by decide +kernel

set_option maxRecDepth 100000 in
/-- The settings of `C41_complete` and `C41_total`. -/
example : C41_study.objFn = some false ∧ C41_study.startWithDoE = true ∧
    C41_study.file ∉ C41_study.constraintFiles ∧ C41_study.constraintFiles.Nodup ∧
    C41_study.lb = [0] ∧ C41_study.ub = [1] ∧ C41_study.doe = "random".toList ∧
    C41_study.numberOfConstraints = 1 := by decide +kernel

set_option maxRecDepth 100000 in
/-- **C41 fails** in general: after the first 22 events the second sample has been evaluated and the
file has just been truncated; the first sample, saved before, is lost. -/
theorem C41_false : ¬ C41_full ℚ Bool := by
  intro h
  have := h (fun _ => true) C41_calls C41_env C41_study false (fun _ => none)
    ((runDoE (fun _ => true) C41_env C41_study).1.take 22)
    ((runDoE (fun _ => true) C41_env C41_study).1.drop 22) C41_study_reached (by decide +kernel)
    (by decide +kernel) (List.take_append_drop _ _).symm
  have hfile : files (fun _ => none) ((runDoE (fun _ => true) C41_env C41_study).1.take 22)
      C41_study.file = some [] := by decide +kernel
  have hlen : (points ((runDoE (fun _ => true) C41_env C41_study).1.take 22)).length = 2 := by
    decide +kernel
  have key : ∀ k, 0 < k → ¬ HoldsFirst (fun _ => none)
      ((runDoE (fun _ => true) C41_env C41_study).1.take 22) (C41_env.eval false) C41_study.file k := by
    rintro k hk ⟨h1, rows, h2, h3⟩
    rw [hfile, if_neg (by omega)] at h3
    have hr := h2.length_eq
    rw [List.length_take, hlen] at hr
    rcases rows with _ | ⟨r, rows⟩
    · simp at hr; omega
    · exact csv_cons r rows (Option.some.inj h3).symm
  rw [HoldsSaved, hlen] at this
  rcases this with h | ⟨-, h⟩
  · exact key 2 (by omega) h
  · exact key 1 (by omega) h

end Rodeo
