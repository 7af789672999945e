import Verif.Lemmas.Surrogates
import Verif.Props.EGO

set_option linter.unusedSectionVars false

/-! # Lemmas on optimizations with surrogate models and training data files -/

namespace Rodeo
open Spec Text EGO Mat

namespace Campaign

theorem mem_modelled {cs : List (Constraint ℝ)} {key : Option Nat} :
    key ∈ modelled cs ↔ ∃ k c D, key = some k ∧ cs[k]? = some c ∧ c.source = .data D := by
  unfold modelled
  rw [List.mem_filterMap]
  constructor
  · rintro ⟨⟨c, k⟩, h1, h2⟩
    rw [List.mem_zipIdx_iff_getElem?] at h1
    cases hs : c.source with
    | user f => simp [hs] at h2
    | data D =>
      simp only [hs, Option.some.injEq] at h2
      exact ⟨k, c, D, h2.symm, h1, hs⟩
  · rintro ⟨k, c, D, rfl, h1, h2⟩
    exact ⟨(c, k), List.mem_zipIdx_iff_getElem?.2 h1, by simp [h2]⟩

end Campaign

theorem samplesOf_append (key : Option Nat) (l l' : List (Option Nat × List ℝ)) :
    samplesOf key (l ++ l') = samplesOf key l ++ samplesOf key l' := by
  unfold samplesOf; rw [List.filterMap_append]

theorem samplesOf_self (key : Option Nat) (x : List ℝ) : samplesOf key [(key, x)] = [x] := by
  simp [samplesOf]

theorem samplesOf_ne {key key' : Option Nat} (h : key' ≠ key) (x : List ℝ) :
    samplesOf key [(key', x)] = [] := by
  simp [samplesOf, h]

namespace Spec

/-- One function and its training data file. -/
structure KeyHeld (dim : Nat) (b : Bounds ℝ) (start : TrainingFile) (samples : List (List ℝ))
    (s : SurrogateFn ℝ) (file : Option Str) (ready : Prop) : Prop where
  table : ∃ text n G, file = some text ∧ start.text <+: text ∧ text.getLast? = some '\n' ∧
    DataFile (some text) n dim G ∧ Collected dim samples start.rows start.table n G ∧
    (ready → Serves s text n dim b G)
  startable : Startable s dim b

/-- All functions and files; the models of the functions in `ready` are initialised. -/
structure Held (E : CampaignEnv ℝ) (m0 : Models ℝ) (start : Option Nat → TrainingFile)
    (l : List (Option Nat × List ℝ)) (ready : Option Nat → Prop) (m : Models ℝ) : Prop where
  same : ∀ key, SameFn (m0.fn key) (m.fn key)
  rest : ∀ key, ¬ HasModel E key → m.fn key = m0.fn key
  others : ∀ name, (∀ key, HasModel E key → name ≠ (m0.fn key).fileName) → m.files name = m0.files name
  held : ∀ key, HasModel E key → KeyHeld E.base.setup.problem.dimension (boundsOf E) (start key)
    (samplesOf key l) (m.fn key) (m.file key) (ready key)

theorem SameFn.trans {a b c : SurrogateFn ℝ} (h1 : SameFn a b) (h2 : SameFn b c) : SameFn a c :=
  ⟨h2.name.trans h1.name, h2.fileName.trans h1.fileName, h2.kind.trans h1.kind, h2.dim.trans h1.dim,
    h2.box.trans h1.box, h2.boundsSet.trans h1.boundsSet, h2.definitionSet.trans h1.definitionSet,
    h2.iterations.trans h1.iterations⟩

theorem Startable.of_serves {s : SurrogateFn ℝ} {text : Str} {n dim : Nat} {b : Bounds ℝ}
    {G : Nat → Nat → ℝ} (h : Serves s text n dim b G) : Startable s dim b := .used h

end Spec

theorem properBox_of_valid {E : CampaignEnv ℝ}
    (h : ValidBox E.base.setup.problem.dimension E.base.setup.problem.lb E.base.setup.problem.ub) :
    ProperBox (boundsOf E) E.base.setup.problem.dimension := by
  obtain ⟨h0, h1, h2, h3⟩ := h
  refine ⟨rfl, rfl, h1, h2, ?_⟩
  intro j hj
  have e1 : E.base.setup.problem.lb[j]? = some (vecFun E.base.setup.problem.lb j) := by
    simp [vecFun, List.getD, h1, hj]
  have e2 : E.base.setup.problem.ub[j]? = some (vecFun E.base.setup.problem.ub j) := by
    simp [vecFun, List.getD, h2, hj]
  exact h3 j _ _ e1 e2

theorem andThen_fst {σ : Type} {P : σ → Prop} {p : σ × Res Unit} {f : σ → σ × Res Unit} (h : P p.1)
    (hf : ∀ s, P s → P (f s).1) : P (andThen p f).1 := by
  obtain ⟨s, r⟩ := p
  cases r with
  | ok u => exact hf s h
  | error e => exact h

theorem swallow_fst {σ : Type} (p : σ × Res Unit) : (swallow p).1 = p.1 := by
  obtain ⟨s, r⟩ := p
  cases r <;> rfl

namespace Campaign

variable {E : CampaignEnv ℝ} {names : List Str} {m0 : Models ℝ} {start : Option Nat → TrainingFile}

/-- One function is replaced, and the content of its file. -/
theorem held_update (hP : ProperCampaign E names m0 start) {l l' : List (Option Nat × List ℝ)}
    {ready ready' : Option Nat → Prop} {m : Models ℝ} (h : Held E m0 start l ready m) {key : Option Nat}
    (hk : HasModel E key) {s : SurrogateFn ℝ} (hs : SameFn (m.fn key) s) {file : Option Str}
    (hkey : KeyHeld E.base.setup.problem.dimension (boundsOf E) (start key) (samplesOf key l') s file
      (ready' key))
    (hl : ∀ k, k ≠ key → samplesOf k l' = samplesOf k l) (hr : ∀ k, k ≠ key → ready' k → ready k) :
    Held E m0 start l' ready' { m.set key s with files := m.files.put (m.fn key).fileName file } := by
  have hf : ∀ k, ({ m.set key s with files := m.files.put (m.fn key).fileName file } : Models ℝ).fn k =
      if k = key then s else m.fn k := by
    intro k
    show Function.update m.fn key s k = _
    rw [Function.update_apply]
  have hname : ∀ k, (m.fn k).fileName = (m0.fn k).fileName := fun k => (h.same k).fileName
  refine ⟨?_, ?_, ?_, ?_⟩
  · intro k
    rw [hf]
    split_ifs with e
    · subst e; exact (h.same k).trans hs
    · exact h.same k
  · intro k hn
    rw [hf, if_neg (by rintro rfl; exact hn hk)]
    exact h.rest k hn
  · intro name hn
    show (m.files.put (m.fn key).fileName file) name = _
    unfold Files.put
    rw [if_neg (by rw [hname]; exact hn key hk)]
    exact h.others name hn
  · intro k hk'
    unfold Models.file
    rw [hf]
    show KeyHeld _ _ _ _ _ (m.files.put (m.fn key).fileName file _) _
    unfold Files.put
    by_cases e : k = key
    · subst e
      rw [if_pos rfl, if_pos hs.fileName]
      exact hkey
    · rw [if_neg e, if_neg (fun e' => e (hP.distinct k key hk' hk (by rw [← hname, ← hname]; exact e')))]
      have := h.held k hk'
      rw [hl k e]
      obtain ⟨⟨text, n, G, t1, t2, t3, t4, t5, t6⟩, t7⟩ := this
      exact ⟨⟨text, n, G, t1, t2, t3, t4, t5, fun h => t6 (hr k e h)⟩, t7⟩

theorem put_self (fs : Files) (name : Str) : fs.put name (fs name) = fs := by
  funext k
  unfold Files.put
  split_ifs with h
  · rw [h]
  · rfl

theorem held_update' (hP : ProperCampaign E names m0 start) {l : List (Option Nat × List ℝ)}
    {ready ready' : Option Nat → Prop} {m : Models ℝ} (h : Held E m0 start l ready m) {key : Option Nat}
    (hk : HasModel E key) {s : SurrogateFn ℝ} (hs : SameFn (m.fn key) s)
    (hkey : KeyHeld E.base.setup.problem.dimension (boundsOf E) (start key) (samplesOf key l) s (m.file key)
      (ready' key)) (hr : ∀ k, k ≠ key → ready' k → ready k) :
    Held E m0 start l ready' (m.set key s) := by
  have := held_update hP h hk hs hkey (fun _ _ => rfl) hr
  rw [show m.file key = m.files (m.fn key).fileName from rfl, put_self] at this
  exact this

theorem settings_of_held (hP : ProperCampaign E names m0 start) {l : List (Option Nat × List ℝ)}
    {ready : Option Nat → Prop} {m : Models ℝ} (h : Held E m0 start l ready m) {key : Option Nat}
    (hk : HasModel E key) : FnSettings (m.fn key) E.base.setup.problem.dimension (boundsOf E) :=
  (hP.functions key hk).1.of_same (h.same key)

/-- `initializeSurrogate` of one function. -/
theorem held_init (hP : ProperCampaign E names m0 start) {l : List (Option Nat × List ℝ)}
    {ready : Option Nat → Prop} {m : Models ℝ} (h : Held E m0 start l ready m) {key : Option Nat}
    (hk : HasModel E key) {perm permL : Nat → List Nat} (hp : ∀ m, (perm m).Perm (List.range m))
    (hpL : ∀ m, (permL m).Perm (List.range m)) :
    ∃ m', m.init E.fns key perm permL = (m', .ok ()) ∧
      Held E m0 start l (fun k => k = key ∨ ready k) m' := by
  obtain ⟨⟨text, n, G, t1, t2, t3, t4, t5, -⟩, t7⟩ := h.held key hk
  obtain ⟨s', e, hs, hsame⟩ := initializeSurrogate_ok (settings_of_held hP h hk) (properBox_of_valid hP.box)
    hP.box.1 t7 t4 hp hpL
  refine ⟨m.set key s', ?_, held_update' hP h hk hsame ⟨⟨text, n, G, t1, t2, t3, t4, t5, fun _ => hs⟩,
    .of_serves hs⟩ (fun k hk h => h.resolve_left hk)⟩
  unfold Models.init
  rw [t1, hP.fns]
  dsimp only
  rw [e]

theorem _root_.Rodeo.Spec.Held.mono {l : List (Option Nat × List ℝ)} {ready ready' : Option Nat → Prop} {m : Models ℝ}
    (h : Held E m0 start l ready m) (hr : ∀ k, HasModel E k → ready' k → ready k) :
    Held E m0 start l ready' m :=
  ⟨h.same, h.rest, h.others, fun k hk => by
    obtain ⟨⟨text, n, G, t1, t2, t3, t4, t5, t6⟩, t7⟩ := h.held k hk
    exact ⟨⟨text, n, G, t1, t2, t3, t4, t5, fun h => t6 (hr k hk h)⟩, t7⟩⟩

theorem held_initList (hP : ProperCampaign E names m0 start) (i : Nat) {l : List (Option Nat × List ℝ)} :
    ∀ (keys : List (Option Nat)) {ready : Option Nat → Prop} {m : Models ℝ}, (∀ k ∈ keys, HasModel E k) →
    Held E m0 start l ready m →
    ∃ m', initList E i keys m = (m', .ok ()) ∧ Held E m0 start l (fun k => k ∈ keys ∨ ready k) m' := by
  intro keys
  induction keys with
  | nil =>
    intro ready m _ h
    exact ⟨m, rfl, by simpa using h⟩
  | cons key keys ih =>
    intro ready m hk h
    obtain ⟨m1, e1, h1⟩ := held_init hP h (hk key (by simp)) (fun n => (hP.shuffles i key n).1)
      (fun n => (hP.shuffles i key n).2.1)
    obtain ⟨m2, e2, h2⟩ := ih (fun k hk' => hk k (by simp [hk'])) h1
    refine ⟨m2, andThen_ok e1 e2, ?_⟩
    refine h2.mono fun k _ hk => ?_
    rw [List.mem_cons] at hk
    rcases hk with (hk | hk) | hk
    · exact Or.inr (Or.inl hk)
    · exact Or.inl hk
    · exact Or.inr (Or.inr hk)

/-- All models are initialised. -/
def All : Option Nat → Prop := fun _ => True

theorem mem_keys {key : Option Nat} :
    key ∈ none :: modelled E.base.setup.problem.constraints ↔ HasModel E key := by
  rw [List.mem_cons, mem_modelled]
  rfl

/-- `initializeSurrogates`. -/
theorem held_initialize (hP : ProperCampaign E names m0 start) (i : Nat) {l : List (Option Nat × List ℝ)}
    {ready : Option Nat → Prop} {m : Models ℝ} (h : Held E m0 start l ready m) :
    ∃ m', initializeSurrogates E i m = (m', .ok ()) ∧ Held E m0 start l All m' := by
  obtain ⟨m', e, h'⟩ := held_initList hP i _ (fun k hk => mem_keys.1 hk) h
  exact ⟨m', e, h'.mono fun k hk _ => Or.inl (mem_keys.2 hk)⟩

/-- `trainSurrogate` of one function. -/
theorem held_train (hP : ProperCampaign E names m0 start) {l : List (Option Nat × List ℝ)}
    {m : Models ℝ} (h : Held E m0 start l All m) {key : Option Nat} (hk : HasModel E key) (i : Nat)
    (schedule : List Nat) : Held E m0 start l All (m.train E.fns key (E.draws i key) schedule).1 := by
  obtain ⟨⟨text, n, G, t1, t2, t3, t4, t5, t6⟩, -⟩ := h.held key hk
  obtain ⟨hs, hsame⟩ := trainSurrogate_serves (t6 trivial) (hP.draws i key) schedule
  unfold Models.train
  rw [hP.fns]
  exact held_update' hP h hk hsame ⟨⟨text, n, G, t1, t2, t3, t4, t5, fun _ => hs⟩, .of_serves hs⟩
    (fun _ _ _ => trivial)

theorem held_trainList (hP : ProperCampaign E names m0 start) (i : Nat) {l : List (Option Nat × List ℝ)} :
    ∀ (keys : List (Option Nat)) {m : Models ℝ}, (∀ k ∈ keys, HasModel E k) → Held E m0 start l All m →
    Held E m0 start l All (trainList E i keys m).1 := by
  intro keys
  induction keys with
  | nil => intro m _ h; exact h
  | cons key keys ih =>
    intro m hk h
    have h1 := held_train hP h (hk key (by simp)) i (E.schedule i key)
    unfold trainList
    refine andThen_fst (P := Held E m0 start l All) (by rw [swallow_fst]; exact h1)
      (fun m hm => ih (fun k hk' => hk k (by simp [hk'])) hm)

theorem held_trainSurrogates (hP : ProperCampaign E names m0 start) (i : Nat)
    {l : List (Option Nat × List ℝ)} {m : Models ℝ} (h : Held E m0 start l All m) :
    Held E m0 start l All (trainSurrogates E i m).1 := by
  have h1 := held_train hP h (key := none) (Or.inl rfl) i (E.schedule i none)
  unfold trainSurrogates
  exact andThen_fst (P := Held E m0 start l All) h1
    (fun m hm => held_trainList hP i _ (fun k hk => mem_keys.1 (List.mem_cons_of_mem _ hk)) hm)

/-- A sample is added. -/
theorem held_add (hP : ProperCampaign E names m0 start) {l : List (Option Nat × List ℝ)}
    {m : Models ℝ} (h : Held E m0 start l All m) {key : Option Nat} (hk : HasModel E key) (i : Nat)
    (refused : Err) {x : List ℝ} (hx : x.length = E.base.setup.problem.dimension + 1) :
    ∃ m', m.add E.fns refused key x (E.permAdd i key) (E.permAddL i key) = (m', .ok ()) ∧
      Held E m0 start (l ++ [(key, x)]) All m' := by
  obtain ⟨⟨text, n, G, t1, t2, t3, t4, t5, t6⟩, -⟩ := h.held key hk
  obtain ⟨s', text', n2, G2, e, hs, hsame, a1, a2, a3⟩ := addSample_ok (settings_of_held hP h hk)
    (properBox_of_valid hP.box) (t6 trivial) t3 t5 hx (fun n => (hP.shuffles i key n).2.2.1)
    (fun n => (hP.shuffles i key n).2.2.2) refused
  refine ⟨{ m.set key s' with files := m.files.put (m.fn key).fileName (some text') }, ?_, ?_⟩
  · unfold Models.add
    rw [t1, hP.fns]
    dsimp only
    rw [e]
  · refine held_update hP h hk hsame ⟨⟨text', n2, G2, rfl, t2.trans a2, a1, hs.predicts.1, ?_, fun _ => hs⟩,
      .of_serves hs⟩ ?_ (fun _ _ _ => trivial)
    · rw [samplesOf_append, samplesOf_self]; exact a3
    · intro k hk
      rw [samplesOf_append, samplesOf_ne (Ne.symm hk), List.append_nil]

/-- Training: either it succeeds, or the training of a surrogate model throws. -/
theorem held_trainStep (hP : ProperCampaign E names m0 start) {l : List (Option Nat × List ℝ)}
    {m : Models ℝ} (h : Held E m0 start l All m) (s : EGOState ℝ) :
    ∃ m', Held E m0 start l All m' ∧
      (trainStep E (s, m) = (({ s with trained := s.trained ++ trainedAt E.base s.iteration }, m'), .ok ()) ∨
        ∃ m1 e, s.iteration % E.base.howOften = 1 ∧ Held E m0 start l All m1 ∧
          trainSurrogates E s.iteration m1 = (m', .error e) ∧
          trainStep E (s, m) =
            (({ s with trained := s.trained ++ trainedAt E.base s.iteration }, m'), .error e)) := by
  unfold trainStep
  rw [if_neg hP.howOften]
  dsimp only
  unfold trainedAt
  by_cases hm : s.iteration % E.base.howOften = 1
  · rw [if_pos hm, if_pos hm]
    obtain ⟨m1, e1, h1⟩ := held_initialize hP s.iteration h
    have h2 := held_trainSurrogates hP s.iteration h1
    unfold CStep.onModels
    dsimp only
    rw [andThen_ok e1 rfl]
    cases e2 : trainSurrogates E s.iteration m1 with
    | mk m2 r =>
      rw [e2] at h2
      refine ⟨m2, h2, ?_⟩
      cases r with
      | ok u => exact Or.inl rfl
      | error e => exact Or.inr ⟨m1, e, hm, h1, e2, rfl⟩
  · rw [if_neg hm, if_neg hm]
    exact ⟨m, h, Or.inl (by simp)⟩

/-- The sample of the objective function. -/
theorem held_dataStep (hP : ProperCampaign E names m0 start) {l : List (Option Nat × List ℝ)}
    {m : Models ℝ} (h : Held E m0 start l All m) {s : EGOState ℝ}
    (hp : s.current.params.length = E.base.setup.problem.dimension)
    (hd : s.current.dimension = E.base.setup.problem.dimension) :
    ∃ m', dataStep E (s, m) =
        (({ s with samples := s.samples ++ [(none, s.current.params ++ [s.current.trueValue])] }, m'), .ok ()) ∧
      Held E m0 start (l ++ [(none, s.current.params ++ [s.current.trueValue])]) All m' := by
  have e : s.current.sampleObjective = .ok (s.current.params ++ [s.current.trueValue]) := by
    have := Design.startSample_ok (d := s.current) (hp.trans hd.symm) 0 s.current.trueValue
    rw [Nat.add_zero] at this
    exact this
  obtain ⟨m', e', h'⟩ := held_add hP h (key := none) (Or.inl rfl) s.iteration .runtimeError
    (x := s.current.params ++ [s.current.trueValue]) (by simp [hp])
  refine ⟨m', ?_, h'⟩
  unfold dataStep CStep.onModels
  dsimp only
  rw [e]
  dsimp only
  rw [e']

/-- The samples of the constraints. -/
theorem held_constraintDataStep (hP : ProperCampaign E names m0 start) : ∀ (cs : List (Constraint ℝ))
    (k : Nat) (s : EGOState ℝ) (m : Models ℝ) (l : List (Option Nat × List ℝ)),
    s.current.params.length = E.base.setup.problem.dimension →
    s.current.dimension = E.base.setup.problem.dimension →
    s.current.constraintTrueValues.length = s.current.numberOfConstraints →
    (∀ (j : Nat) c, cs[j]? = some c → E.base.setup.problem.constraints[k + j]? = some c) →
    k + cs.length ≤ s.current.numberOfConstraints → Held E m0 start l All m →
    ∃ m', constraintDataStep E k cs (s, m) = (({ s with
      samples := s.samples ++ (cs.zipIdx k).flatMap (fun c => constraintSample c.1 c.2 s.current) }, m'),
      .ok ()) ∧
      Held E m0 start (l ++ (cs.zipIdx k).flatMap (fun c => constraintSample c.1 c.2 s.current)) All m' := by
  intro cs
  induction cs with
  | nil => intro k s m l _ _ _ _ _ h; exact ⟨m, by simp [constraintDataStep], by simpa using h⟩
  | cons c cs ih =>
    intro k s m l hp hd hv hid hlen h
    simp only [List.length_cons] at hlen
    have hc0 : E.base.setup.problem.constraints[k]? = some c := by simpa using hid 0 c rfl
    have hid0 : c.id = (k : Int) := (hP.constraints k c hc0).2.2.2
    obtain ⟨m1, e1, h1⟩ : ∃ m1, constraintData E k c (s, m) =
        (({ s with samples := s.samples ++ constraintSample c k s.current }, m1), .ok ()) ∧
        Held E m0 start (l ++ constraintSample c k s.current) All m1 := by
      unfold constraintData constraintSample
      cases hs : c.source with
      | user f => exact ⟨m, by simp, by simpa using h⟩
      | data A =>
        dsimp only
        rw [if_neg (by omega), hid0]
        have hlt : k < s.current.constraintTrueValues.length := by omega
        have e : s.current.sampleConstraint k =
            .ok (s.current.params ++ [s.current.constraintTrueValues.getD k 0]) := by
          unfold Design.sampleConstraint
          rw [if_neg (by omega), if_neg (by omega)]
          refine bind_eq (vat_ok_of_lt hlt) ?_
          have := Design.startSample_ok (d := s.current) (hp.trans hd.symm) 0
            (s.current.constraintTrueValues[k])
          rw [Nat.add_zero] at this
          rw [this]
          simp [List.getD, hlt]
        have e' : s.current.sampleConstraint (Int.toNat (k : Int)) =
            .ok (s.current.params ++ [s.current.constraintTrueValues.getD k 0]) := e
        obtain ⟨m', e'', h'⟩ := held_add hP h (key := some k) (Or.inr ⟨k, c, A, rfl, hc0, hs⟩) s.iteration .abort
          (x := s.current.params ++ [s.current.constraintTrueValues.getD k 0]) (by simp [hp])
        refine ⟨m', ?_, h'⟩
        rw [e']
        unfold CStep.onModels
        dsimp only
        rw [e'']
        rfl
    obtain ⟨m2, e2, h2⟩ := ih (k + 1) { s with samples := s.samples ++ constraintSample c k s.current } m1 _ hp hd
      hv (by
        intro j c' hj
        have := hid (j + 1) c' (by simpa using hj)
        rwa [show k + (j + 1) = k + 1 + j by omega] at this) (by
        show k + 1 + cs.length ≤ s.current.numberOfConstraints
        omega) h1
    refine ⟨m2, ?_, ?_⟩
    · unfold constraintDataStep CStep.then
      rw [andThen_ok e1 e2]
      simp only [List.zipIdx_cons, List.flatMap_cons, List.append_assoc]
    · simpa only [List.zipIdx_cons, List.flatMap_cons, List.append_assoc] using h2

end Campaign
end Rodeo
