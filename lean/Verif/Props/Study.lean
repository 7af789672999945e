import Verif.Spec.Study
import Verif.Lemmas.Bounds
import Verif.Props.DoE

/-! # C37, C38, C68, C69, C70: histories of calls of the C++ interface -/

set_option linter.unusedSectionVars false

namespace Rodeo
open Text Spec API

variable {K : Type} [Field K] [LinearOrder K] [IsStrictOrderedRing K] [FloorRing K]
variable {F : Type}

theorem API.calls_append (isDir : Str → Bool) (a b : List (Call K F)) (s : Study K F) :
    calls isDir s (a ++ b) = (calls isDir s a).bind fun s' => calls isDir s' b := by
  induction a generalizing s with
  | nil => rfl
  | cons c a ih =>
    simp only [List.cons_append, calls]
    split_ifs
    · rfl
    · exact ih _

/-- Induction over a history with a property of its calls. -/
theorem API.calls_inv' {isDir : Str → Bool} (Q : Call K F → Prop) (P : Study K F → Prop)
    (hstep : ∀ s c, Q c → P s → fatal (step isDir s c).2 = false → P (step isDir s c).1) :
    ∀ (hist : List (Call K F)) (s s' : Study K F), (∀ c ∈ hist, Q c) → P s →
      calls isDir s hist = some s' → P s' := by
  intro hist
  induction hist with
  | nil => intro s s' _ h e; cases e; exact h
  | cons c cs ih =>
    intro s s' hq h e
    unfold calls at e
    split_ifs at e with hf
    exact ih _ _ (fun d hd => hq d (by simp [hd])) (hstep s c (hq c (by simp)) h (by simpa using hf)) e

/-! ## C68: constraints -/

/-- The constraints stored in a study. -/
def API.Stored (l : List (F × Str × Parse.Expr K)) (s : Study K F) : Prop :=
  s.constraintFns = l.map (fun x => x.1) ∧ s.constraintFiles = l.map (fun x => x.2.1) ∧
    s.numberOfConstraints = l.length ∧ s.opt.numberOfConstraints = l.length ∧
    s.opt.constraints.map (fun c => (c.base.fn, c.base.file, (⟨c.base.name, c.inequality, c.value⟩ : Parse.Expr K))) = l ∧
    s.opt.constraints.map (fun c => c.id) = List.range l.length

theorem API.setParameterBounds_keeps {o o' : Objective K F} {b : Bounds K}
    (h : o.setParameterBounds b = .ok o') : o'.fn = o.fn ∧ o'.file = o.file ∧ o'.name = o.name := by
  unfold Objective.setParameterBounds at h
  split_ifs at h
  obtain rfl := Except.ok.inj h
  exact ⟨rfl, rfl, rfl⟩

theorem API.boundConstraints_map (b : Bounds K) (cs : List (Constraint K F)) :
    (boundConstraints b cs).1.map (fun c => (c.base.fn, c.base.file, (⟨c.base.name, c.inequality, c.value⟩ : Parse.Expr K))) =
      cs.map (fun c => (c.base.fn, c.base.file, (⟨c.base.name, c.inequality, c.value⟩ : Parse.Expr K))) ∧
    (boundConstraints b cs).1.map (fun c => c.id) = cs.map (fun c => c.id) := by
  induction cs with
  | nil => exact ⟨rfl, rfl⟩
  | cons c cs ih =>
    unfold boundConstraints
    split
    · exact ⟨rfl, rfl⟩
    · rename_i o ho
      have := setParameterBounds_keeps ho
      simp only [List.map_cons, this.1, this.2.1, this.2.2, ih.1, ih.2]
      exact ⟨trivial, trivial⟩

theorem API.opt_box_stored (o : Opt K F) (b : Bounds K) :
    (o.setBoxConstraints b).1.constraints.map (fun c => (c.base.fn, c.base.file, (⟨c.base.name, c.inequality, c.value⟩ : Parse.Expr K))) =
      o.constraints.map (fun c => (c.base.fn, c.base.file, (⟨c.base.name, c.inequality, c.value⟩ : Parse.Expr K))) ∧
    (o.setBoxConstraints b).1.constraints.map (fun c => c.id) = o.constraints.map (fun c => c.id) ∧
    (o.setBoxConstraints b).1.numberOfConstraints = o.numberOfConstraints := by
  unfold Opt.setBoxConstraints
  have hb := boundConstraints_map b o.constraints
  dsimp only
  repeat' split
  all_goals first
    | exact ⟨rfl, rfl, rfl⟩
    | exact ⟨hb.1, hb.2, rfl⟩

theorem API.step_stored (isDir : Str → Bool) (s : Study K F) (c : Call K F)
    (l : List (F × Str × Parse.Expr K)) (h : Stored l s) :
    Stored (l ++ (constraintOf c).toList) (step isDir s c).1 := by
  have h' : Stored (l ++ []) s := by rw [List.append_nil]; exact h
  cases c with
  | setBoxConstraints lb ub =>
    simp only [step, constraintOf, Option.toList]
    unfold setBoxConstraints
    split_ifs
    · exact h'
    · dsimp only
      split
      · exact h'
      · split
        · exact h'
        · rename_i b _
          obtain ⟨e1, e2, e3⟩ := opt_box_stored s.opt b
          rw [List.append_nil]
          split <;>
          · rename_i o ho
            rw [ho] at e1 e2 e3
            exact ⟨h.1, h.2.1, h.2.2.1, e3.trans h.2.2.2.1, e1.trans h.2.2.2.2.1, e2.trans h.2.2.2.2.2⟩
  | setName n => simp only [step, setName, constraintOf, Option.toList]; split_ifs <;> exact h'
  | setCwd d => simp only [step, setCwd, constraintOf, Option.toList]; split_ifs <;> exact h'
  | setDoEStrategy i => simp only [step, setDoEStrategy, constraintOf, Option.toList]; split_ifs <;> exact h'
  | setNameOfTrainingDataFile f =>
    simp only [step, setNameOfTrainingDataFile, constraintOf, Option.toList]; split_ifs <;> exact h'
  | setDimension d => simp only [step, setDimension, constraintOf, Option.toList]; split_ifs <;> exact h'
  | setObjectiveFunction f n file =>
    simp only [step, setObjectiveFunction, constraintOf, Option.toList]
    repeat' split
    all_goals exact h'
  | addConstraint f e file =>
    obtain ⟨h1, h2, h3, h4, h5, h6⟩ := h
    unfold step addConstraint constraintOf
    dsimp only
    cases f with
    | none =>
      dsimp only
      by_cases hf : file = []
      · rw [if_pos hf]; exact h'
      by_cases he : e = []
      · rw [if_neg hf, if_pos he]; exact h'
      · rw [if_neg hf, if_neg he]; exact h'
    | some f =>
      dsimp only
      by_cases hf : file = []
      · rw [if_pos hf, if_pos (Or.inl hf)]; exact h'
      by_cases he : e = []
      · rw [if_neg hf, if_pos he, if_pos (Or.inr he)]; exact h'
      simp only [hf, he, or_self, if_false]
      cases hp : (Parse.parseExpression e : Res (Parse.Expr K)) with
      | error e' => exact h'
      | ok ex =>
        dsimp only
        have key : Stored (l ++ (some (f, file, ex)).toList) ({ s with
            constraintFns := s.constraintFns ++ [f]
            constraintFiles := s.constraintFiles ++ [file]
            numberOfConstraints := s.numberOfConstraints + 1
            opt := { s.opt with
              constraints := s.opt.constraints ++ [⟨⟨f, ex.name, file, s.dimension, none⟩,
                ex.inequality, ex.value, s.numberOfConstraints⟩]
              numberOfConstraints := s.opt.numberOfConstraints + 1 } } : Study K F) := by
          refine ⟨by simp [h1], by simp [h2], by simp [h3], by simp [h4], ?_, ?_⟩
          · simp only [List.map_append, h5, List.map_cons, List.map_nil, Option.toList]
          · simp only [List.map_append, h6, List.map_cons, List.map_nil, Option.toList,
              List.length_append, List.length_cons, List.length_nil, List.range_succ, h3, Nat.zero_add]
        split_ifs <;> exact key
  | setDoEOn n => exact h'
  | setMaxEvaluations n => exact h'

/-- **C68**: whatever the history of calls, the functions, the files, the names, the kinds and the
values of the constraints in the study and in the optimizer are those of the well-formed
`addConstraint` calls, in order, and constraint number `j` has the ID `j`. -/
theorem C68_constraints {isDir : Str → Bool} {hist : List (Call K F)} {s : Study K F}
    (h : calls isDir new hist = some s) :
    s.constraintFns = (constraintsOf hist).map (fun x => x.1) ∧
    s.constraintFiles = (constraintsOf hist).map (fun x => x.2.1) ∧
    s.numberOfConstraints = (constraintsOf hist).length ∧
    s.opt.numberOfConstraints = (constraintsOf hist).length ∧
    s.opt.constraints.map (fun c => (c.base.fn, c.base.file,
      (⟨c.base.name, c.inequality, c.value⟩ : Parse.Expr K))) = constraintsOf hist ∧
    s.opt.constraints.map (fun c => c.id) = List.range (constraintsOf hist).length := by
  have gen : ∀ (hist : List (Call K F)) (s s' : Study K F) (l : List (F × Str × Parse.Expr K)),
      Stored l s → calls isDir s hist = some s' → Stored (l ++ constraintsOf hist) s' := by
    intro hist
    induction hist with
    | nil =>
      intro s s' l hl e
      cases e
      simpa [constraintsOf] using hl
    | cons c cs ih =>
      intro s s' l hl e
      unfold calls at e
      split_ifs at e with hf
      have := ih _ _ _ (step_stored isDir s c l hl) e
      have he : l ++ constraintsOf (c :: cs) = l ++ (constraintOf c).toList ++ constraintsOf cs := by
        unfold constraintsOf
        rw [List.filterMap_cons]
        cases constraintOf c <;> simp
      rw [he]
      exact this
  have := gen hist new s [] ⟨rfl, rfl, rfl, rfl, rfl, rfl⟩ h
  simpa [Stored] using this

/-- In the run of `C41_calls` one constraint is stored. -/
example : constraintsOf C41_calls = [(true, "g.csv".toList, ⟨"g".toList, ">".toList, 1⟩)] := by
  decide +kernel

/-! ## C37: the file of the training data -/

/-- The full claim: if the last call names the file `f`, the initial sampling writes the samples to
`f`. -/
def C37_full (K F : Type) [Field K] [LinearOrder K] [IsStrictOrderedRing K] [FloorRing K] : Prop :=
  ∀ (isDir : Str → Bool) (hist : List (Call K F)) (f : Str) (E : Env K F) (s : Study K F) (fn : F)
    (fs : Files) (ev : List (Event K)), f ≠ [] →
    calls isDir new (hist ++ [.setNameOfTrainingDataFile f]) = some s → s.objFn = some fn →
    s.startWithDoE = true → f ∉ s.constraintFiles → s.file ∉ s.constraintFiles →
    runDoE isDir E s = (ev, .ok ()) →
    ∃ rows, Samples (E.eval fn) (points ev) rows ∧ files fs ev f = some (csv rows)

set_option maxRecDepth 100000 in
/-- **C37 fails**: `setNameOfTrainingDataFile("data.csv")` is accepted, the initial sampling completes,
and no file `data.csv` exists. -/
theorem C37_false : ¬ C37_full ℚ Bool := by
  intro h
  obtain ⟨rows, -, h2⟩ := h (fun _ => true) C41_calls "data.csv".toList C41_env
    ((calls (fun _ => true) new (C41_calls ++ [.setNameOfTrainingDataFile "data.csv".toList])).getD new)
    false (fun _ => none) _ (by decide +kernel) (by decide +kernel) (by decide +kernel)
    (by decide +kernel) (by decide +kernel) (by decide +kernel)
    (Prod.ext rfl (by decide +kernel))
  have : files (fun _ => none) (runDoE (fun _ => true) C41_env
      ((calls (fun _ => true) new (C41_calls ++ [.setNameOfTrainingDataFile "data.csv".toList])).getD
        new)).1 "data.csv".toList = none := by decide +kernel
  rw [this] at h2
  cases h2

set_option maxRecDepth 100000 in
/-- The samples are in a file named like the study, and the model of the objective function reads yet
another file. -/
example : files (fun _ => none) (runDoE (fun _ => true) C41_env
      ((calls (fun _ => true) new (C41_calls ++ [.setNameOfTrainingDataFile "data.csv".toList])).getD
        new)).1 "OptimizationStudy".toList = some "0.250000,0.750000\n0.500000,1.500000\n".toList ∧
    ((calls (fun _ => true) new (C41_calls ++ [.setNameOfTrainingDataFile "data.csv".toList])).getD
        new).opt.obj.map (fun o => o.file) = some "f.csv".toList := by decide +kernel

/-- What holds: after `setNameOfTrainingDataFile` the initial sampling writes to the file named like
the study, so to `f` exactly if `f` is the name of the study. -/
theorem C37_partial {isDir : Str → Bool} {hist : List (Call K F)} {f : Str} {E : Env K F}
    {s : Study K F} {fn : F} {fs : Files} {ev : List (Event K)} (hf : f ≠ [])
    (hs : calls isDir new (hist ++ [.setNameOfTrainingDataFile f]) = some s)
    (hfn : s.objFn = some fn) (hdoe : s.startWithDoE = true)
    (hu : ∀ c r, 0 ≤ E.u c r ∧ E.u c r < 1)
    (hp : ∀ c, (E.perm c).Perm (List.range s.samplesForDoE))
    (hfile : s.file ∉ s.constraintFiles) (hrun : runDoE isDir E s = (ev, .ok ())) :
    s.file = s.name ∧
      ∃ rows, Samples (E.eval fn) (points ev) rows ∧ files fs ev s.name = some (csv rows) := by
  have hname : s.file = s.name := by
    rw [calls_append] at hs
    obtain ⟨s0, -, h2⟩ := Option.bind_eq_some_iff.1 hs
    simp only [calls, step, setNameOfTrainingDataFile, if_neg hf, fatal] at h2
    obtain rfl := Option.some.inj h2
    rfl
  obtain ⟨-, -, h3, -⟩ := C41_complete (fs := fs) hs hu hp hfn hdoe hrun
  exact ⟨hname, by rw [← hname]; exact h3 hfile⟩

/-- The file of the objective function is not changed by other calls. -/
theorem API.step_file (isDir : Str → Bool) (s : Study K F) (c : Call K F) (f : Str) (fn : F)
    (hc : ¬ NamesFile c)
    (h : s.file = f ∧ s.objFn = some fn ∧ ∃ o, s.opt.obj = some o ∧ o.file = f ∧ o.fn = fn) :
    (step isDir s c).1.file = f ∧ (step isDir s c).1.objFn = some fn ∧
      ∃ o, (step isDir s c).1.opt.obj = some o ∧ o.file = f ∧ o.fn = fn := by
  cases c with
  | setNameOfTrainingDataFile g => exact absurd trivial hc
  | setObjectiveFunction a b d => exact absurd trivial hc
  | setBoxConstraints lb ub =>
    obtain ⟨h1, h2, o, h3, h4, h5⟩ := h
    simp only [step]
    unfold setBoxConstraints
    split_ifs
    · exact ⟨h1, h2, o, h3, h4, h5⟩
    · dsimp only
      split
      · exact ⟨h1, h2, o, h3, h4, h5⟩
      · split
        · exact ⟨h1, h2, o, h3, h4, h5⟩
        · rename_i b _
          have key : ∃ o', (s.opt.setBoxConstraints b).1.obj = some o' ∧ o'.file = f ∧ o'.fn = fn := by
            unfold Opt.setBoxConstraints
            rw [h3]
            dsimp only
            split_ifs
            · exact ⟨o, rfl, h4, h5⟩
            · exact ⟨o, rfl, h4, h5⟩
            all_goals
              cases ho : o.setParameterBounds b with
              | error e => exact ⟨o, rfl, h4, h5⟩
              | ok o' =>
                obtain ⟨k1, k2, -⟩ := setParameterBounds_keeps ho
                dsimp only
                split
                · exact ⟨o', rfl, k2.trans h4, k1.trans h5⟩
                · exact ⟨o', rfl, k2.trans h4, k1.trans h5⟩
          split <;>
          · rename_i o' ho
            rw [ho] at key
            exact ⟨h1, h2, key⟩
  | setName n => simp only [step, setName]; split_ifs <;> exact h
  | setCwd d => simp only [step, setCwd]; split_ifs <;> exact h
  | setDoEStrategy i => simp only [step, setDoEStrategy]; split_ifs <;> exact h
  | setDimension d => simp only [step, setDimension]; split_ifs <;> exact h
  | addConstraint g e file =>
    simp only [step, addConstraint]
    repeat' split
    all_goals exact h
  | setDoEOn n => exact h
  | setMaxEvaluations n => exact h

/-- The file given to `setObjectiveFunction` is the one the initial sampling writes and the one the
model of the objective function reads, whatever calls come before and after, except another call naming
the file. -/
theorem C37_objective {isDir : Str → Bool} {pre post : List (Call K F)} {fn : F} {name f : Str}
    {E : Env K F} {s : Study K F} {fs : Files} {ev : List (Event K)} (hf : f ≠ []) (hn : name ≠ [])
    (hs : calls isDir new (pre ++ .setObjectiveFunction (some fn) name f :: post) = some s)
    (hpost : ∀ c ∈ post, ¬ NamesFile c) (hdoe : s.startWithDoE = true)
    (hu : ∀ c r, 0 ≤ E.u c r ∧ E.u c r < 1)
    (hp : ∀ c, (E.perm c).Perm (List.range s.samplesForDoE))
    (hfile : f ∉ s.constraintFiles) (hrun : runDoE isDir E s = (ev, .ok ())) :
    (∃ rows, Samples (E.eval fn) (points ev) rows ∧ files fs ev f = some (csv rows)) ∧
      ∃ o, s.opt.obj = some o ∧ o.file = f ∧ o.fn = fn := by
  have key : s.file = f ∧ s.objFn = some fn ∧ ∃ o, s.opt.obj = some o ∧ o.file = f ∧ o.fn = fn := by
    rw [calls_append] at hs
    obtain ⟨s0, -, h2⟩ := Option.bind_eq_some_iff.1 hs
    unfold calls at h2
    split_ifs at h2 with hfat
    refine calls_inv' (fun c => ¬ NamesFile c) _ (fun s c hc h _ => step_file isDir s c f fn hc h)
      post _ s hpost ?_ h2
    simp only [step, setObjectiveFunction, if_neg hf, if_neg hn] at hfat ⊢
    split_ifs at hfat ⊢
    · simp [fatal] at hfat
    · exact ⟨rfl, rfl, _, rfl, rfl, rfl⟩
  obtain ⟨k1, k2, k3⟩ := key
  obtain ⟨-, -, h3, -⟩ := C41_complete (fs := fs) hs hu hp k2 hdoe hrun
  rw [k1] at h3
  exact ⟨h3 hfile, k3⟩

/-! ## C38: setting the bounds -/

/-- The dimension of the study is `d`, and the functions know no other dimension. -/
def API.DimIs (d : Nat) (s : Study K F) : Prop :=
  s.dimension = d ∧ s.opt.globalDim = d ∧ (∀ o, s.opt.obj = some o → o.dim = d) ∧
    ∀ c ∈ s.opt.constraints, c.base.dim = d

/-- The full claim: in a study of dimension `d` with an objective function, bounds of dimension `d`
with `lb < ub` are accepted and are the bounds afterwards. -/
def C38_full (K F : Type) [Field K] [LinearOrder K] [IsStrictOrderedRing K] [FloorRing K] : Prop :=
  ∀ (isDir : Str → Bool) (hist : List (Call K F)) (d : Nat) (s : Study K F) (lb ub : List K),
    calls isDir new (.setDimension d :: hist) = some s → (∀ c ∈ hist, ¬ SetsDimension c) →
    s.objSet = true → ValidBox d lb ub →
    (setBoxConstraints s lb ub).2 = .ok () ∧ HasBox (setBoxConstraints s lb ub).1 d lb ub

theorem API.pushBounds_valid {d : Nat} {lb ub : List K} (h : ValidBox d lb ub) :
    ∀ (n i : Nat) (L U : List K), i + n = d →
      pushBounds lb ub n i L U = (L ++ lb.drop i, U ++ ub.drop i, .ok ()) := by
  obtain ⟨h0, h1, h2, h3⟩ := h
  intro n
  induction n with
  | zero =>
    intro i L U hi
    unfold pushBounds
    rw [List.drop_of_length_le (by omega), List.drop_of_length_le (by omega)]
    simp
  | succ n ih =>
    intro i L U hi
    have hl : i < lb.length := by omega
    have hu : i < ub.length := by omega
    unfold pushBounds
    rw [rawAt_ok_of_lt hl, rawAt_ok_of_lt hu]
    dsimp only
    rw [if_neg (not_le.2 (h3 i _ _ (List.getElem?_eq_getElem hl) (List.getElem?_eq_getElem hu))),
      ih (i + 1) _ _ (by omega), List.drop_eq_getElem_cons hl, List.drop_eq_getElem_cons hu]
    simp

theorem API.ordered_append {L U lb ub : List K} {d : Nat} (hL : L.length = U.length)
    (hord : ∀ (i : Nat) (l u : K), L[i]? = some l → U[i]? = some u → l < u) (h : ValidBox d lb ub) :
    ValidBox (L ++ lb).length (L ++ lb) (U ++ ub) := by
  obtain ⟨h0, h1, h2, h3⟩ := h
  refine ⟨by simp; omega, rfl, by simp; omega, ?_⟩
  intro i l u hl hu
  by_cases hi : i < L.length
  · rw [List.getElem?_append_left hi] at hl
    rw [List.getElem?_append_left (by omega)] at hu
    exact hord i l u hl hu
  · rw [List.getElem?_append_right (by omega)] at hl
    rw [List.getElem?_append_right (by omega), ← hL] at hu
    exact h3 _ l u hl hu

theorem API.someAbove_valid {lb ub : List K}
    (h : ∀ (i : Nat) (l u : K), lb[i]? = some l → ub[i]? = some u → l < u) : someAbove lb ub = false := by
  induction lb generalizing ub with
  | nil => rfl
  | cons l lb ih =>
    cases ub with
    | nil => rfl
    | cons u ub =>
      unfold someAbove
      have h0 := h 0 l u rfl rfl
      rw [ih fun i a b ha hb => h (i + 1) a b (by simpa using ha) (by simpa using hb)]
      simp [h0.le]

theorem API.boundConstraints_ok {b : Bounds K} (hb : b.isSet = true) (cs : List (Constraint K F))
    (h : ∀ c ∈ cs, c.base.dim = b.dim) :
    (boundConstraints b cs).2 = .ok () ∧
      ∀ c ∈ (boundConstraints b cs).1, c.base.box = some b := by
  induction cs with
  | nil => exact ⟨rfl, fun c hc => (by cases hc)⟩
  | cons c cs ih =>
    obtain ⟨h1, h2⟩ := ih fun d hd => h d (by simp [hd])
    have hc : c.base.setParameterBounds b = .ok { c.base with box := some b } := by
      unfold Objective.setParameterBounds
      rw [if_neg (by rw [h c (by simp)]; omega), if_neg (by rw [hb]; simp)]
    unfold boundConstraints
    rw [hc]
    refine ⟨h1, fun e he => ?_⟩
    rcases List.mem_cons.1 he with rfl | he
    · rfl
    · exact h2 e he

/-- **C38, exactly**: for a study of dimension `d` with an objective function whose bounds so far are
ordered, a call with valid bounds is accepted exactly if no bounds have been collected before; then
the bounds are the given ones. -/
theorem C38_exact {s : Study K F} {d : Nat} {lb ub : List K} (hord : Ordered s) (hd : DimIs d s)
    (hobj : s.opt.obj.isSome = true) (hbox : ValidBox d lb ub) :
    ((setBoxConstraints s lb ub).2 = .ok () ↔ s.lb = []) ∧
      (s.lb = [] → HasBox (setBoxConstraints s lb ub).1 d lb ub) ∧
      (s.lb ≠ [] → (setBoxConstraints s lb ub).2 = .error .invalidArgument) := by
  obtain ⟨hd1, hd2, hd3, hd4⟩ := hd
  have hpos := hbox.1
  obtain ⟨o, ho⟩ := Option.isSome_iff_exists.1 hobj
  have hval := ordered_append hord.1 hord.2 hbox
  have hset : (Bounds.mk0.setDimension s.dimension).setStd (s.lb ++ lb) (s.ub ++ ub) =
      (⟨s.lb ++ lb, s.ub ++ ub, (s.lb ++ lb).length, true⟩, .ok ()) := by
    have e := hval.2.2.1
    unfold Bounds.setStd
    rw [if_neg (by omega), List.take_of_length_le (by omega)]
    exact Bounds.finish_valid (b := ⟨s.lb ++ lb, s.ub ++ ub, (s.lb ++ lb).length, false⟩) rfl e hval
  have hpush := pushBounds_valid hbox s.dimension 0 s.lb s.ub (by omega)
  rw [List.drop_zero, List.drop_zero] at hpush
  by_cases hnil : s.lb = []
  · have hub : s.ub = [] := List.length_eq_zero_iff.1 (by rw [← hord.1, hnil]; rfl)
    rw [hnil, hub] at hset
    rw [hnil, hub] at hpush
    simp only [List.nil_append] at hset hpush
    have hb2 : o.setParameterBounds ⟨lb, ub, lb.length, true⟩ =
        .ok { o with box := some ⟨lb, ub, lb.length, true⟩ } := by
      unfold Objective.setParameterBounds
      rw [if_neg (by simp only; rw [hd3 o ho, hbox.2.1]; omega), if_neg (by simp)]
    obtain ⟨hb3, hb4⟩ := boundConstraints_ok (b := ⟨lb, ub, lb.length, true⟩) rfl s.opt.constraints
      (fun c hc => by rw [hd4 c hc]; exact hbox.2.1.symm)
    obtain ⟨O, hopt, q1, q2, q3, q4, q5⟩ : ∃ O : Opt K F,
        s.opt.setBoxConstraints ⟨lb, ub, lb.length, true⟩ = (O, .ok ()) ∧ O.lb = lb ∧ O.ub = ub ∧
        O.obj = some { o with box := some ⟨lb, ub, lb.length, true⟩ } ∧
        O.constraints = (boundConstraints ⟨lb, ub, lb.length, true⟩ s.opt.constraints).1 ∧
        O.globalBox = some ⟨lb, ub, lb.length, true⟩ := by
      unfold Opt.setBoxConstraints
      rw [ho]
      dsimp only
      rw [if_neg (by rw [hbox.2.1, hbox.2.2.1]; simp), if_neg (by
        rw [someAbove_valid hbox.2.2.2]; simp), hb2]
      dsimp only
      rw [hb3]
      dsimp only
      rw [if_neg (by simp), if_neg (by rw [hd2, hbox.2.1]; simp)]
      exact ⟨_, rfl, rfl, rfl, rfl, rfl, rfl⟩
    have hcall : setBoxConstraints s lb ub =
        ({ s with lb := lb, ub := ub, opt := O, boxSet := true }, .ok ()) := by
      unfold setBoxConstraints
      rw [if_neg (by omega)]
      dsimp only
      rw [hnil, hub, hpush]
      dsimp only
      rw [hset]
      dsimp only
      rw [hopt]
    rw [hcall]
    rw [hbox.2.1] at hb4 q3 q4 q5
    exact ⟨⟨fun _ => hnil, fun _ => rfl⟩,
      fun _ => ⟨rfl, rfl, q1, q2, ⟨_, q3, rfl⟩, by rw [← q4] at hb4; exact hb4, q5⟩,
      fun h => absurd hnil h⟩
  · have hlen : d ≠ (s.lb ++ lb).length := by
      have := List.length_pos_iff.2 hnil
      have := hbox.2.1
      simp only [List.length_append]
      omega
    have hb2 : o.setParameterBounds ⟨s.lb ++ lb, s.ub ++ ub, (s.lb ++ lb).length, true⟩ =
        .error .invalidArgument := by
      unfold Objective.setParameterBounds
      rw [if_pos ⟨by rw [hd3 o ho]; omega, by rw [hd3 o ho]; exact hlen⟩]
    have hcall : (setBoxConstraints s lb ub).2 = .error .invalidArgument := by
      unfold setBoxConstraints
      rw [if_neg (by omega)]
      dsimp only
      rw [hpush]
      dsimp only
      rw [hset]
      dsimp only
      unfold Opt.setBoxConstraints
      rw [ho]
      dsimp only
      have e := hval.2.2.1
      rw [if_neg (by rw [e]; simp), if_neg (by rw [someAbove_valid hval.2.2.2]; simp), hb2]
    rw [hcall]
    exact ⟨⟨fun h => (by cases h), fun h => absurd h hnil⟩, fun h => absurd h hnil, fun _ => rfl⟩

/-- Other calls keep the dimensions. -/
theorem API.step_dim (isDir : Str → Bool) (s : Study K F) (c : Call K F) (d : Nat)
    (hc : ¬ SetsDimension c) (h : DimIs d s) : DimIs d (step isDir s c).1 := by
  obtain ⟨h1, h2, h3, h4⟩ := h
  have keep : ∀ {o o' : Objective K F} {b : Bounds K}, o.setParameterBounds b = .ok o' → o'.dim = o.dim := by
    intro o o' b h
    unfold Objective.setParameterBounds at h
    split_ifs at h
    obtain rfl := Except.ok.inj h
    rfl
  have hbc : ∀ (b : Bounds K) (cs : List (Constraint K F)), (∀ c ∈ cs, c.base.dim = d) →
      ∀ c ∈ (boundConstraints b cs).1, c.base.dim = d := by
    intro b cs
    induction cs with
    | nil => intro h; exact h
    | cons c cs ih =>
      intro h
      unfold boundConstraints
      split
      · exact h
      · rename_i o ho
        intro e he
        rcases List.mem_cons.1 he with rfl | he
        · exact (keep ho).trans (h c (by simp))
        · exact ih (fun e he => h e (by simp [he])) e he
  have hopt : ∀ b : Bounds K, (s.opt.setBoxConstraints b).1.globalDim = d ∧
      (∀ o, (s.opt.setBoxConstraints b).1.obj = some o → o.dim = d) ∧
      ∀ c ∈ (s.opt.setBoxConstraints b).1.constraints, c.base.dim = d := by
    intro b
    unfold Opt.setBoxConstraints
    dsimp only
    split_ifs
    · exact ⟨h2, h3, h4⟩
    · exact ⟨h2, h3, h4⟩
    all_goals
      cases ho : s.opt.obj with
      | none => exact ⟨h2, by simp, h4⟩
      | some o =>
        dsimp only
        cases ho' : o.setParameterBounds b with
        | error e => exact ⟨h2, by simpa [ho] using h3 o ho, h4⟩
        | ok o' =>
          have hdim : o'.dim = d := (keep ho').trans (h3 o ho)
          dsimp only
          split
          · exact ⟨h2, fun o h => by obtain rfl := Option.some.inj h; exact hdim, hbc b _ h4⟩
          · exact ⟨h2, fun o h => by obtain rfl := Option.some.inj h; exact hdim, hbc b _ h4⟩
  cases c with
  | setDimension d => exact absurd trivial hc
  | setBoxConstraints lb ub =>
    simp only [step]
    unfold setBoxConstraints
    split_ifs
    · exact ⟨h1, h2, h3, h4⟩
    · dsimp only
      split
      · exact ⟨h1, h2, h3, h4⟩
      · split
        · exact ⟨h1, h2, h3, h4⟩
        · rename_i b _
          obtain ⟨k1, k2, k3⟩ := hopt b
          split <;>
          · rename_i o' ho
            rw [ho] at k1 k2 k3
            exact ⟨h1, k1, k2, k3⟩
  | setName n => simp only [step, setName]; split_ifs <;> exact ⟨h1, h2, h3, h4⟩
  | setCwd d => simp only [step, setCwd]; split_ifs <;> exact ⟨h1, h2, h3, h4⟩
  | setDoEStrategy i => simp only [step, setDoEStrategy]; split_ifs <;> exact ⟨h1, h2, h3, h4⟩
  | setNameOfTrainingDataFile f =>
    simp only [step, setNameOfTrainingDataFile]; split_ifs <;> exact ⟨h1, h2, h3, h4⟩
  | setObjectiveFunction f n file =>
    simp only [step, setObjectiveFunction]
    repeat' split
    all_goals first
      | exact ⟨h1, h2, h3, h4⟩
      | exact ⟨h1, h2, fun o h => by obtain rfl := Option.some.inj h; exact h1, h4⟩
  | addConstraint f e file =>
    simp only [step, addConstraint]
    repeat' split
    all_goals first
      | exact ⟨h1, h2, h3, h4⟩
      | (refine ⟨h1, h2, h3, fun c hc => ?_⟩
         rcases List.mem_append.1 hc with hc | hc
         · exact h4 c hc
         · simp only [List.mem_singleton] at hc
           subst hc
           exact h1)
  | setDoEOn n => exact ⟨h1, h2, h3, h4⟩
  | setMaxEvaluations n => exact ⟨h1, h2, h3, h4⟩

/-- An objective function is in the optimizer once one has been accepted. -/
theorem API.calls_objSet {isDir : Str → Bool} {hist : List (Call K F)} {s : Study K F}
    (h : calls isDir new hist = some s) : s.objSet = true → s.opt.obj.isSome = true := by
  refine calls_inv (fun s => s.objSet = true → s.opt.obj.isSome = true) (fun s c hs _ => ?_) hist new s
    (fun h => by simp [new] at h) h
  cases c with
  | setBoxConstraints lb ub =>
    have hopt : ∀ b : Bounds K, s.opt.obj.isSome = true →
        (s.opt.setBoxConstraints b).1.obj.isSome = true := by
      intro b hb
      unfold Opt.setBoxConstraints
      dsimp only
      repeat' split
      all_goals first
        | exact hb
        | rfl
    simp only [step]
    unfold setBoxConstraints
    split_ifs
    · exact hs
    · dsimp only
      split
      · exact hs
      · split
        · exact hs
        · rename_i b _
          have := hopt b
          split <;>
          · rename_i o' ho
            rw [ho] at this
            exact fun h => this (hs h)
  | setName n => simp only [step, setName]; split_ifs <;> exact hs
  | setCwd d => simp only [step, setCwd]; split_ifs <;> exact hs
  | setDoEStrategy i => simp only [step, setDoEStrategy]; split_ifs <;> exact hs
  | setNameOfTrainingDataFile f => simp only [step, setNameOfTrainingDataFile]; split_ifs <;> exact hs
  | setDimension d => simp only [step, setDimension]; split_ifs <;> exact hs
  | setObjectiveFunction f n file =>
    simp only [step, setObjectiveFunction]
    repeat' split
    all_goals first
      | exact hs
      | exact fun _ => rfl
  | addConstraint f e file =>
    simp only [step, addConstraint]
    repeat' split
    all_goals exact hs
  | setDoEOn n => exact hs
  | setMaxEvaluations n => exact hs

theorem API.calls_dim {isDir : Str → Bool} {hist : List (Call K F)} {s : Study K F} {d : Nat}
    (hd : 0 < d) (h : calls isDir new (.setDimension d :: hist) = some s)
    (hno : ∀ c ∈ hist, ¬ SetsDimension c) : DimIs d s := by
  unfold calls at h
  split_ifs at h with hf
  refine calls_inv' (fun c => ¬ SetsDimension c) (DimIs d)
    (fun s c hc hs _ => step_dim isDir s c d hc hs) hist _ s hno ?_ h
  simp only [step, setDimension, if_neg (show d ≠ 0 by omega)]
  exact ⟨rfl, rfl, fun o h => by simp [new] at h, fun c h => by simp [new] at h⟩

/-- No bounds are collected while no call sets any. -/
theorem API.calls_noBox {isDir : Str → Bool} {hist : List (Call K F)} {d : Nat} {s : Study K F}
    (hs : calls isDir new (.setDimension d :: hist) = some s) (hbox' : ∀ c ∈ hist, ¬ SetsBox c) :
    s.lb = [] := by
  refine calls_inv' (isDir := isDir) (fun c => ¬ SetsBox c) (fun s => s.lb = []) (fun s c hc hs _ => ?_)
    (.setDimension d :: hist) new s ?_ rfl hs
  · cases c with
    | setBoxConstraints lb ub => exact absurd trivial hc
    | setName n => simp only [step, setName]; split_ifs <;> exact hs
    | setCwd d => simp only [step, setCwd]; split_ifs <;> exact hs
    | setDoEStrategy i => simp only [step, setDoEStrategy]; split_ifs <;> exact hs
    | setNameOfTrainingDataFile f => simp only [step, setNameOfTrainingDataFile]; split_ifs <;> exact hs
    | setDimension d => simp only [step, setDimension]; split_ifs <;> exact hs
    | setObjectiveFunction f n file =>
      simp only [step, setObjectiveFunction]
      repeat' split
      all_goals exact hs
    | addConstraint f e file =>
      simp only [step, addConstraint]
      repeat' split
      all_goals exact hs
    | setDoEOn n => exact hs
    | setMaxEvaluations n => exact hs
  · intro c hc
    rcases List.mem_cons.1 hc with rfl | hc
    · exact fun h => h
    · exact hbox' c hc

/-- **C38 for the first call**: in a study of dimension `d` with an objective function, the first
`setBoxConstraints` call is accepted if its bounds are valid, and sets exactly these bounds. -/
theorem C38_partial {isDir : Str → Bool} {hist : List (Call K F)} {d : Nat} {s : Study K F}
    {lb ub : List K} (hs : calls isDir new (.setDimension d :: hist) = some s)
    (hno : ∀ c ∈ hist, ¬ SetsDimension c) (hbox' : ∀ c ∈ hist, ¬ SetsBox c)
    (hobj : s.objSet = true) (hbox : ValidBox d lb ub) :
    (setBoxConstraints s lb ub).2 = .ok () ∧ HasBox (setBoxConstraints s lb ub).1 d lb ub := by
  have hnil : s.lb = [] := calls_noBox hs hbox'
  obtain ⟨h1, h2, -⟩ := C38_exact (calls_ordered hs) (calls_dim hbox.1 hs hno)
    (calls_objSet hs hobj) hbox
  exact ⟨h1.2 hnil, h2 hnil⟩

/-- The first call in a study of dimension 2. -/
example : let hist : List (Call ℚ Bool) :=
      [.setObjectiveFunction (some false) "f".toList "f.csv".toList]
    ∃ s, calls (fun _ => true) new (.setDimension 2 :: hist) = some s ∧ s.objSet = true ∧
      (setBoxConstraints s [0, -1] [1, 1]).2 = .ok () := by
  exact ⟨(calls (fun _ => true) new [.setDimension 2,
    .setObjectiveFunction (some false) "f".toList "f.csv".toList]).getD new, by decide +kernel⟩

/-- **C38 fails** for a second call. -/
theorem C38_false : ¬ C38_full ℚ Bool := by
  intro h
  have := (h (fun _ => true) [.setObjectiveFunction (some false) "f".toList "f.csv".toList,
    .setBoxConstraints [0] [1]] 1 ((calls (fun _ => true) new [.setDimension 1,
    .setObjectiveFunction (some false) "f".toList "f.csv".toList, .setBoxConstraints [0] [1]]).getD new)
    [2] [3] (by decide +kernel) (by
      intro c hc
      simp only [List.mem_cons, List.not_mem_nil, or_false] at hc
      rcases hc with rfl | rfl <;> exact fun h => h) (by decide +kernel)
    ⟨by omega, rfl, rfl, by
      intro i l u h1 h2
      rcases i with _ | i
      · simp at h1 h2; subst h1 h2; norm_num
      · simp at h1⟩).1
  exact absurd this (by decide +kernel)

/-- **C38 also fails** after a call that was rejected: the first coordinate of the rejected bounds is
kept, and the corrected call is rejected too. -/
theorem C38_false_rejected : ∃ s : Study ℚ Bool,
    calls (fun _ => true) new [.setDimension 2,
      .setObjectiveFunction (some false) "f".toList "f.csv".toList,
      .setBoxConstraints [0, 1] [1, 1]] = some s ∧ s.boxSet = false ∧
    (setBoxConstraints s [0, 0] [1, 1]).2 = .error .invalidArgument := by
  exact ⟨(calls (fun _ => true) new [.setDimension 2,
      .setObjectiveFunction (some false) "f".toList "f.csv".toList,
      .setBoxConstraints [0, 1] [1, 1]]).getD new, by decide +kernel⟩

/-! ## C69: rejected calls -/

/-- The full claim: a call that throws leaves the study as it was. -/
def C69_full (K F : Type) [Field K] [LinearOrder K] [IsStrictOrderedRing K] [FloorRing K] : Prop :=
  ∀ (isDir : Str → Bool) (hist : List (Call K F)) (s : Study K F) (c : Call K F) (e : Err),
    calls isDir new hist = some s → (step isDir s c).2 = .error e →
    fatal (step isDir s c).2 = false → (step isDir s c).1 = s

/-- **C69 fails**: `addConstraint` before `setDimension` throws, yet the constraint is stored. -/
theorem C69_false : ¬ C69_full ℚ Bool := by
  intro h
  have := h (fun _ => true) [] new (.addConstraint (some true) "g > 1".toList "g.csv".toList)
    .invalidArgument rfl (by decide +kernel) (by decide +kernel)
  have h2 := congrArg (fun s => s.numberOfConstraints) this
  exact absurd h2 (by decide +kernel)

/-- `setDimension(0)` throws and changes the dimension. -/
theorem C69_false_dimension : ∃ s : Study ℚ Bool,
    calls (fun _ => true) new [.setDimension 2] = some s ∧
      (setDimension s 0).2 = .error .runtimeError ∧ (setDimension s 0).1.dimension = 0 :=
  ⟨(calls (fun _ => true) new [.setDimension 2]).getD new, by decide +kernel⟩

/-- What holds: a call that throws leaves the study as it was, except `setBoxConstraints`,
`setDimension`, and `addConstraint` in a study without a dimension. -/
theorem C69_partial (isDir : Str → Bool) (s : Study K F) (c : Call K F) {e : Err}
    (h1 : (step isDir s c).2 = .error e) (hfat : fatal (step isDir s c).2 = false)
    (hc : ¬ SetsBox c ∧ ¬ SetsDimension c)
    (hadd : 0 < s.opt.globalDim ∨ constraintOf c = none) : (step isDir s c).1 = s := by
  cases c with
  | setBoxConstraints lb ub => exact absurd trivial hc.1
  | setDimension d => exact absurd trivial hc.2
  | setName n =>
    simp only [step, setName] at h1 ⊢
    split_ifs at h1 ⊢
    rfl
  | setCwd d =>
    simp only [step, setCwd] at h1 ⊢
    split_ifs at h1 ⊢
    rfl
  | setDoEStrategy i =>
    simp only [step, setDoEStrategy] at h1 ⊢
    split_ifs at h1 ⊢ <;> rfl
  | setNameOfTrainingDataFile f =>
    simp only [step, setNameOfTrainingDataFile] at h1 ⊢
    split_ifs at h1 ⊢
    rfl
  | setObjectiveFunction f n file =>
    simp only [step, setObjectiveFunction] at h1 hfat ⊢
    by_cases hf : file = []
    · rw [if_pos hf]
    by_cases hn : n = []
    · rw [if_neg hf, if_pos hn]
    rw [if_neg hf, if_neg hn] at h1 hfat ⊢
    cases f with
    | none => rfl
    | some f =>
      dsimp only at h1 hfat ⊢
      split_ifs at h1 hfat ⊢
      simp [fatal] at hfat
  | addConstraint f ex file =>
    simp only [step, addConstraint] at h1 hfat ⊢
    by_cases hf : file = []
    · rw [if_pos hf]
    by_cases hn : ex = []
    · rw [if_neg hf, if_pos hn]
    rw [if_neg hf, if_neg hn] at h1 hfat ⊢
    cases f with
    | none => rfl
    | some f =>
      dsimp only at h1 hfat ⊢
      cases hp : (Parse.parseExpression ex : Res (Parse.Expr K)) with
      | error e' => rfl
      | ok x =>
        rw [hp] at h1
        dsimp only at h1 ⊢
        rcases hadd with hadd | hadd
        · rw [if_neg (by omega)] at h1
          cases h1
        · exfalso
          unfold constraintOf at hadd
          simp [hf, hn, hp] at hadd
  | setDoEOn n => simp [step, setDoEOn] at h1
  | setMaxEvaluations n => simp [step, setMaxEvaluations] at h1

/-- A rejected call in a study with a dimension. -/
example : ∃ s : Study ℚ Bool, calls (fun _ => true) new [.setDimension 2] = some s ∧
    0 < s.opt.globalDim ∧
    (step (fun _ => true) s (.addConstraint (some true) "g = 1".toList "g.csv".toList)).2 =
      .error .invalidArgument :=
  ⟨(calls (fun _ => true) new [.setDimension 2]).getD new, by decide +kernel⟩

/-! ## C70: mandatory settings -/

/-- If a property comes about during a history, some call has brought it about. -/
theorem API.calls_flip {isDir : Str → Bool} (P : Study K F → Prop) (h0 : ¬ P (new : Study K F))
    {hist : List (Call K F)} {s : Study K F} (hs : calls isDir new hist = some s) (h : P s) :
    ∃ pre c post s0, hist = pre ++ c :: post ∧ calls isDir new pre = some s0 ∧ ¬ P s0 ∧
      P (step isDir s0 c).1 ∧ fatal (step isDir s0 c).2 = false := by
  have gen : ∀ (post pre : List (Call K F)) (s0 : Study K F), calls isDir new pre = some s0 → ¬ P s0 →
      calls isDir s0 post = some s →
      ∃ pre' c post' s1, pre ++ post = pre' ++ c :: post' ∧ calls isDir new pre' = some s1 ∧ ¬ P s1 ∧
      P (step isDir s1 c).1 ∧ fatal (step isDir s1 c).2 = false := by
    intro post
    induction post with
    | nil =>
      intro pre s0 _ h2 h3
      cases h3
      exact absurd h h2
    | cons c cs ih =>
      intro pre s0 h1 h2 h3
      unfold calls at h3
      split_ifs at h3 with hf
      by_cases hp : P (step isDir s0 c).1
      · exact ⟨pre, c, cs, s0, rfl, h1, h2, hp, by simpa using hf⟩
      · have := ih (pre ++ [c]) (step isDir s0 c).1 (by
          rw [calls_append, h1]
          simp [calls, hf]) hp h3
        simpa using this
  exact gen hist [] new rfl h0 hs

/-- **C70**: whatever the history of calls, `run` evaluates no function and touches no file unless a
dimension, bounds and an objective function have been accepted and the maximum number of evaluations
is positive. -/
theorem C70_mandatory {isDir : Str → Bool} {hist : List (Call K F)} {E : Env K F} {s : Study K F}
    (hs : calls isDir new hist = some s) (hrun : (runDoE isDir E s).1 ≠ []) :
    (∃ d, 0 < d ∧ Accepted isDir hist (.setDimension d)) ∧
    (∃ lb ub, Accepted isDir hist (.setBoxConstraints lb ub)) ∧
    (∃ fn name file, name ≠ [] ∧ file ≠ [] ∧
      Accepted isDir hist (.setObjectiveFunction (some fn) name file)) ∧
    (∃ n, 0 < n ∧ Accepted isDir hist (.setMaxEvaluations n)) := by
  have hset : s.evaluations ≠ 0 ∧ s.dimSet = true ∧ s.boxSet = true ∧ s.objSet = true := by
    unfold runDoE checkSettings at hrun
    by_cases h1 : s.evaluations = 0
    · rw [if_pos h1] at hrun; exact absurd rfl hrun
    by_cases h2 : s.dimSet = false
    · rw [if_neg h1, if_pos h2] at hrun; exact absurd rfl hrun
    by_cases h3 : s.boxSet = false
    · rw [if_neg h1, if_neg h2, if_pos h3] at hrun; exact absurd rfl hrun
    by_cases h4 : s.objSet = false
    · rw [if_neg h1, if_neg h2, if_neg h3, if_pos h4] at hrun; exact absurd rfl hrun
    exact ⟨h1, by simpa using h2, by simpa using h3, by simpa using h4⟩
  obtain ⟨he, hd, hb, ho⟩ := hset
  refine ⟨?_, ?_, ?_, ?_⟩
  · obtain ⟨pre, c, post, s0, h1, h2, h3, h4, h5⟩ :=
      calls_flip (fun s : Study K F => s.dimSet = true) (by simp [new]) hs hd
    cases c with
    | setDimension d =>
      simp only [step, setDimension] at h4
      split_ifs at h4 with h0
      · exact absurd h4 h3
      · refine ⟨d, by omega, pre, post, s0, h1, h2, ?_⟩
        simp only [step, setDimension, if_neg h0]
    | setBoxConstraints lb ub =>
      exfalso
      simp only [step, setBoxConstraints] at h4
      repeat' split at h4
      all_goals exact h3 h4
    | setName n => exfalso; simp only [step, setName] at h4; split_ifs at h4 <;> exact h3 h4
    | setCwd d => exfalso; simp only [step, setCwd] at h4; split_ifs at h4 <;> exact h3 h4
    | setDoEStrategy i => exfalso; simp only [step, setDoEStrategy] at h4; split_ifs at h4 <;> exact h3 h4
    | setNameOfTrainingDataFile f =>
      exfalso; simp only [step, setNameOfTrainingDataFile] at h4; split_ifs at h4 <;> exact h3 h4
    | setObjectiveFunction f n file =>
      exfalso
      simp only [step, setObjectiveFunction] at h4
      repeat' split at h4
      all_goals exact h3 h4
    | addConstraint f e file =>
      exfalso
      simp only [step, addConstraint] at h4
      repeat' split at h4
      all_goals exact h3 h4
    | setDoEOn n => exact absurd h4 h3
    | setMaxEvaluations n => exact absurd h4 h3
  · obtain ⟨pre, c, post, s0, h1, h2, h3, h4, h5⟩ :=
      calls_flip (fun s : Study K F => s.boxSet = true) (by simp [new]) hs hb
    cases c with
    | setBoxConstraints lb ub =>
      refine ⟨lb, ub, pre, post, s0, h1, h2, ?_⟩
      simp only [step, setBoxConstraints] at h4 ⊢
      repeat' split at h4
      all_goals first
        | exact absurd h4 h3
        | skip
      simp only [*]
      rfl
    | setDimension d => exfalso; simp only [step, setDimension] at h4; split_ifs at h4 <;> exact h3 h4
    | setName n => exfalso; simp only [step, setName] at h4; split_ifs at h4 <;> exact h3 h4
    | setCwd d => exfalso; simp only [step, setCwd] at h4; split_ifs at h4 <;> exact h3 h4
    | setDoEStrategy i => exfalso; simp only [step, setDoEStrategy] at h4; split_ifs at h4 <;> exact h3 h4
    | setNameOfTrainingDataFile f =>
      exfalso; simp only [step, setNameOfTrainingDataFile] at h4; split_ifs at h4 <;> exact h3 h4
    | setObjectiveFunction f n file =>
      exfalso
      simp only [step, setObjectiveFunction] at h4
      repeat' split at h4
      all_goals exact h3 h4
    | addConstraint f e file =>
      exfalso
      simp only [step, addConstraint] at h4
      repeat' split at h4
      all_goals exact h3 h4
    | setDoEOn n => exact absurd h4 h3
    | setMaxEvaluations n => exact absurd h4 h3
  · obtain ⟨pre, c, post, s0, h1, h2, h3, h4, h5⟩ :=
      calls_flip (fun s : Study K F => s.objSet = true) (by simp [new]) hs ho
    cases c with
    | setObjectiveFunction f n file =>
      by_cases hf : file = []
      · simp only [step, setObjectiveFunction, if_pos hf] at h4; exact absurd h4 h3
      by_cases hn : n = []
      · simp only [step, setObjectiveFunction, if_neg hf, if_pos hn] at h4; exact absurd h4 h3
      cases f with
      | none => simp only [step, setObjectiveFunction, if_neg hf, if_neg hn] at h4; exact absurd h4 h3
      | some f =>
        refine ⟨f, n, file, hn, hf, pre, post, s0, h1, h2, ?_⟩
        simp only [step, setObjectiveFunction, if_neg hf, if_neg hn] at h4 ⊢
        split_ifs at h4 ⊢
        · exact absurd h4 h3
        · rfl
    | setBoxConstraints lb ub =>
      exfalso
      simp only [step, setBoxConstraints] at h4
      repeat' split at h4
      all_goals exact h3 h4
    | setDimension d => exfalso; simp only [step, setDimension] at h4; split_ifs at h4 <;> exact h3 h4
    | setName n => exfalso; simp only [step, setName] at h4; split_ifs at h4 <;> exact h3 h4
    | setCwd d => exfalso; simp only [step, setCwd] at h4; split_ifs at h4 <;> exact h3 h4
    | setDoEStrategy i => exfalso; simp only [step, setDoEStrategy] at h4; split_ifs at h4 <;> exact h3 h4
    | setNameOfTrainingDataFile f =>
      exfalso; simp only [step, setNameOfTrainingDataFile] at h4; split_ifs at h4 <;> exact h3 h4
    | addConstraint f e file =>
      exfalso
      simp only [step, addConstraint] at h4
      repeat' split at h4
      all_goals exact h3 h4
    | setDoEOn n => exact absurd h4 h3
    | setMaxEvaluations n => exact absurd h4 h3
  · obtain ⟨pre, c, post, s0, h1, h2, h3, h4, h5⟩ :=
      calls_flip (fun s : Study K F => s.evaluations ≠ 0) (by simp [new]) hs he
    cases c with
    | setMaxEvaluations n =>
      refine ⟨n, ?_, pre, post, s0, h1, h2, rfl⟩
      simp only [step, setMaxEvaluations] at h4
      omega
    | setObjectiveFunction f n file =>
      exfalso
      simp only [step, setObjectiveFunction] at h4
      repeat' split at h4
      all_goals exact h3 h4
    | setBoxConstraints lb ub =>
      exfalso
      simp only [step, setBoxConstraints] at h4
      repeat' split at h4
      all_goals exact h3 h4
    | setDimension d => exfalso; simp only [step, setDimension] at h4; split_ifs at h4 <;> exact h3 h4
    | setName n => exfalso; simp only [step, setName] at h4; split_ifs at h4 <;> exact h3 h4
    | setCwd d => exfalso; simp only [step, setCwd] at h4; split_ifs at h4 <;> exact h3 h4
    | setDoEStrategy i => exfalso; simp only [step, setDoEStrategy] at h4; split_ifs at h4 <;> exact h3 h4
    | setNameOfTrainingDataFile f =>
      exfalso; simp only [step, setNameOfTrainingDataFile] at h4; split_ifs at h4 <;> exact h3 h4
    | addConstraint f e file =>
      exfalso
      simp only [step, addConstraint] at h4
      repeat' split at h4
      all_goals exact h3 h4
    | setDoEOn n => exact absurd h4 h3

set_option maxRecDepth 100000 in
/-- The run of `C41_calls` produces events. -/
example : (runDoE (fun _ => true) C41_env C41_study).1 ≠ [] := by decide +kernel

end Rodeo
