import Verif.Spec.StudySettings
import Verif.Props.Study

/-! # C94, C95: the settings of the C++ interface reach the optimizer -/

set_option linter.unusedSectionVars false

namespace Rodeo
open Text Spec API

variable {K : Type} [Field K] [LinearOrder K] [IsStrictOrderedRing K] [FloorRing K]
variable {F α : Type}

theorem API.lastSetting_snoc (makes : Call K F → Option α) (d : α) (hist : List (Call K F))
    (c : Call K F) :
    lastSetting makes d (hist ++ [c]) = (makes c).getD (lastSetting makes d hist) := by
  unfold lastSetting
  rw [List.filterMap_append]
  cases h : makes c with
  | none => simp [h]
  | some a => simp [h]

/-- What the optimizer and the study have of the settings. -/
structure API.HasSettings (isDir : Str → Bool) (hist : List (Call K F)) (s : Study K F) : Prop where
  name : s.name = lastSetting nameOf defaultName hist
  optName : s.opt.name = lastSetting nameOf defaultName hist
  evaluations : s.evaluations = lastSetting evaluationsOf 0 hist
  maxSamples : s.opt.maxSamples = lastSetting evaluationsOf 0 hist
  dimension : s.dimension = lastSetting dimensionOf 0 hist
  optDimension : s.opt.dimension = lastSetting dimensionOf 0 hist
  samples : s.samplesForDoE = lastSetting doeSamplesOf 0 hist
  starts : s.startWithDoE = (lastSetting (fun c => (doeSamplesOf c).map fun _ => true) false hist)
  directory : s.cwd = lastSetting (directoryOf isDir) [] hist
  method : s.doe = lastSetting methodOf "random".toList hist
  objective : s.opt.obj.map (fun o => (o.fn, o.name, o.file)) =
    lastSetting (fun c => (objectiveOf c).map some) none hist
  objFn : s.objFn = (lastSetting (fun c => (objectiveOf c).map some) none hist).map fun o => o.1

theorem API.opt_box_same (o : Opt K F) (b : Bounds K) :
    (o.setBoxConstraints b).1.name = o.name ∧ (o.setBoxConstraints b).1.maxSamples = o.maxSamples ∧
      (o.setBoxConstraints b).1.dimension = o.dimension ∧
      (o.setBoxConstraints b).1.obj.map (fun o => (o.fn, o.name, o.file)) =
        o.obj.map (fun o => (o.fn, o.name, o.file)) := by
  unfold Opt.setBoxConstraints
  dsimp only
  split_ifs
  · exact ⟨rfl, rfl, rfl, rfl⟩
  · exact ⟨rfl, rfl, rfl, rfl⟩
  all_goals
    cases ho : o.obj with
    | none => exact ⟨rfl, rfl, rfl, by simp⟩
    | some f =>
      dsimp only
      cases hf : f.setParameterBounds b with
      | error e => simp
      | ok f' =>
        obtain ⟨k1, k2, k3⟩ := setParameterBounds_keeps hf
        dsimp only
        split <;> simp [k1, k2, k3]

theorem API.step_box_same (s : Study K F) (lb ub : List K) :
    ∃ L U B O, (setBoxConstraints s lb ub).1 = { s with lb := L, ub := U, boxSet := B, opt := O } ∧
      O.name = s.opt.name ∧ O.maxSamples = s.opt.maxSamples ∧ O.dimension = s.opt.dimension ∧
      O.obj.map (fun o => (o.fn, o.name, o.file)) = s.opt.obj.map (fun o => (o.fn, o.name, o.file)) := by
  unfold setBoxConstraints
  split_ifs
  · exact ⟨s.lb, s.ub, s.boxSet, s.opt, rfl, rfl, rfl, rfl, rfl⟩
  · dsimp only
    split
    · exact ⟨_, _, s.boxSet, s.opt, rfl, rfl, rfl, rfl, rfl⟩
    · split
      · exact ⟨_, _, s.boxSet, s.opt, rfl, rfl, rfl, rfl, rfl⟩
      · rename_i b _
        have key := opt_box_same s.opt b
        split <;>
        · rename_i ho
          rw [ho] at key
          exact ⟨_, _, _, _, rfl, key⟩

theorem API.step_settings (isDir : Str → Bool) (hist : List (Call K F)) (s : Study K F) (c : Call K F)
    (h : HasSettings isDir hist s) (hf : fatal (step isDir s c).2 = false) :
    HasSettings isDir (hist ++ [c]) (step isDir s c).1 := by
  obtain ⟨h1, h2, h3, h4, h5, h6, h7, h8, h9, h10, h11, h12⟩ := h
  cases c with
  | setBoxConstraints lb ub =>
    obtain ⟨L, U, B, O, e, k1, k2, k3, k4⟩ := step_box_same s lb ub
    simp only [step]
    rw [e]
    constructor <;> rw [lastSetting_snoc]
    exacts [h1, k1.trans h2, h3, k2.trans h4, h5, k3.trans h6, h7, h8, h9, h10, k4.trans h11, h12]
  | setName n =>
    simp only [step, setName]
    split_ifs with hn
    · constructor <;> rw [lastSetting_snoc] <;> simp [nameOf, evaluationsOf, dimensionOf, doeSamplesOf,
        directoryOf, methodOf, objectiveOf, *]
    · constructor <;> rw [lastSetting_snoc] <;> simp [nameOf, evaluationsOf, dimensionOf, doeSamplesOf,
        directoryOf, methodOf, objectiveOf, *]
  | setCwd d =>
    simp only [step, setCwd]
    split_ifs with hn
    · constructor <;> rw [lastSetting_snoc] <;> simp [nameOf, evaluationsOf, dimensionOf, doeSamplesOf,
        directoryOf, methodOf, objectiveOf, *]
    · constructor <;> rw [lastSetting_snoc] <;> simp [nameOf, evaluationsOf, dimensionOf, doeSamplesOf,
        directoryOf, methodOf, objectiveOf, *]
  | setDoEStrategy i =>
    have hm : methodOf (.setDoEStrategy i : Call K F) =
        if i = [] then none else
        if i.map lower ≠ "lhs".toList ∧ i.map lower ≠ "random".toList then none else some (i.map lower) := by
      unfold methodOf
      by_cases h0 : i = []
      · subst h0
        rfl
      · rw [if_neg h0]
        dsimp only
        by_cases h1 : i.map lower = "lhs".toList
        · rw [if_pos h1, if_neg (by rw [h1]; simp), h1]
        · by_cases h2 : i.map lower = "random".toList
          · rw [if_neg h1, if_pos h2, if_neg (by rw [h2]; simp), h2]
          · rw [if_neg h1, if_neg h2, if_pos ⟨h1, h2⟩]
    simp only [step, setDoEStrategy]
    split_ifs with hn hl
    · rw [if_pos hn] at hm
      constructor <;> rw [lastSetting_snoc] <;> first | rw [hm] | skip
      exacts [h1, h2, h3, h4, h5, h6, h7, h8, h9, h10, h11, h12]
    · rw [if_neg hn, if_pos hl] at hm
      constructor <;> rw [lastSetting_snoc] <;> first | rw [hm] | skip
      exacts [h1, h2, h3, h4, h5, h6, h7, h8, h9, h10, h11, h12]
    · rw [if_neg hn, if_neg hl] at hm
      constructor <;> rw [lastSetting_snoc] <;> first | rw [hm] | skip
      exacts [h1, h2, h3, h4, h5, h6, h7, h8, h9, rfl, h11, h12]
  | setNameOfTrainingDataFile f =>
    simp only [step, setNameOfTrainingDataFile]
    split_ifs with hn <;> constructor <;> rw [lastSetting_snoc]
    exacts [h1, h2, h3, h4, h5, h6, h7, h8, h9, h10, h11, h12,
      h1, h2, h3, h4, h5, h6, h7, h8, h9, h10, h11, h12]
  | setDimension d =>
    simp only [step, setDimension]
    split_ifs with hn <;> constructor <;> rw [lastSetting_snoc]
    exacts [h1, h2, h3, h4, rfl, rfl, h7, h8, h9, h10, h11, h12,
      h1, h2, h3, h4, rfl, rfl, h7, h8, h9, h10, h11, h12]
  | setObjectiveFunction f n file =>
    simp only [step, setObjectiveFunction] at hf ⊢
    by_cases hfile : file = []
    · rw [if_pos hfile]
      have hm : objectiveOf (.setObjectiveFunction f n file : Call K F) = none := by
        cases f <;> simp [objectiveOf, hfile]
      constructor <;> rw [lastSetting_snoc] <;> first | rw [hm] | skip
      exacts [h1, h2, h3, h4, h5, h6, h7, h8, h9, h10, h11, h12]
    rw [if_neg hfile] at hf ⊢
    by_cases hname : n = []
    · rw [if_pos hname]
      have hm : objectiveOf (.setObjectiveFunction f n file : Call K F) = none := by
        cases f <;> simp [objectiveOf, hname]
      constructor <;> rw [lastSetting_snoc] <;> first | rw [hm] | skip
      exacts [h1, h2, h3, h4, h5, h6, h7, h8, h9, h10, h11, h12]
    rw [if_neg hname] at hf ⊢
    cases f with
    | none =>
      constructor <;> rw [lastSetting_snoc]
      exacts [h1, h2, h3, h4, h5, h6, h7, h8, h9, h10, h11, h12]
    | some g =>
      have hm : objectiveOf (.setObjectiveFunction (some g) n file : Call K F) = some (g, n, file) := by
        simp [objectiveOf, hname, hfile]
      dsimp only at hf ⊢
      split_ifs at hf ⊢ with hobj
      · simp [fatal] at hf
      · constructor <;> rw [lastSetting_snoc] <;> first | rw [hm] | skip
        exacts [h1, h2, h3, h4, h5, h6, h7, h8, h9, h10, rfl, rfl]
  | addConstraint f e file =>
    simp only [step, addConstraint]
    repeat' split
    all_goals
      constructor <;> rw [lastSetting_snoc]
      exacts [h1, h2, h3, h4, h5, h6, h7, h8, h9, h10, h11, h12]
  | setDoEOn n =>
    simp only [step, setDoEOn]
    constructor <;> rw [lastSetting_snoc]
    exacts [h1, h2, h3, h4, h5, h6, rfl, rfl, h9, h10, h11, h12]
  | setMaxEvaluations n =>
    simp only [step, setMaxEvaluations]
    constructor <;> rw [lastSetting_snoc]
    exacts [h1, h2, rfl, rfl, h5, h6, h7, h8, h9, h10, h11, h12]

/-- Induction over a history from its end. -/
theorem API.calls_snoc {isDir : Str → Bool} {P : List (Call K F) → Study K F → Prop} {s0 : Study K F}
    (h0 : P [] s0)
    (hstep : ∀ hist s c, P hist s → fatal (step isDir s c).2 = false → P (hist ++ [c]) (step isDir s c).1) :
    ∀ (hist : List (Call K F)) (s : Study K F), calls isDir s0 hist = some s → P hist s := by
  intro hist
  induction hist using List.reverseRecOn with
  | nil => intro s h; cases h; exact h0
  | append_singleton hist c ih =>
    intro s h
    rw [calls_append] at h
    obtain ⟨s1, h1, h2⟩ := Option.bind_eq_some_iff.1 h
    simp only [calls] at h2
    split_ifs at h2 with hf
    obtain rfl := Option.some.inj h2
    exact hstep hist s1 c (ih s1 h1) (by simpa using hf)

/-- **C94**: after every history of calls, accepted, rejected or malformed, the optimizer and the
initial sampling have the settings of the last well-formed calls, and the defaults where there is none. -/
theorem C94_settings {isDir : Str → Bool} {hist : List (Call K F)} {s : Study K F}
    (h : calls isDir new hist = some s) :
    s.opt.name = lastSetting nameOf "OptimizationStudy".toList hist ∧
      s.opt.maxSamples = lastSetting evaluationsOf 0 hist ∧
      s.opt.dimension = lastSetting dimensionOf 0 hist ∧
      s.opt.obj.map (fun o => (o.fn, o.name, o.file)) =
        lastSetting (fun c => (objectiveOf c).map some) none hist ∧
      s.objFn = (lastSetting (fun c => (objectiveOf c).map some) none hist).map (fun o => o.1) ∧
      s.name = lastSetting nameOf "OptimizationStudy".toList hist ∧
      s.evaluations = lastSetting evaluationsOf 0 hist ∧
      s.dimension = lastSetting dimensionOf 0 hist ∧
      s.samplesForDoE = lastSetting doeSamplesOf 0 hist ∧
      s.startWithDoE = hist.any (fun c => (doeSamplesOf c).isSome) ∧
      s.cwd = lastSetting (directoryOf isDir) [] hist ∧
      s.doe = lastSetting methodOf "random".toList hist := by
  obtain ⟨h1, h2, h3, h4, h5, h6, h7, h8, h9, h10, h11, h12⟩ :=
    calls_snoc (P := fun hist s => HasSettings isDir hist s)
      ⟨rfl, rfl, rfl, rfl, rfl, rfl, rfl, rfl, rfl, rfl, rfl, rfl⟩
      (fun hist s c hs hf => step_settings isDir hist s c hs hf) hist s h
  refine ⟨h2, h4, h6, h11, h12, h1, h3, h5, h7, ?_, h9, h10⟩
  rw [h8]
  clear h h1 h2 h3 h4 h5 h6 h7 h8 h9 h10 h11 h12
  induction hist using List.reverseRecOn with
  | nil => rfl
  | append_singleton hist c ih =>
    rw [lastSetting_snoc, List.any_append, ih]
    cases hc : doeSamplesOf c <;> simp [hc]

/-- A history with repeated, rejected and malformed calls. -/
example : ∃ s : Study ℚ Bool, calls (fun d => d = "run".toList) new
      [.setName "a".toList, .setDimension 2, .setMaxEvaluations 5,
       .setObjectiveFunction none "g".toList "g.csv".toList,
       .setObjectiveFunction (some true) "f".toList "f.csv".toList, .setCwd "run".toList,
       .setCwd "nowhere".toList, .setDoEStrategy "LHS".toList, .setDoEStrategy "grid".toList,
       .setName "b".toList, .setName [], .setMaxEvaluations 7] = some s ∧
    s.opt.name = "b".toList ∧ s.opt.maxSamples = 7 ∧ s.opt.dimension = 2 ∧ s.cwd = "run".toList ∧
    s.doe = "lhs".toList := by
  exact ⟨(calls (fun d => d = "run".toList) new
      [.setName "a".toList, .setDimension 2, .setMaxEvaluations 5,
       .setObjectiveFunction none "g".toList "g.csv".toList,
       .setObjectiveFunction (some true) "f".toList "f.csv".toList, .setCwd "run".toList,
       .setCwd "nowhere".toList, .setDoEStrategy "LHS".toList, .setDoEStrategy "grid".toList,
       .setName "b".toList, .setName [], .setMaxEvaluations 7]).getD new, by decide +kernel⟩

/-! ## C95: the order of the calls -/

/-- The full claim: if all calls have been accepted and nothing mandatory is missing, the functions are
ready for the run, whatever the order of the calls was. -/
def C95_full (K F : Type) [Field K] [LinearOrder K] [IsStrictOrderedRing K] [FloorRing K] : Prop :=
  ∀ (isDir : Str → Bool) (hist : List (Call K F)) (s : Study K F), AllAccepted isDir hist →
    calls isDir new hist = some s → checkSettings s = .ok () → FunctionsPrepared s

/-- Decides whether all calls are accepted. -/
def API.allOk (isDir : Str → Bool) (s : Study K F) : List (Call K F) → Bool
  | [] => true
  | c :: cs => match (step isDir s c).2 with
    | .ok () => allOk isDir (step isDir s c).1 cs
    | .error _ => false

theorem API.allAccepted_of {isDir : Str → Bool} {hist : List (Call K F)}
    (h : allOk isDir new hist = true) : AllAccepted isDir hist := by
  suffices ∀ (hist : List (Call K F)) (s : Study K F), allOk isDir s hist = true →
      ∀ pre c post, hist = pre ++ c :: post →
        ∃ s', calls isDir s pre = some s' ∧ (step isDir s' c).2 = .ok () from this hist new h
  intro hist
  induction hist with
  | nil => intro s _ pre c post e; simp at e
  | cons d hist ih =>
    intro s hs pre c post e
    unfold allOk at hs
    cases hd : (step isDir s d).2 with
    | error e' => rw [hd] at hs; cases hs
    | ok u =>
      rw [hd] at hs
      cases pre with
      | nil =>
        obtain ⟨rfl, rfl⟩ := List.cons.inj e
        exact ⟨s, rfl, hd⟩
      | cons p pre =>
        obtain ⟨rfl, e2⟩ := List.cons.inj e
        obtain ⟨s', h1, h2⟩ := ih _ hs pre c post e2
        refine ⟨s', ?_, h2⟩
        unfold calls
        rw [hd, if_neg (by simp [fatal])]
        exact h1

/-- **C95 fails** for a constraint added after the bounds: every call is accepted, the check before the
run passes, and the constraint has no bounds. -/
theorem C95_false : ¬ C95_full ℚ Bool := by
  intro h
  have := (h (fun _ => true) [.setDimension 1,
    .setObjectiveFunction (some false) "f".toList "f.csv".toList, .setBoxConstraints [0] [1],
    .addConstraint (some true) "g > 1".toList "g.csv".toList, .setMaxEvaluations 5]
    ((calls (fun _ => true) new [.setDimension 1,
      .setObjectiveFunction (some false) "f".toList "f.csv".toList, .setBoxConstraints [0] [1],
      .addConstraint (some true) "g > 1".toList "g.csv".toList, .setMaxEvaluations 5]).getD new)
    (allAccepted_of (by decide +kernel)) (by decide +kernel) (by decide +kernel)).2
  exact absurd this (by decide +kernel)

/-- **C95 also fails** for an objective function set before the dimension: it has dimension 0. -/
theorem C95_false_dimension : ∃ s : Study ℚ Bool,
    AllAccepted (fun _ => true) ([.setObjectiveFunction (some false) "f".toList "f.csv".toList,
      .setDimension 1, .setBoxConstraints [0] [1], .setMaxEvaluations 5] : List (Call ℚ Bool)) ∧
    calls (fun _ => true) new [.setObjectiveFunction (some false) "f".toList "f.csv".toList,
      .setDimension 1, .setBoxConstraints [0] [1], .setMaxEvaluations 5] = some s ∧
    checkSettings s = .ok () ∧ s.dimension = 1 ∧ s.opt.obj.map (fun o => o.dim) = some 0 :=
  ⟨(calls (fun _ => true) new [.setObjectiveFunction (some false) "f".toList "f.csv".toList,
      .setDimension 1, .setBoxConstraints [0] [1], .setMaxEvaluations 5]).getD new,
    allAccepted_of (by decide +kernel), by decide +kernel⟩

/-- **C95 for the order dimension, functions, bounds**: if the dimension is set first, the bounds are
set once, to valid ones, and no function is added after them, the objective function and all constraints
have the dimension and the given bounds; all other calls may stand anywhere and may be rejected. -/
theorem C95_partial {isDir : Str → Bool} {h1 h2 : List (Call K F)} {d : Nat} {lb ub : List K}
    {s : Study K F} (hbox : ValidBox d lb ub)
    (hs : calls isDir new (.setDimension d :: h1 ++ .setBoxConstraints lb ub :: h2) = some s)
    (hobj : ∃ c ∈ h1, (objectiveOf c).isSome = true)
    (hdim : ∀ c ∈ h1 ++ h2, ¬ SetsDimension c) (hone : ∀ c ∈ h1 ++ h2, ¬ SetsBox c)
    (hadd : ∀ c ∈ h2, ¬ AddsFunction c) :
    FunctionsPrepared s ∧ s.dimension = d ∧ s.lb = lb ∧ s.ub = ub := by
  rw [calls_append] at hs
  obtain ⟨s1, hs1, hs2⟩ := Option.bind_eq_some_iff.1 hs
  have ho : s1.opt.obj.isSome = true := by
    have e := (C94_settings hs1).2.2.2.1
    have : (lastSetting (fun c => (objectiveOf c).map some) none (.setDimension d :: h1)).isSome = true := by
      obtain ⟨c, hc, hsome⟩ := hobj
      unfold lastSetting
      have hmem : ∃ a, a ∈ (Call.setDimension d :: h1).filterMap (fun c => (objectiveOf c).map some) := by
        obtain ⟨a, ha⟩ := Option.isSome_iff_exists.1 hsome
        exact ⟨some a, List.mem_filterMap.2 ⟨c, by simp [hc], by simp [ha]⟩⟩
      cases hl : ((Call.setDimension d :: h1).filterMap (fun c => (objectiveOf c).map some)).getLast? with
      | none =>
        rw [List.getLast?_eq_none_iff] at hl
        rw [hl] at hmem
        obtain ⟨a, ha⟩ := hmem
        simp at ha
      | some a =>
        have := List.mem_of_getLast? hl
        obtain ⟨c', -, hc'⟩ := List.mem_filterMap.1 this
        obtain ⟨b, -, rfl⟩ := Option.map_eq_some_iff.1 hc'
        rfl
    rw [← e] at this
    simpa using this
  have hd1 : DimIs d s1 := calls_dim hbox.1 hs1 (fun c hc => hdim c (by simp [hc]))
  obtain ⟨k1, k2, -⟩ := C38_exact (calls_ordered hs1) hd1 ho hbox
  have hnil := calls_noBox hs1 (fun c hc => hone c (by simp [hc]))
  have hok := k1.2 hnil
  have hd2 : DimIs d (setBoxConstraints s1 lb ub).1 :=
    step_dim isDir s1 (.setBoxConstraints lb ub) d (fun h => h) hd1
  unfold calls at hs2
  split_ifs at hs2 with hf
  have key : HasBox s d lb ub ∧ DimIs d s := by
    refine calls_inv' (isDir := isDir)
      (fun c => ¬ SetsDimension c ∧ ¬ SetsBox c ∧ ¬ AddsFunction c)
      (fun s => HasBox s d lb ub ∧ DimIs d s) (fun s c hc hs _ => ?_) h2 _ s
      (fun c hc => ⟨hdim c (by simp [hc]), hone c (by simp [hc]), hadd c hc⟩) ⟨k2 hnil, hd2⟩ hs2
    cases c with
    | setBoxConstraints lb ub => exact absurd trivial hc.2.1
    | setDimension d => exact absurd trivial hc.1
    | setObjectiveFunction f n file => exact absurd trivial hc.2.2
    | addConstraint f e file => exact absurd trivial hc.2.2
    | setName n => simp only [step, setName]; split_ifs <;> exact hs
    | setCwd d => simp only [step, setCwd]; split_ifs <;> exact hs
    | setDoEStrategy i => simp only [step, setDoEStrategy]; split_ifs <;> exact hs
    | setNameOfTrainingDataFile f => simp only [step, setNameOfTrainingDataFile]; split_ifs <;> exact hs
    | setDoEOn n => exact hs
    | setMaxEvaluations n => exact hs
  obtain ⟨⟨b1, b2, -, -, ⟨o, b5, b6⟩, b7, -⟩, c1, -, c3, c4⟩ := key
  refine ⟨⟨⟨o, b5, (c3 o b5).trans c1.symm, by rw [b6, b1, b2, c1]⟩, fun c hc =>
    ⟨(c4 c hc).trans c1.symm, by rw [b7 c hc, b1, b2, c1]⟩⟩, c1, b1, b2⟩

/-- A history with a constraint and a rejected call. -/
example : ∃ s : Study ℚ Bool,
    calls (fun _ => true) new (.setDimension 1 ::
      [.setObjectiveFunction (some false) "f".toList "f.csv".toList,
       .addConstraint (some true) "g > 1".toList "g.csv".toList, .setName []] ++
      .setBoxConstraints [0] [1] :: [.setMaxEvaluations 5]) = some s ∧
    checkSettings s = .ok () ∧ s.opt.constraints.map (fun c => c.base.box) = [some ⟨[0], [1], 1, true⟩] :=
  ⟨(calls (fun _ => true) new (.setDimension 1 ::
      [.setObjectiveFunction (some false) "f".toList "f.csv".toList,
       .addConstraint (some true) "g > 1".toList "g.csv".toList, .setName []] ++
      .setBoxConstraints [0] [1] :: [.setMaxEvaluations 5])).getD new, by decide +kernel⟩

end Rodeo
