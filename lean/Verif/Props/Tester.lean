import Verif.Spec.Tester
import Verif.Lemmas.TesterKriging
import Verif.Lemmas.Campaign

set_option linter.unusedSectionVars false

/-! # Testing a model of a chosen type (C99) -/

namespace Rodeo

open Text Spec Mat Finset

variable {K : Type} [Field K] [LinearOrder K] [IsStrictOrderedRing K]

/-! ## What the calls leave -/

theorem lastOf_cons {α β : Type} (f : α → Option β) (c : α) (cs : List α) :
    lastOf f (c :: cs) = (lastOf f cs).or (f c) := by
  unfold lastOf
  cases h : f c with
  | none => rw [List.filterMap_cons_none h, Option.or_none]
  | some b =>
    rw [List.filterMap_cons_some h, List.getLast?_cons]
    cases (cs.filterMap f).getLast? <;> rfl

theorem getD_or {β : Type} (a b : Option β) (d : β) : (a.or b).getD d = a.getD (b.getD d) := by
  cases a <;> rfl

/-- What accepted calls leave. -/
structure After (cs : List (TesterCall K)) (t t' : Tester K) : Prop where
  name : t'.settings.name = (lastOf nameSet cs).getD t.settings.name
  dimension : t'.settings.dimension = (lastOf dimensionSet cs).getD t.settings.dimension
  iterations : t'.settings.iterations = (lastOf iterationsSet cs).getD t.settings.iterations
  box : t'.settings.box = (lastOf boxSet cs).getD t.settings.box
  training : t'.settings.trainingFile = (lastOf trainingSet cs).getD t.settings.trainingFile
  test : t'.settings.testFile = (lastOf testSet cs).getD t.settings.testFile
  warm : t'.settings.readWarm = (lastOf warmSet cs).getD t.settings.readWarm
  variances : t'.settings.variances = (lastOf variancesSet cs).getD t.settings.variances
  type : t'.settings.type = (lastOf typeSet cs).or t.settings.type
  bound : t'.settings.bound = (t.settings.bound || !(boundTypes t.settings.type cs).isEmpty)
  pointer : t'.pointer = ((boundTypes t.settings.type cs).filterMap objectOf).getLast?.or t.pointer
  linear : t'.linear = t.linear
  kriging : ∀ lin N, t.kriging.1 = Kriging.fresh lin N →
    ∃ N', t'.kriging.1 = Kriging.fresh (lin || decide (TestedType.universal ∈ boundTypes t.settings.type cs)) N'
  members : t'.kriging.2 = t.kriging.2
  goodName : ∀ n, lastOf nameSet cs = some n → n ≠ []
  goodTraining : ∀ n, lastOf trainingSet cs = some n → Tester.checkFilename n = .ok ()
  goodTest : ∀ n, lastOf testSet cs = some n → Tester.checkFilename n = .ok ()

theorem After.nil (t : Tester K) : After [] t t := by
  refine ⟨rfl, rfl, rfl, rfl, rfl, rfl, rfl, rfl, rfl, ?_, rfl, rfl, fun lin N h => ⟨N, ?_⟩, rfl, ?_, ?_, ?_⟩
  · simp [boundTypes]
  · simpa [boundTypes] using h
  all_goals intro n h; cases h

theorem boundTypes_cons (type : Option TestedType) (c : TesterCall K) (cs : List (TesterCall K)) :
    boundTypes type (c :: cs) = boundTypes type [c] ++ boundTypes ((typeSet c).or type) cs := by
  simp [boundTypes]

theorem last_good {β : Type} {f : TesterCall K → Option β} {c : TesterCall K} {cs : List (TesterCall K)}
    {P : β → Prop} (h1 : ∀ n, lastOf f [c] = some n → P n) (h2 : ∀ n, lastOf f cs = some n → P n) :
    ∀ n, lastOf f (c :: cs) = some n → P n := by
  intro n h
  rw [lastOf_cons] at h
  cases h' : lastOf f cs with
  | some m => rw [h'] at h; cases h; exact h2 _ h'
  | none =>
    rw [h'] at h
    refine h1 n ?_
    rw [lastOf_cons]
    exact h

theorem After.cons {c : TesterCall K} {cs : List (TesterCall K)} {t t1 t' : Tester K} (h1 : After [c] t t1)
    (h2 : After cs t1 t') : After (c :: cs) t t' := by
  have hl : ∀ {β : Type} (f : TesterCall K → Option β) (d : β),
      (lastOf f cs).getD ((lastOf f [c]).getD d) = (lastOf f (c :: cs)).getD d := by
    intro β f d
    rw [lastOf_cons f c cs, getD_or, lastOf_cons f c []]
    rfl
  have ht : t1.settings.type = (typeSet c).or t.settings.type := by
    rw [h1.type, lastOf_cons]; rfl
  have hB : boundTypes t.settings.type (c :: cs) = boundTypes t.settings.type [c] ++ boundTypes t1.settings.type cs := by
    rw [boundTypes_cons, ht]
  refine ⟨by rw [h2.name, h1.name, hl], by rw [h2.dimension, h1.dimension, hl],
    by rw [h2.iterations, h1.iterations, hl], by rw [h2.box, h1.box, hl],
    by rw [h2.training, h1.training, hl], by rw [h2.test, h1.test, hl], by rw [h2.warm, h1.warm, hl],
    by rw [h2.variances, h1.variances, hl], ?_, ?_, ?_, h2.linear.trans h1.linear, ?_,
    h2.members.trans h1.members, last_good h1.goodName h2.goodName, last_good h1.goodTraining h2.goodTraining,
    last_good h1.goodTest h2.goodTest⟩
  · rw [h2.type, ht, lastOf_cons, Option.or_assoc]
  · rw [h2.bound, h1.bound, hB, Bool.or_assoc]
    congr 1
    cases boundTypes t.settings.type [c] <;> simp
  · rw [h2.pointer, h1.pointer, hB, List.filterMap_append, List.getLast?_append, Option.or_assoc]
  · intro lin N hk
    obtain ⟨N1, e1⟩ := h1.kriging lin N hk
    obtain ⟨N2, e2⟩ := h2.kriging _ _ e1
    refine ⟨N2, ?_⟩
    rw [e2, hB]
    congr 1
    rw [Bool.or_assoc]
    congr 1
    simp [List.mem_append]

/-- One accepted call. -/
theorem call_after {c : TesterCall K} {t t' : Tester K} (h : t.call c = (t', .ok ()))
    (hv : ∀ v, c ≠ .setRatioValidationSamples v) : After [c] t t' := by
  cases c with
  | setRatioValidationSamples v => exact absurd rfl (hv v)
  | setName n =>
    simp only [Tester.call] at h
    split at h
    · cases h
    · rename_i hn
      cases h
      exact ⟨rfl, rfl, rfl, rfl, rfl, rfl, rfl, rfl, rfl, by simp [boundTypes], rfl, rfl,
        fun lin N h => ⟨N, by simpa [boundTypes] using h⟩, rfl, fun m h => (by cases h; exact hn),
        fun m h => (by cases h), fun m h => (by cases h)⟩
  | setDimension n =>
    cases h
    exact ⟨rfl, rfl, rfl, rfl, rfl, rfl, rfl, rfl, rfl, by simp [boundTypes], rfl, rfl,
      fun lin N h => ⟨N, by simpa [boundTypes] using h⟩, rfl, fun m h => (by cases h),
      fun m h => (by cases h), fun m h => (by cases h)⟩
  | setNumberOfTrainingIterations n =>
    simp only [Tester.call, Tester.setNumberOfTrainingIterations] at h
    split at h
    · split at h
      · cases h
      · cases h
        exact ⟨rfl, rfl, rfl, rfl, rfl, rfl, rfl, rfl, rfl, by simp [boundTypes], rfl, rfl,
          fun lin N h => ⟨N, by simpa [boundTypes] using h⟩, rfl, fun m h => (by cases h),
          fun m h => (by cases h), fun m h => (by cases h)⟩
      · cases h
        refine ⟨rfl, rfl, rfl, rfl, rfl, rfl, rfl, rfl, rfl, by simp [boundTypes], rfl, rfl,
          fun lin N h => ⟨n, ?_⟩, rfl, fun m h => (by cases h),
          fun m h => (by cases h), fun m h => (by cases h)⟩
        dsimp only
        rw [h]
        simp [boundTypes, Kriging.fresh, Kriging.setNumberOfTrainingIterations]
    · cases h
      exact ⟨rfl, rfl, rfl, rfl, rfl, rfl, rfl, rfl, rfl, by simp [boundTypes], rfl, rfl,
        fun lin N h => ⟨N, by simpa [boundTypes] using h⟩, rfl, fun m h => (by cases h),
        fun m h => (by cases h), fun m h => (by cases h)⟩
  | setSurrogateModel type =>
    cases h
    exact ⟨rfl, rfl, rfl, rfl, rfl, rfl, rfl, rfl, rfl, by simp [boundTypes], rfl, rfl,
      fun lin N h => ⟨N, by simpa [boundTypes] using h⟩, rfl, fun m h => (by cases h),
      fun m h => (by cases h), fun m h => (by cases h)⟩
  | bindSurrogateModels =>
    simp only [Tester.call, Tester.bindSurrogateModels] at h
    split at h
    · cases h
    all_goals
      rename_i hty
      cases h
      refine ⟨rfl, rfl, rfl, rfl, rfl, rfl, rfl, rfl, rfl, by simp [boundTypes, hty], ?_, rfl,
        fun lin N h => ⟨N, ?_⟩, rfl, fun m h => (by cases h), fun m h => (by cases h), fun m h => (by cases h)⟩
      · simp [boundTypes, hty, objectOf]
      · dsimp only
        rw [h]
        simp [boundTypes, hty, Kriging.fresh, Kriging.setLinearRegression]
  | setBoxConstraints b =>
    simp only [Tester.call] at h
    split at h
    · cases h
    · cases h
      exact ⟨rfl, rfl, rfl, rfl, rfl, rfl, rfl, rfl, rfl, by simp [boundTypes], rfl, rfl,
        fun lin N h => ⟨N, by simpa [boundTypes] using h⟩, rfl, fun m h => (by cases h),
        fun m h => (by cases h), fun m h => (by cases h)⟩
  | setFileNameTrainingData n =>
    simp only [Tester.call] at h
    obtain ⟨⟨⟩, hn, h⟩ := bind_ok_inv (commit_inv h)
    cases h
    exact ⟨rfl, rfl, rfl, rfl, rfl, rfl, rfl, rfl, rfl, by simp [boundTypes], rfl, rfl,
      fun lin N h => ⟨N, by simpa [boundTypes] using h⟩, rfl, fun m h => (by cases h),
      fun m h => (by cases h; exact hn), fun m h => (by cases h)⟩
  | setFileNameTestData n =>
    simp only [Tester.call] at h
    obtain ⟨⟨⟩, hn, h⟩ := bind_ok_inv (commit_inv h)
    cases h
    exact ⟨rfl, rfl, rfl, rfl, rfl, rfl, rfl, rfl, rfl, by simp [boundTypes], rfl, rfl,
      fun lin N h => ⟨N, by simpa [boundTypes] using h⟩, rfl, fun m h => (by cases h),
      fun m h => (by cases h), fun m h => (by cases h; exact hn)⟩
  | setReadWarmStart f =>
    cases h
    exact ⟨rfl, rfl, rfl, rfl, rfl, rfl, rfl, rfl, rfl, by simp [boundTypes], rfl, rfl,
      fun lin N h => ⟨N, by simpa [boundTypes] using h⟩, rfl, fun m h => (by cases h),
      fun m h => (by cases h), fun m h => (by cases h)⟩
  | setVariances f =>
    cases h
    exact ⟨rfl, rfl, rfl, rfl, rfl, rfl, rfl, rfl, rfl, by simp [boundTypes], rfl, rfl,
      fun lin N h => ⟨N, by simpa [boundTypes] using h⟩, rfl, fun m h => (by cases h),
      fun m h => (by cases h), fun m h => (by cases h)⟩

/-- Accepted calls. -/
theorem calls_after {cs : List (TesterCall K)} (hv : NoValidation cs) : ∀ {t t' : Tester K},
    testerCalls t cs = (t', .ok ()) → After cs t t' := by
  induction cs with
  | nil => intro t t' h; cases h; exact After.nil t
  | cons c cs ih =>
    intro t t' h
    obtain ⟨t1, h1, h2⟩ := andThen_inv h
    exact (call_after h1 fun v hc => hv v (by simp [hc])).cons
      (ih (fun v hc => hv v (List.mem_cons_of_mem _ hc)) h2)

/-! ## Tests of models -/

/-- The name of the file with the results. -/
def Spec.resultsFile : Str := "surrogateTestResults.csv".toList

/-- A tester that was set up by the calls `cs`: their last values are a name, a box of `dim` intervals,
the name of a file with `n` training samples `F`, and the name of a file with `N` test samples `G`. -/
structure Spec.TestSetup [FloorRing K] (cs : List (TesterCall K)) (t : Tester K) (files : Files)
    (values : Bool) (n N dim : Nat) (F G : Nat → Nat → K) (b : Bounds K) : Prop where
  accepted : testerCalls Tester.new cs = (t, .ok ())
  noValidation : NoValidation cs
  name : ∃ s, lastOf nameSet cs = some s
  dimension : lastOf dimensionSet cs = some dim
  dimPos : 0 < dim
  box : lastOf boxSet cs = some b
  proper : ProperBox b dim
  training : ∃ s A, lastOf trainingSet cs = some s ∧ readFromCSV (files s) false = .ok A ∧ IsMat A n (dim + 1) F
  test : ∃ s, lastOf testSet cs = some s ∧ TestFile (files s) values N dim G

/-- The test reports the ridge regression of the training data: the results file has its predictions for
the test samples, and the training error that is logged is its mean squared error at the training
samples. -/
def Spec.ReportsRidge [FloorRing K] (t : Tester K) (S : Fns K) (R : TesterEnv K) (files : Files)
    (values : Bool) (n N dim : Nat) (F G : Nat → Nat → K) (b : Bounds K) : Prop :=
  ∃ t' w file, t.perform S R files = ((t', files.put resultsFile file),
      .ok (meanSquare n (fun i => F i dim) (fun i => affine dim w (normalized b dim F i)))) ∧
    IsRidge n dim (normalized b dim F) (fun i => F i dim) (1 / 10 ^ 8) w ∧
    ReportFile file values false N dim G (fun i => affine dim w (normalized b dim G i)) (fun _ => 0)

/-- The full property: for every way to set up a tester, if the type that was set last is the linear
model (and the models were bound, and no variances are wanted), the test reports the ridge regression. -/
def C99_full (K : Type) [Field K] [LinearOrder K] [IsStrictOrderedRing K] [FloorRing K] : Prop :=
  ∀ (cs : List (TesterCall K)) (t : Tester K) (files : Files) (values : Bool) (n N dim : Nat)
    (F G : Nat → Nat → K) (b : Bounds K) (S : Fns K) (R : TesterEnv K),
    TestSetup cs t files values n N dim F G b → dim ≤ 99 → R.perm.Perm (List.range n) →
    lastOf typeSet cs = some .linear → .bindSurrogateModels ∈ cs →
    (lastOf variancesSet cs).getD false = false →
    ReportsRidge t S R files values n N dim F G b

theorem affine_mapped {dim : Nat} (w X : Nat → K) :
    affine dim w (vecFun ((List.range dim).map X)) = affine dim w X := by
  unfold affine
  congr 1
  refine sum_congr rfl fun j hj => ?_
  rw [Corr.vecFun_map X (mem_range.1 hj)]

section setup
variable [FloorRing K] {cs : List (TesterCall K)} {t : Tester K} {files : Files} {values : Bool} {n N dim : Nat}
  {F G : Nat → Nat → K} {b : Bounds K}

/-- What the calls of a setup leave. -/
theorem Spec.TestSetup.after (h : TestSetup cs t files values n N dim F G b) : After cs Tester.new t :=
  calls_after h.noValidation h.accepted

theorem Spec.TestSetup.facts (h : TestSetup cs t files values n N dim F G b) :
    t.settings.dimension = dim ∧ t.settings.box = b ∧
      (∃ A, readFromCSV (files t.settings.trainingFile) false = .ok A ∧ IsMat A n (dim + 1) F) ∧
      TestFile (files t.settings.testFile) values N dim G := by
  have ha := h.after
  obtain ⟨s, A, h1, h2, h3⟩ := h.training
  obtain ⟨s', h4, h5⟩ := h.test
  refine ⟨by rw [ha.dimension, h.dimension]; rfl, by rw [ha.box, h.box]; rfl, ⟨A, ?_, h3⟩, ?_⟩
  · rw [ha.training, h1]; exact h2
  · rw [ha.test, h4]; exact h5

theorem Spec.TestSetup.check (h : TestSetup cs t files values n N dim F G b)
    (hb : boundTypes none cs ≠ []) : t.check = .ok () := by
  have ha := h.after
  obtain ⟨h1, h2, -, -⟩ := h.facts
  obtain ⟨s, A, h3, -⟩ := h.training
  obtain ⟨s', h4, -⟩ := h.test
  obtain ⟨s'', h5⟩ := h.name
  have hbound : t.settings.bound = true := by
    rw [ha.bound]
    show (false || !(boundTypes none cs).isEmpty) = true
    cases hl : boundTypes none cs with
    | nil => exact absurd hl hb
    | cons x xs => rfl
  unfold Tester.check
  rw [if_neg (by rw [h2, h.proper.set]; simp), if_neg (by rw [hbound]; simp),
    if_neg (by rw [ha.name, h5]; exact ha.goodName _ h5), if_neg (by rw [h1]; exact h.dimPos.ne')]
  refine bind_eq (a := ()) ?_ ?_
  · rw [ha.training, h3]; exact ha.goodTraining _ h3
  · rw [ha.test, h4]; exact ha.goodTest _ h4

theorem fresh_ready : LinearReady (LinearModel.new : LinearModel K) dim values :=
  ⟨rfl, rfl, Or.inl rfl, rfl, rfl, ⟨[], hasRows_empty _⟩, Bool.or_false values⟩

theorem boundTypes_ne {cs : List (TesterCall K)} {o : TestedObject}
    (h : ((boundTypes none cs).filterMap objectOf).getLast? = some o) : boundTypes none cs ≠ [] := by
  intro h0
  rw [h0] at h
  cases h

/-- The training error of the tested linear model. -/
theorem LinearTested.inSample {m : LinearModel K} {w : Nat → K} (h : LinearTested m values n N dim F G b w)
    (hn : 0 < n) (perm : List Nat) (e : TestMembers K) :
    ((linearClass perm).view (m, e)).calculateInSampleError ((linearClass perm).predictor m) .functionValues =
      .ok (meanSquare n (fun i => F i dim) (fun i => affine dim w (normalized b dim F i))) := by
  have hget : ∀ i, i < n → (List.range n).getD i 0 = i := fun i hi => by simp [List.getD, hi]
  have := inSample_ok (t := (linearClass perm).view (m, e)) (n := n) (N := n) (tr := List.range n)
    (P := m.predictor) (f := fun i => affine dim w (normalized b dim F i)) (b := b) h.isInitialized
    h.dimension h.raw h.count (h.inputs.congr fun i j hi _ => by rw [hget i hi]) le_rfl hn
    (fun i _ => (h.predicts _ (by simp)).trans (by rw [affine_mapped]))
  refine this.trans ?_
  congr 1
  unfold meanSquare
  congr 1
  refine sum_congr rfl fun i hi => ?_
  beta_reduce
  rw [hget i (mem_range.1 hi)]

end setup

section linear
variable [FloorRing K] {cs : List (TesterCall K)} {t : Tester K} {files : Files} {values : Bool} {n N dim : Nat}
  {F G : Nat → Nat → K} {b : Bounds K}

/-- A test with the linear model, whatever else has been set or tested with the tester before. -/
theorem perform_linear (S : Fns K) {R : TesterEnv K} (hchk : t.check = .ok ())
    (hp : t.pointer = some .linear) :
    t.perform S R files =
      ((({ t with linear := ((linearClass R.perm).report t.settings (files t.settings.trainingFile)
          (files t.settings.testFile) (files (t.settings.name ++ "_hyperparameters.csv".toList))
          (t.linear, files t.linear.2.resultsName)).1.1 },
        files.put t.linear.2.resultsName ((linearClass R.perm).report t.settings
          (files t.settings.trainingFile) (files t.settings.testFile)
          (files (t.settings.name ++ "_hyperparameters.csv".toList))
          (t.linear, files t.linear.2.resultsName)).1.2)),
        ((linearClass R.perm).perform t.settings (files t.settings.trainingFile)
          (files t.settings.testFile) (files (t.settings.name ++ "_hyperparameters.csv".toList))
          (t.linear, files t.linear.2.resultsName)).2) := by
  unfold Tester.perform
  rw [hchk]
  dsimp only
  rw [hp]
  rfl

/-- **C99, the linear model.** However the tester was set up: if the type at the last call of
`bindSurrogateModels` with a type that can be tested was the linear model, the test writes the predictions
of the ridge regression of the training file to the results file, changes no other file, and logs the
training error of this regression.  The type that is set after this call plays no role. -/
theorem C99_linear (h : TestSetup cs t files values n N dim F G b) (h99 : dim ≤ 99) (S : Fns K)
    {R : TesterEnv K} (hR : R.perm.Perm (List.range n))
    (hb : ((boundTypes none cs).filterMap objectOf).getLast? = some .linear)
    (hv : (lastOf variancesSet cs).getD false = false) :
    ReportsRidge t S R files values n N dim F G b := by
  have ha := h.after
  have hchk := h.check (boundTypes_ne hb)
  obtain ⟨h1, h2, h3, h4⟩ := h.facts
  have hptr : t.pointer = some .linear := by rw [ha.pointer]; show Option.or _ _ = _; rw [show Tester.new.settings.type = none from rfl, hb]; rfl
  have hlin : t.linear = (LinearModel.new, .new) := ha.linear
  have hvar : t.settings.variances = false := by rw [ha.variances]; exact hv
  have hN : 0 < N := by
    obtain ⟨B, g1, g2⟩ := h4
    exact readFromCSV_pos g1 g2
  have hn : 0 < n := by
    obtain ⟨B, g1, g2⟩ := h3
    exact readFromCSV_pos g1 g2
  obtain ⟨m', w, e1, hm⟩ := linear_run (m := LinearModel.new) (e := .new) h1 h2 fresh_ready h.proper h.dimPos h99
    h3 h4 hR (files (t.settings.name ++ "_hyperparameters.csv".toList)) (files resultsFile)
  obtain ⟨e', file, e2, hrf, -, -⟩ := ModelClass.finish_ok (linear_frame R.perm) (c := t.settings) (m := m')
    (f := fun i => affine dim w (normalized b dim G i)) (v := fun _ => 0) hm.test hN hm.dimension
    (e := { (TestMembers.new : TestMembers K) with hasTestData := true, isTestRead := true, isTestNormalized := true })
    rfl rfl (show resultsFile ≠ [] by decide) (by
      intro i _
      unfold ModelClass.mode
      rw [hvar]
      refine bind_eq (hm.predicts _ (by simp)) ?_
      rw [affine_mapped]) (files resultsFile)
  rw [e2] at e1
  rw [hvar] at hrf
  refine ⟨{ t with linear := (m', e') }, w, file, ?_, hm.ridge, hrf⟩
  rw [perform_linear S hchk hptr]
  have e3 : (linearClass R.perm).report t.settings (files t.settings.trainingFile) (files t.settings.testFile)
      (files (t.settings.name ++ "_hyperparameters.csv".toList)) (t.linear, files t.linear.2.resultsName) =
      (((m', e'), file), .ok ()) := by
    rw [hlin]; exact e1
  unfold ModelClass.perform
  dsimp only
  rw [e3, hlin]
  refine Prod.ext rfl ?_
  exact hm.inSample hn R.perm e'

/-- **C99, the linear model with variances.** If variances are wanted, the test of the linear model throws
and changes no file. -/
theorem C99_variances (h : TestSetup cs t files values n N dim F G b) (h99 : dim ≤ 99) (S : Fns K)
    {R : TesterEnv K} (hR : R.perm.Perm (List.range n))
    (hb : ((boundTypes none cs).filterMap objectOf).getLast? = some .linear)
    (hv : (lastOf variancesSet cs).getD false = true) :
    ∃ t', t.perform S R files = ((t', files), .error .logicError) := by
  have ha := h.after
  have hchk := h.check (boundTypes_ne hb)
  obtain ⟨h1, h2, h3, h4⟩ := h.facts
  have hptr : t.pointer = some .linear := by rw [ha.pointer]; show Option.or _ _ = _; rw [show Tester.new.settings.type = none from rfl, hb]; rfl
  have hlin : t.linear = (LinearModel.new, .new) := ha.linear
  have hvar : t.settings.variances = true := by rw [ha.variances]; exact hv
  have hN : 0 < N := by
    obtain ⟨B, g1, g2⟩ := h4
    exact readFromCSV_pos g1 g2
  obtain ⟨m', w, e1, hm⟩ := linear_run (m := LinearModel.new) (e := .new) h1 h2 fresh_ready h.proper h.dimPos h99
    h3 h4 hR (files (t.settings.name ++ "_hyperparameters.csv".toList)) (files resultsFile)
  set e5 : TestMembers K := { (TestMembers.new : TestMembers K) with hasTestData := true, isTestRead := true, isTestNormalized := true } with he5
  have e2 : (linearClass R.perm).finish t.settings ((m', e5), files resultsFile) =
      (((m', e5), files resultsFile), .error .logicError) := by
    unfold ModelClass.finish
    refine andThen_error ?_ _
    have hmode : ModelClass.mode t.settings = .withVariances := by
      unfold ModelClass.mode
      rw [hvar]; rfl
    have := ModelTest.tryOnTestData_error (t := (linearClass R.perm).view (m', e5)) (P := m'.predictor)
      (mode := ModelClass.mode t.settings) (e := .logicError) hm.test hN hm.dimension rfl (Or.inr hmode)
      (fun x => by rw [hmode]; rfl)
    unfold ModelClass.base
    rw [show (linearClass R.perm).predictor ((m', e5), files resultsFile).1.1 = m'.predictor from rfl]
    rw [show ((linearClass R.perm).view ((m', e5), files resultsFile).1).tryOnTestData m'.predictor
      (ModelClass.mode t.settings) = .error .logicError from this]
  rw [e2] at e1
  refine ⟨{ t with linear := (m', e5) }, ?_⟩
  rw [perform_linear S hchk hptr]
  have e3 : (linearClass R.perm).report t.settings (files t.settings.trainingFile) (files t.settings.testFile)
      (files (t.settings.name ++ "_hyperparameters.csv".toList)) (t.linear, files t.linear.2.resultsName) =
      (((m', e5), files resultsFile), .error .logicError) := by
    rw [hlin]; exact e1
  unfold ModelClass.perform
  dsimp only
  rw [e3, hlin]
  refine Prod.ext (Prod.ext rfl ?_) rfl
  exact Campaign.put_self files resultsFile

/-- **C99, a second test.** A tester that has tested a linear model throws at every further test, also of
other contents of the files, and leaves an empty results file. -/
theorem C99_again (h : TestSetup cs t files values n N dim F G b) (h99 : dim ≤ 99) {S S' : Fns K}
    {R R' : TesterEnv K} (hR : R.perm.Perm (List.range n))
    (hb : ((boundTypes none cs).filterMap objectOf).getLast? = some .linear)
    (hv : (lastOf variancesSet cs).getD false = false) {files' : Files} {n' N' : Nat} {F' G' : Nat → Nat → K}
    (h' : TestSetup cs t files' values n' N' dim F' G' b) (hR' : R'.perm.Perm (List.range n')) :
    ∃ t2, (t.perform S R files).1.1.perform S' R' files' =
      ((t2, files'.put resultsFile (some [])), .error .invalidArgument) := by
  have ha := h.after
  have hchk := h.check (boundTypes_ne hb)
  obtain ⟨h1, h2, h3, h4⟩ := h.facts
  obtain ⟨-, -, h3', h4'⟩ := h'.facts
  have hptr : t.pointer = some .linear := by rw [ha.pointer]; show Option.or _ _ = _; rw [show Tester.new.settings.type = none from rfl, hb]; rfl
  have hlin : t.linear = (LinearModel.new, .new) := ha.linear
  have hvar : t.settings.variances = false := by rw [ha.variances]; exact hv
  have hN : 0 < N := by
    obtain ⟨B, g1, g2⟩ := h4
    exact readFromCSV_pos g1 g2
  have hN' : 0 < N' := by
    obtain ⟨B, g1, g2⟩ := h4'
    exact readFromCSV_pos g1 g2
  obtain ⟨m', w, e1, hm⟩ := linear_run (m := LinearModel.new) (e := .new) h1 h2 fresh_ready h.proper h.dimPos h99
    h3 h4 hR (files (t.settings.name ++ "_hyperparameters.csv".toList)) (files resultsFile)
  have hest : ∀ {m : LinearModel K} {n : Nat} {N : Nat} {F G : Nat → Nat → K} {w : Nat → K},
      LinearTested m values n N dim F G b w → ∀ i, i < N → Estimates ((linearClass R.perm).predictor m)
        (ModelClass.mode t.settings) ((List.range dim).map (normalized b dim G i))
        (affine dim w (normalized b dim G i)) 0 := by
    intro m n N F G w hm i _
    unfold ModelClass.mode
    rw [hvar]
    refine bind_eq (hm.predicts _ (by simp)) ?_
    rw [affine_mapped]
  obtain ⟨e', file, e2, -, -, hhd⟩ := ModelClass.finish_ok (linear_frame R.perm) (c := t.settings) (m := m')
    (f := fun i => affine dim w (normalized b dim G i)) (v := fun _ => 0) hm.test hN hm.dimension
    (e := { (TestMembers.new : TestMembers K) with hasTestData := true, isTestRead := true, isTestNormalized := true })
    rfl rfl (show resultsFile ≠ [] by decide) (hest hm) (files resultsFile)
  rw [e2] at e1
  have e3 : (linearClass R.perm).report t.settings (files t.settings.trainingFile) (files t.settings.testFile)
      (files (t.settings.name ++ "_hyperparameters.csv".toList)) (t.linear, files t.linear.2.resultsName) =
      (((m', e'), file), .ok ()) := by
    rw [hlin]; exact e1
  have e4 : (t.perform S R files).1.1 = { t with linear := (m', e') } := by
    rw [perform_linear S hchk hptr, e3]
  rw [e4]
  obtain ⟨m'', w', e5, hm'⟩ := linear_run (m := m') (e := e') h1 h2 hm.ready h.proper h.dimPos h99
    h3' h4' hR' (files' (t.settings.name ++ "_hyperparameters.csv".toList)) (files' resultsFile)
  obtain ⟨e'', e6⟩ := ModelClass.finish_again (linear_frame R'.perm) (c := t.settings) (m := m'')
    (e := { e' with hasTestData := true, isTestRead := true, isTestNormalized := true })
    (f := fun i => affine dim w' (normalized b dim G' i)) (v := fun _ => 0) hm'.test hN' hm'.dimension h.dimPos
    rfl hhd.1 (by rw [show ({ e' with hasTestData := true, isTestRead := true, isTestNormalized := true } : TestMembers K).resultsName = e'.resultsName from rfl, hhd.2]; show resultsFile ≠ []; decide) (hest hm') (files' resultsFile)
  rw [e6] at e5
  have hname : e'.resultsName = resultsFile := hhd.2
  refine ⟨{ t with linear := (m'', e'') }, ?_⟩
  rw [perform_linear (t := { t with linear := (m', e') }) S' hchk hptr]
  have e7 : (linearClass R'.perm).report t.settings (files' t.settings.trainingFile) (files' t.settings.testFile)
      (files' (t.settings.name ++ "_hyperparameters.csv".toList)) ((m', e'), files' e'.resultsName) =
      (((m'', e''), some []), .error .invalidArgument) := by
    rw [hname]; exact e5
  unfold ModelClass.perform
  dsimp only
  rw [e7, hname]
  rfl

end linear

/-! ## The type that is set last -/

theorem boundTypes_append (a : List (TesterCall K)) (c : List (TesterCall K)) :
    ∀ type, boundTypes type (a ++ c) = boundTypes type a ++ boundTypes ((lastOf typeSet a).or type) c := by
  induction a with
  | nil => intro type; rfl
  | cons x a ih =>
    intro type
    show _ ++ boundTypes _ (a ++ c) = (_ ++ boundTypes _ a) ++ _
    rw [ih, List.append_assoc, lastOf_cons, Option.or_assoc]

theorem boundTypes_unbound {c : List (TesterCall K)} (h : .bindSurrogateModels ∉ c) :
    ∀ type, boundTypes type c = [] := by
  induction c with
  | nil => intro type; rfl
  | cons x c ih =>
    intro type
    show _ ++ boundTypes _ c = []
    rw [ih (fun hc => h (List.mem_cons_of_mem _ hc)), List.append_nil]
    cases x <;> first | rfl | exact absurd (List.mem_cons_self) h

/-- The types that are bound, if no type is set after the last call of `bindSurrogateModels`. -/
theorem bound_last {pre post : List (TesterCall K)} {type : TestedType}
    (hb : .bindSurrogateModels ∉ post) (ht : ∀ x, .setSurrogateModel x ∉ post)
    (hl : lastOf typeSet (pre ++ .bindSurrogateModels :: post) = some type) :
    boundTypes none (pre ++ .bindSurrogateModels :: post) = boundTypes none pre ++ [type] := by
  have h1 : lastOf typeSet post = none := by
    unfold lastOf
    rw [List.getLast?_eq_none_iff, List.filterMap_eq_nil_iff]
    intro c hc
    cases c <;> first | rfl | exact absurd hc (ht _)
  have h2 : lastOf typeSet pre = some type := by
    rw [← hl]
    unfold lastOf at h1 ⊢
    rw [List.getLast?_eq_none_iff] at h1
    rw [List.filterMap_append, List.filterMap_cons_none (by rfl), h1, List.append_nil]
  rw [boundTypes_append, h2, boundTypes_cons, boundTypes_unbound hb]
  rfl

/-- **C99 for the type that is set last**: if no type is set after the last call of
`bindSurrogateModels`, the test reports the ridge regression when the type that was set last is the
linear model. -/
theorem C99_partial [FloorRing K] {pre post : List (TesterCall K)} {t : Tester K} {files : Files} {values : Bool}
    {n N dim : Nat} {F G : Nat → Nat → K} {b : Bounds K}
    (h : TestSetup (pre ++ .bindSurrogateModels :: post) t files values n N dim F G b) (h99 : dim ≤ 99) (S : Fns K)
    {R : TesterEnv K} (hR : R.perm.Perm (List.range n)) (hb : .bindSurrogateModels ∉ post)
    (ht : ∀ x, .setSurrogateModel x ∉ post)
    (hl : lastOf typeSet (pre ++ .bindSurrogateModels :: post) = some .linear)
    (hv : (lastOf variancesSet (pre ++ .bindSurrogateModels :: post)).getD false = false) :
    ReportsRidge t S R files values n N dim F G b :=
  C99_linear h h99 S hR (by rw [bound_last hb ht hl]; simp [objectOf]) hv

/-! ## Kriging models -/

section kriging
variable {cs : List (TesterCall ℝ)} {t : Tester ℝ} {files : Files} {values : Bool} {n N dim : Nat}
  {F G : Nat → Nat → ℝ} {b : Bounds ℝ}

theorem perform_kriging (S : Fns K) {t : Tester K} [FloorRing K] {R : TesterEnv K} (hchk : t.check = .ok ())
    (hp : t.pointer = some .kriging) :
    t.perform S R files =
      ((({ t with kriging := ((krigingClass S R.env R.schedule R.perm R.permL).report t.settings
          (files t.settings.trainingFile)
          (files t.settings.testFile) (files (t.settings.name ++ "_hyperparameters.csv".toList))
          (t.kriging, files t.kriging.2.resultsName)).1.1 },
        files.put t.kriging.2.resultsName ((krigingClass S R.env R.schedule R.perm R.permL).report t.settings
          (files t.settings.trainingFile) (files t.settings.testFile)
          (files (t.settings.name ++ "_hyperparameters.csv".toList))
          (t.kriging, files t.kriging.2.resultsName)).1.2)),
        ((krigingClass S R.env R.schedule R.perm R.permL).perform t.settings (files t.settings.trainingFile)
          (files t.settings.testFile) (files (t.settings.name ++ "_hyperparameters.csv".toList))
          (t.kriging, files t.kriging.2.resultsName)).2) := by
  unfold Tester.perform
  rw [hchk]
  dsimp only
  rw [hp]
  rfl

theorem fresh_krigingReady {lin : Bool} {N dim : Nat} {b : Bounds ℝ} :
    KrigingReady (Kriging.configured lin N dim b) lin values :=
  ⟨rfl, rfl, rfl, rfl, rfl, rfl, Bool.or_false values⟩

/-- What the test of a Kriging model does with the object of the tester: it throws and leaves the results
file, or the object is the model of the training file, and the results file is the report of its
predictions. -/
theorem kriging_first (h : TestSetup cs t files values n N dim F G b)
    (h99 : .universal ∈ boundTypes none cs → dim ≤ 99) {R : TesterEnv ℝ}
    (hR : R.perm.Perm (List.range n)) (hR' : R.permL.Perm (List.range n)) (hE : ∀ i, Draws (R.env i))
    (hb : ((boundTypes none cs).filterMap objectOf).getLast? = some .kriging)
    (hw : (lastOf warmSet cs).getD false = false) :
    t.check = .ok () ∧ t.pointer = some .kriging ∧ t.kriging.2.resultsName = resultsFile ∧
    ((∃ k' e' err, (krigingClass realFns R.env R.schedule R.perm R.permL).report t.settings
        (files t.settings.trainingFile) (files t.settings.testFile)
        (files (t.settings.name ++ "_hyperparameters.csv".toList)) (t.kriging, files resultsFile) =
        (((k', e'), files resultsFile), .error err)) ∨
    ∃ k' e' T file f v, (krigingClass realFns R.env R.schedule R.perm R.permL).report t.settings
        (files t.settings.trainingFile) (files t.settings.testFile)
        (files (t.settings.name ++ "_hyperparameters.csv".toList)) (t.kriging, files resultsFile) =
        (((k', e'), file), .ok ()) ∧
      CurrentModel k' (files t.settings.trainingFile) n dim F b T ∧
      KrigingReady k' (decide (.universal ∈ boundTypes none cs)) values ∧
      ReportFile file values t.settings.variances N dim G f v ∧
      dim + 1 ≤ e'.header.length ∧ e'.resultsName = resultsFile ∧
      ∀ i, i < N → ∃ u, k'.interpolateWithVariance realFns ((List.range dim).map (normalized b dim G i)) =
        .ok (f i, u) ∧ 0 ≤ u ∧ (t.settings.variances = true → u = v i)) := by
  have ha := h.after
  have hchk := h.check (boundTypes_ne hb)
  obtain ⟨h1, h2, h3, h4⟩ := h.facts
  have hptr : t.pointer = some .kriging := by rw [ha.pointer]; show Option.or _ _ = _; rw [show Tester.new.settings.type = none from rfl, hb]; rfl
  have hmem : t.kriging.2 = .new := ha.members
  obtain ⟨N0, hk⟩ := ha.kriging false 10000 rfl
  rw [Bool.false_or, show (Tester.new : Tester ℝ).settings.type = none from rfl] at hk
  have hkr : t.kriging = (Kriging.fresh (decide (.universal ∈ boundTypes none cs)) N0, .new) := Prod.ext hk hmem
  have hwarm : t.settings.readWarm = false := by rw [ha.warm]; exact hw
  have hN : 0 < N := by
    obtain ⟨B, g1, g2⟩ := h4
    exact readFromCSV_pos g1 g2
  subst h1 h2
  refine ⟨hchk, hptr, by rw [hmem]; rfl, ?_⟩
  rw [hkr]
  rcases kriging_run (c := t.settings) (e := .new) (Kriging.configured_ok h.proper h.dimPos)
    Kriging.configured_config fresh_krigingReady
    h.proper h.dimPos
    (lin := decide (.universal ∈ boundTypes none cs)) (fun hd => h99 (of_decide_eq_true hd)) hwarm ⟨h3⟩ h4 hR hR' hE R.schedule
    (files (t.settings.name ++ "_hyperparameters.csv".toList)) (files resultsFile) with he | ⟨k', T, e1, hc, hr, hT⟩
  · exact Or.inl he
  obtain ⟨f, v, hp⟩ := hc.predictions G
  obtain ⟨e', file, e2, hrf, -, hhd⟩ := ModelClass.finish_ok
    (kriging_frame realFns R.env R.schedule R.perm R.permL) (c := t.settings) (m := k')
    (f := f) (v := if t.settings.variances then v else fun _ => 0) hT hN hc.config.size
    (e := { (TestMembers.new : TestMembers ℝ) with hasTestData := true, isTestRead := true, isTestNormalized := true })
    rfl rfl (show resultsFile ≠ [] by decide) (by
      intro i _
      unfold ModelClass.mode
      cases t.settings.variances
      · exact bind_eq (hp i).2.1 rfl
      · exact (hp i).1) (files resultsFile)
  rw [e2] at e1
  exact Or.inr ⟨k', e', T, file, f, _, e1, hc, hr, hrf, hhd.1, hhd.2, fun i _ => ⟨v i, (hp i).1, (hp i).2.2,
    fun hv => by rw [hv]; rfl⟩⟩

/-- **C99, Kriging models.** However the tester was set up: if the type at the last call of
`bindSurrogateModels` with a type that can be tested was a Kriging model, the test throws and changes no
file, or it writes the predictions of a Kriging model of the training file to the results file, changes no
other file and logs the training error of this model.  The model has a linear trend if at any call of
`bindSurrogateModels`, not only the last one, the type was the universal Kriging model. -/
theorem C99_kriging (h : TestSetup cs t files values n N dim F G b)
    (h99 : .universal ∈ boundTypes none cs → dim ≤ 99) {R : TesterEnv ℝ}
    (hR : R.perm.Perm (List.range n)) (hR' : R.permL.Perm (List.range n)) (hE : ∀ i, Draws (R.env i))
    (hb : ((boundTypes none cs).filterMap objectOf).getLast? = some .kriging)
    (hw : (lastOf warmSet cs).getD false = false) :
    (∃ t' err, t.perform realFns R files = ((t', files), .error err)) ∨
    ∃ t' k T file f v g, t.perform realFns R files = ((t', files.put resultsFile file),
        .ok (meanSquare n (fun i => F i dim) g)) ∧
      ModelOf k n dim (normalized b dim F) (fun i => F i dim) T ∧
      TrendOf (decide (.universal ∈ boundTypes none cs)) n dim b F T ∧
      ReportFile file values ((lastOf variancesSet cs).getD false) N dim G f v ∧
      (∀ i, i < N → ∃ u, k.interpolateWithVariance realFns ((List.range dim).map (normalized b dim G i)) =
        .ok (f i, u) ∧ 0 ≤ u ∧ ((lastOf variancesSet cs).getD false = true → u = v i)) ∧
      ∀ i, i < n → k.interpolate realFns ((List.range dim).map (normalized b dim F i)) = .ok (g i) := by
  have hvar : t.settings.variances = (lastOf variancesSet cs).getD false := h.after.variances
  obtain ⟨hchk, hptr, hname, he | ⟨k', e', T, file, f, v, e1, hc, hr, hrf, -, -, hp⟩⟩ :=
    kriging_first h h99 hR hR' hE hb hw
  · obtain ⟨k', e', err, e1⟩ := he
    refine Or.inl ⟨{ t with kriging := (k', e') }, err, ?_⟩
    rw [perform_kriging realFns hchk hptr, hname]
    unfold ModelClass.perform
    dsimp only
    rw [e1]
    refine Prod.ext (Prod.ext rfl ?_) rfl
    exact Campaign.put_self files resultsFile
  · rw [hvar] at hrf hp
    obtain ⟨g, u, hg⟩ := hc.predictions F
    refine Or.inr ⟨{ t with kriging := (k', e') }, k', T, file, f, v, g, ?_, hc.model, ?_, hrf, hp,
      fun i _ => (hg i).2.1⟩
    · rw [perform_kriging realFns hchk hptr, hname]
      unfold ModelClass.perform
      dsimp only
      rw [e1]
      refine Prod.ext rfl ?_
      have hget : ∀ i, i < n → (List.range n).getD i 0 = i := fun i hi => by simp [List.getD, hi]
      have := inSample_ok (t := (krigingClass realFns R.env R.schedule R.perm R.permL).view (k', e')) (n := n)
        (N := n) (tr := List.range n) (P := k'.predictor realFns) (f := g) (b := b) hc.isInitialized
        hc.config.size hc.rows hc.prepared.dataCount
        (hc.prepared.inputs.congr fun i j hi _ => by rw [hget i hi]) le_rfl hc.prepared.countPos
        (fun i _ => (hg _).2.1)
      refine this.trans ?_
      congr 1
      unfold meanSquare
      congr 1
      refine sum_congr rfl fun i hi => ?_
      beta_reduce
      rw [hget i (mem_range.1 hi)]
    · rw [← hr.usesLinear]; exact hc.trend

/-- **C99, a second test of a Kriging model.** A tester that has tested a Kriging model throws at every
further test, and the results file is left as it was or empty. -/
theorem C99_kriging_again (h : TestSetup cs t files values n N dim F G b)
    (h99 : .universal ∈ boundTypes none cs → dim ≤ 99) {R R' : TesterEnv ℝ}
    (hR : R.perm.Perm (List.range n)) (hRL : R.permL.Perm (List.range n)) (hE : ∀ i, Draws (R.env i))
    (hb : ((boundTypes none cs).filterMap objectOf).getLast? = some .kriging)
    (hw : (lastOf warmSet cs).getD false = false) {files' : Files} {n' N' : Nat} {F' G' : Nat → Nat → ℝ}
    (h' : TestSetup cs t files' values n' N' dim F' G' b) (hR' : R'.perm.Perm (List.range n'))
    (hRL' : R'.permL.Perm (List.range n')) (hE' : ∀ i, Draws (R'.env i))
    {x : ℝ} (hx : (t.perform realFns R files).2 = .ok x) :
    ∃ t2 err fs, (t.perform realFns R files).1.1.perform realFns R' files' = ((t2, fs), .error err) ∧
      (fs = files' ∨ fs = files'.put resultsFile (some [])) := by
  have ha := h.after
  obtain ⟨h1, h2, -, -⟩ := h.facts
  obtain ⟨-, -, h3', h4'⟩ := h'.facts
  have hwarm : t.settings.readWarm = false := by rw [ha.warm]; exact hw
  have hN' : 0 < N' := by
    obtain ⟨B, g1, g2⟩ := h4'
    exact readFromCSV_pos g1 g2
  obtain ⟨hchk, hptr, hname, he | ⟨k', e', T, file, f, v, e1, hc, hr, -, hhd, hname', -⟩⟩ :=
    kriging_first h h99 hR hRL hE hb hw
  · obtain ⟨k', e', err, e1⟩ := he
    rw [perform_kriging realFns hchk hptr, hname] at hx
    unfold ModelClass.perform at hx
    dsimp only at hx
    rw [e1] at hx
    cases hx
  have e4 : (t.perform realFns R files).1.1 = { t with kriging := (k', e') } := by
    rw [perform_kriging realFns hchk hptr, hname, e1]
  rw [e4, perform_kriging (t := { t with kriging := (k', e') }) realFns hchk hptr]
  dsimp only
  rw [hname']
  subst h1 h2
  obtain ⟨k1, c1, c2, c3⟩ := hc.configure hr h.proper
  rcases kriging_run (c := t.settings) (e := e') c1 c2 c3
    h.proper h.dimPos (fun hd => h99 (of_decide_eq_true hd)) hwarm ⟨h3'⟩ h4' hR' hRL' hE' R'.schedule
    (files' (t.settings.name ++ "_hyperparameters.csv".toList)) (files' resultsFile) with
    ⟨k2, e2, err, e5⟩ | ⟨k2, T', e5, hc', hr', hT'⟩
  · refine ⟨{ t with kriging := (k2, e2) }, err, files', ?_, Or.inl rfl⟩
    unfold ModelClass.perform
    dsimp only
    rw [e5]
    refine Prod.ext (Prod.ext rfl ?_) rfl
    exact Campaign.put_self files' resultsFile
  · obtain ⟨f', v', hp'⟩ := hc'.predictions G'
    obtain ⟨e2, e6⟩ := ModelClass.finish_again
      (kriging_frame realFns R'.env R'.schedule R'.perm R'.permL) (c := t.settings) (m := k2)
      (e := { e' with hasTestData := true, isTestRead := true, isTestNormalized := true })
      (f := f') (v := if t.settings.variances then v' else fun _ => 0) hT' hN' hc'.config.size h.dimPos
      rfl hhd (show e'.resultsName ≠ [] by rw [hname']; decide) (by
        intro i _
        unfold ModelClass.mode
        cases t.settings.variances
        · exact bind_eq (hp' i).2.1 rfl
        · exact (hp' i).1) (files' resultsFile)
    rw [e6] at e5
    refine ⟨{ t with kriging := (k2, e2) }, .invalidArgument, _, ?_, Or.inr rfl⟩
    unfold ModelClass.perform
    dsimp only
    rw [e5]
    rfl

end kriging

/-! ## Examples -/

/-- The calls of the examples: the model is bound at the type `bound`, and the type is `type` at the end. -/
def Spec.exCalls (bound type : TestedType) (variances : Bool) : List (TesterCall K) :=
  [.setName "m".toList, .setDimension 1, .setSurrogateModel bound, .bindSurrogateModels] ++
    (if bound = type then [] else [.setSurrogateModel type]) ++
  [.setBoxConstraints ⟨[0], [2], 1, true⟩, .setFileNameTrainingData "a.csv".toList,
    .setFileNameTestData "b.csv".toList, .setVariances variances]

theorem exCalls_setup {bound type : TestedType} {variances : Bool} [FloorRing K] {files : Files} {n N : Nat}
    {F G : Nat → Nat → K} (h1 : ∃ A, readFromCSV (files "a.csv".toList) false = .ok A ∧ IsMat A n 2 F)
    (h2 : TestFile (files "b.csv".toList) true N 1 G) :
    TestSetup (exCalls bound type variances) (testerCalls Tester.new (exCalls bound type variances)).1 files true
      n N 1 F G ⟨[0], [2], 1, true⟩ := by
  obtain ⟨A, h1, h1'⟩ := h1
  have hp : ProperBox (⟨[0], [2], 1, true⟩ : Bounds K) 1 := ⟨rfl, rfl, rfl, rfl, fun j hj => by
    obtain rfl : j = 0 := by omega
    simp [vecFun]⟩
  have ha : Tester.checkFilename "a.csv".toList = .ok () := by decide
  have hb : Tester.checkFilename "b.csv".toList = .ok () := by decide
  refine ⟨Prod.ext rfl ?_, ?_, ⟨"m".toList, ?_⟩, ?_, one_pos, ?_, hp, ⟨"a.csv".toList, A, ?_, h1, h1'⟩,
    ⟨"b.csv".toList, ?_, h2⟩⟩
  · cases bound <;> cases type <;> rfl
  · intro v hv
    cases bound <;> cases type <;> simp [exCalls] at hv
  all_goals cases bound <;> cases type <;> rfl

/-- The training file of the examples, which is their test file as well. -/
def Spec.exText : Str := "0,1\n2,3\n".toList

/-- The samples in this file. -/
def Spec.exSamples (i j : Nat) : ℚ := if j = 0 then (if i = 0 then 0 else 2) else if i = 0 then 1 else 3

theorem exText_file : ∃ A, readFromCSV (some exText) false = .ok A ∧
    IsMat A 2 2 exSamples := by
  refine ⟨⟨2, 2, [0, 2, 1, 3]⟩, by decide +kernel, isMat_iff.2 ⟨rfl, rfl, rfl, ?_⟩⟩
  intro i j hi hj
  rcases (by omega : i = 0 ∨ i = 1) with rfl | rfl <;>
    rcases (by omega : j = 0 ∨ j = 1) with rfl | rfl <;> rfl

theorem exText_test : TestFile (some exText) true 2 1 exSamples := exText_file

/-- The random numbers of the examples. -/
def Spec.exEnv (K : Type) [Field K] : TesterEnv K :=
  ⟨fun _ => ⟨fun _ => .ok 0, fun _ => 0, fun _ _ => 0, fun _ => 0, fun _ => 0, 0⟩, [], [0, 1], [1, 0]⟩

/-- Functions for the examples; the linear model does not use them. -/
def Spec.exFns : Fns ℚ := ⟨fun x => x, fun x _ => .ok x, fun x => x, fun x => x⟩

/-- The type is set to the linear model after the models were bound with a type that cannot be tested: the
pointer to the model was never set. -/
theorem C99_false : ¬ C99_full ℚ := by
  intro h
  obtain ⟨t', w, file, e, -⟩ := h (exCalls .other .linear false) _ (fun _ => some exText) true 2 2 1 _ _ _
    exFns (exEnv ℚ) (exCalls_setup exText_file exText_test) (by norm_num) (by decide) rfl
    (by simp [exCalls]) rfl
  have e2 : ((testerCalls Tester.new (exCalls .other .linear false)).1.perform exFns (exEnv ℚ)
      (fun _ => some exText)).2 = .error .ub := by decide +kernel
  rw [e] at e2
  cases e2

/-- The hypotheses of `C99_linear`, `C99_partial` and `C99_again` are met. -/
example : ReportsRidge (testerCalls Tester.new (exCalls .linear .linear false)).1 exFns (exEnv ℚ)
    (fun _ => some exText) true 2 2 1 exSamples exSamples ⟨[0], [2], 1, true⟩ :=
  C99_linear (exCalls_setup exText_file exText_test) (by norm_num) exFns (by decide) rfl rfl

/-- The results file of this example. -/
example : ((testerCalls Tester.new (exCalls .linear .linear false)).1.perform exFns (exEnv ℚ)
      (fun _ => some exText)).1.2 resultsFile =
    some "x1,Estimated value,True value,Squared Error\n0.000000,1.000000,1.000000,0.000000\n2.000000,3.000000,3.000000,0.000000\n".toList := by
  decide +kernel

/-- The hypotheses of `C99_variances` are met. -/
example : ∃ t', (testerCalls Tester.new (exCalls .linear .universal true)).1.perform exFns (exEnv ℚ)
    (fun _ => some exText) = ((t', fun _ => some exText), .error .logicError) :=
  C99_variances (exCalls_setup exText_file exText_test) (by norm_num) exFns (by decide) rfl rfl

/-- The hypotheses of `C99_kriging` are met; the first one of `C99_kriging_again` holds if the search for
the hyperparameters ends. -/
example : ∃ file, TestSetup (exCalls .universal .linear true)
      (testerCalls Tester.new (exCalls .universal .linear true)).1 (fun _ => file) true 2 2 1 exampleTable exampleTable
      (⟨[0], [2], 1, true⟩ : Bounds ℝ) ∧
    (exEnv ℝ).perm.Perm (List.range 2) ∧ (exEnv ℝ).permL.Perm (List.range 2) ∧
    (∀ i, Draws ((exEnv ℝ).env i)) ∧
    ((boundTypes none (exCalls (K := ℝ) .universal .linear true)).filterMap objectOf).getLast? = some .kriging ∧
    (lastOf warmSet (exCalls (K := ℝ) .universal .linear true)).getD false = false := by
  obtain ⟨file, h⟩ := exampleFile
  refine ⟨file, exCalls_setup h.table h.table, by decide, by decide, fun i => ?_, rfl, rfl⟩
  simp [Draws, exEnv]

/-! ## Names of the data files -/

/-- **C99, the names of the data files**: the calls that set them accept exactly the names of CSV files without
special characters (no directories); a refused name changes nothing. -/
theorem C99_names (t : Tester K) (name : Str) :
    (CsvName name →
      t.call (.setFileNameTrainingData name) =
        ({ t with settings := { t.settings with trainingFile := name } }, .ok ()) ∧
      t.call (.setFileNameTestData name) = ({ t with settings := { t.settings with testFile := name } }, .ok ())) ∧
    (¬ CsvName name →
      t.call (.setFileNameTrainingData name) = (t, .error .invalidArgument) ∧
      t.call (.setFileNameTestData name) = (t, .error .invalidArgument)) := by
  classical
  have key : Tester.checkFilename name = if CsvName name then .ok () else .error .invalidArgument := by
    unfold Tester.checkFilename
    have hany : (name.any fun c => decide (c ∈ "\\/:*?\"<>|".toList)) = true ↔
        ¬ ∀ c ∈ name, c ∉ ['\\', '/', ':', '*', '?', '"', '<', '>', '|'] := by
      have e : "\\/:*?\"<>|".toList = ['\\', '/', ':', '*', '?', '"', '<', '>', '|'] := rfl
      rw [e, List.any_eq_true]
      push Not
      simp only [decide_eq_true_eq]
    have hend : (name.length < 4 ∨ name.drop (name.length - 4) ≠ ".csv".toList) ↔ ¬ ".csv".toList <:+ name := by
      constructor
      · intro h hs
        obtain ⟨p, rfl⟩ := hs
        have e : ".csv".toList.length = 4 := rfl
        rcases h with h | h
        · rw [List.length_append, e] at h; omega
        · apply h
          rw [List.length_append, e, Nat.add_sub_cancel, List.drop_left]
      · intro h
        by_contra hc
        push Not at hc
        exact h ⟨name.take (name.length - 4), by rw [← hc.2]; exact List.take_append_drop _ _⟩
    by_cases h0 : name = []
    · subst h0
      rw [if_pos rfl, if_neg]
      rintro ⟨h, -⟩
      exact absurd (List.suffix_nil.1 h) (by decide)
    · rw [if_neg h0]
      by_cases h1 : (name.any fun c => decide (c ∈ "\\/:*?\"<>|".toList)) = true
      · rw [if_pos h1, if_neg fun h => (hany.1 h1) h.2]
      · rw [if_neg h1]
        by_cases h2 : name.length < 4 ∨ name.drop (name.length - 4) ≠ ".csv".toList
        · rw [if_pos h2, if_neg fun h => (hend.1 h2) h.1]
        · rw [if_neg h2, if_pos ⟨not_not.1 fun h => h2 (hend.2 h), not_not.1 fun h => h1 (hany.2 h)⟩]
  constructor
  · intro h
    rw [if_pos h] at key
    constructor <;> · unfold Tester.call; dsimp only; rw [key]; rfl
  · intro h
    rw [if_neg h] at key
    constructor <;> · unfold Tester.call; dsimp only; rw [key]; rfl

-- C99: an accepted name, a name in a directory and a name that ends differently.
example : CsvName "samples.csv".toList ∧ ¬ CsvName "data/samples.csv".toList ∧ ¬ CsvName "samples.txt".toList := by
  unfold CsvName
  decide

end Rodeo
