import Verif.Lemmas.Tester
import Verif.Props.KrigingBuild

set_option linter.unusedSectionVars false

/-! # Testing a Kriging model: lemmas -/

namespace Rodeo

open Text Spec Mat Finset

variable {K : Type} [Field K] [LinearOrder K] [IsStrictOrderedRing K]

theorem kriging_frame [FloorRing K] (F : Fns K) (E : Nat → EAEnv K) (schedule perm permL : List Nat) :
    (krigingClass F E schedule perm permL).Frame :=
  ⟨fun _ _ => rfl, fun _ _ _ => rfl, fun _ => rfl, fun _ _ => rfl, fun _ _ => rfl,
    fun m e => Kriging.normalizeData_withTest m e, fun m e => Kriging.init_withTest F m e⟩

theorem rethrow_inv {σ : Type} {p : σ × Res Unit} {s : σ} (h : rethrow p = (s, .ok ())) :
    p = (s, .ok ()) := by
  obtain ⟨s0, r⟩ := p
  cases r with
  | error e => exact absurd (congrArg Prod.snd h) (by simp [rethrow])
  | ok u => exact h

namespace Kriging

theorem readData_parts [FloorRing K] {k k' : Kriging K} {file : Option Str} {perm permL : List Nat}
    (h : k.readData file perm permL = (k', .ok ())) :
    k.data.readData file perm = (k'.data, .ok ()) ∧ k'.usesLinear = k.usesLinear ∧
      k'.dimension = k.dimension ∧ k.dimension ≠ 0 ∧
      (k.usesLinear = true → k.linear.readData file permL = (k'.linear, .ok ())) := by
  unfold readData at h
  split at h
  · cases h
  rename_i h0
  obtain ⟨k1, h1, h⟩ := andThen_inv h
  obtain ⟨k2, h2, h⟩ := andThen_inv h
  have h1 := rethrow_inv h1
  unfold onData at h1
  have e1 : ({ k with data := (k.data.readData file perm).1 } : Kriging K) = k1 := congrArg Prod.fst h1
  have r1 : (k.data.readData file perm).2 = .ok () := congrArg Prod.snd h1
  have hd : k.data.readData file perm = (k1.data, .ok ()) := by
    rw [← e1]
    exact Prod.ext rfl r1
  have hL : k1.linear = k.linear := by rw [← e1]
  have hu : k1.usesLinear = k.usesLinear := by rw [← e1]
  have hm : k1.dimension = k.dimension := by rw [← e1]
  have e3 : ({ k2 with numberOfSamples := k2.data.numberOfSamples, isRead := true } : Kriging K) = k' :=
    congrArg Prod.fst h
  by_cases hk : k1.usesLinear = true
  · rw [if_pos hk] at h2
    have h2 := rethrow_inv h2
    unfold onLinear at h2
    have e2 : ({ k1 with linear := (k1.linear.readData file permL).1 } : Kriging K) = k2 := congrArg Prod.fst h2
    have r2 : (k1.linear.readData file permL).2 = .ok () := congrArg Prod.snd h2
    refine ⟨?_, ?_, ?_, h0, fun _ => ?_⟩
    · rw [hd, ← e3, ← e2]
    · rw [← e3, ← e2]; exact hu
    · rw [← e3, ← e2]; exact hm
    · rw [← hL, ← e3, ← e2]
      exact Prod.ext rfl r2
  · rw [if_neg hk] at h2
    have e2 : k1 = k2 := congrArg Prod.fst h2
    subst e2
    refine ⟨?_, ?_, ?_, h0, fun h => absurd (hu.trans h) hk⟩
    · rw [hd, ← e3]
    · rw [← e3]; exact hu
    · rw [← e3]; exact hm

theorem normalizeData_data {k k' : Kriging K} (h : k.normalizeData = (k', .ok ())) :
    k.data.normalize = (k'.data, .ok ()) := by
  unfold normalizeData at h
  split at h
  · cases h
  obtain ⟨k1, h1, h⟩ := andThen_inv h
  obtain ⟨k2, h2, h⟩ := andThen_inv h
  unfold onData at h1
  have e1 : ({ k with data := k.data.normalize.1 } : Kriging K) = k1 := congrArg Prod.fst h1
  have r1 : k.data.normalize.2 = .ok () := congrArg Prod.snd h1
  have e3 : ({ k2 with isNormalized := true } : Kriging K) = k' := congrArg Prod.fst h
  have e2 : k2.data = k1.data := by
    split at h2
    · exact (congrArg (fun p => p.1.data) h2).symm
    · exact (congrArg (fun p => p.1.data) h2).symm
  rw [← e3]
  show _ = (k2.data, _)
  rw [e2, ← e1]
  exact Prod.ext rfl r1

/-- Training keeps the test data. -/
theorem train_keepsTest {k : Kriging ℝ} (hi : k.isInitialized = true) (hv : k.hasValidation = false)
    (ho : k.objective = .maximumLikelihood) (hw : k.readWarm = false) (E : Nat → EAEnv ℝ)
    (schedule : List Nat) (hyper : Option Str) :
    ∃ d, (k.train realFns E schedule hyper).1.1.data = SMData.withTest d k.data := by
  unfold train
  rw [if_neg (by simp [hi]), if_neg (by simp [hw])]
  rcases search_cases hv E schedule hyper with ⟨N, e, hs⟩ | ⟨best, c, f, r, -, -, -, hs, -⟩
  · rw [hs]; exact ⟨k.data, rfl⟩
  rw [hs]
  cases r with
  | error e => exact ⟨k.data, rfl⟩
  | ok u =>
    set k1 : Kriging ℝ := { k with iterations := k.iterations / k.threads, corr := c } with hk1
    have hob : ¬ k1.objective = .validationError := by
      show ¬ k.objective = _
      rw [ho]; simp
    have h1 := updateAuxilliaryFields_withTest realFns k1 k.data
    have h0 : k1.withTest k.data = k1 := rfl
    rw [h0] at h1
    have hd : (k1.updateAuxilliaryFields realFns).1.data =
        SMData.withTest (k1.updateAuxilliaryFields realFns).1.data k.data :=
      congrArg (fun p => p.1.data) h1
    show ∃ d, (andThen (if k1.objective = .validationError then withFile (k1, f) k1.revertToFullData
      else ((k1, f), .ok ())) _).1.1.data = _
    rw [if_neg hob]
    show ∃ d, (andThen (withFile (k1, f) (k1.updateAuxilliaryFields realFns)) _).1.1.data = _
    unfold withFile
    generalize k1.updateAuxilliaryFields realFns = q at hd ⊢
    obtain ⟨k2, r2⟩ := q
    refine ⟨k2.data, ?_⟩
    cases r2 with
    | error e => exact hd
    | ok u => exact hd

end Kriging

/-- The test data are not part of the model. -/
theorem Spec.CurrentModel.withTest {k : Kriging ℝ} {file : Option Str} {n dim : Nat}
    {F : Nat → Nat → ℝ} {b : Bounds ℝ} {T : List ℝ → ℝ} (h : CurrentModel k file n dim F b T)
    (e : SMData ℝ) : CurrentModel (k.withTest e) file n dim F b T :=
  ⟨h.table, h.rows, ⟨h.model.trend, h.model.epsilon, { h.model.fitted with }⟩, { h.prepared with },
    h.trend, ⟨h.config.size, { h.config.data with }, h.config.linear, h.config.epsilon, h.config.params⟩,
    h.isInitialized, h.ratio⟩

/-- The Kriging object of a tester before a test. -/
def Kriging.fresh (lin : Bool) (N : Nat) : Kriging K := { Kriging.new with usesLinear := lin, iterations := N }

/-- The Kriging object of a tester with the settings of the test. -/
noncomputable def Kriging.configured (lin : Bool) (N dim : Nat) (b : Bounds ℝ) : Kriging ℝ :=
  { (Kriging.fresh lin N).setDimension dim with
    linear := if lin then { (LinearModel.new.setDimension dim : LinearModel ℝ) with data := { SMData.new with box := b } }
      else LinearModel.new.setDimension dim
    data := { (SMData.new : SMData ℝ) with dimension := dim, box := b } }

theorem Kriging.configured_ok {lin : Bool} {N dim : Nat} {b : Bounds ℝ} (hb : ProperBox b dim)
    (hdim : 0 < dim) : ((Kriging.fresh lin N : Kriging ℝ).setDimension dim).setBoxConstraints b =
      .ok (Kriging.configured lin N dim b) := by
  have hset := hb.set
  have hsize := hb.size
  have hbx : ∀ d : SMData ℝ, d.setBoxConstraints b = .ok { d with box := b } :=
    fun d => if_neg (by simp [hset])
  unfold Kriging.setBoxConstraints
  have hd : ((Kriging.fresh lin N : Kriging ℝ).setDimension dim).dimension = dim := rfl
  rw [if_neg (by simp [hset]), if_neg (by omega), if_neg (by rw [hd, hsize]; simp)]
  refine bind_eq (a := (Kriging.configured lin N dim b).linear) ?_ (bind_eq (hbx _) rfl)
  unfold Kriging.linearBox
  cases lin
  · rfl
  · exact bind_eq (hbx _) rfl

theorem Kriging.configured_config {lin : Bool} {N dim : Nat} {b : Bounds ℝ} :
    KrigingConfig (Kriging.configured lin N dim b) dim b := by
  refine ⟨rfl, ⟨rfl, rfl, rfl, Or.inr rfl, le_rfl, fun _ => rfl, [], hasRows_empty _⟩, ?_, ?_,
    fun h => by cases h⟩
  · intro hu
    have hl : lin = true := hu
    subst hl
    exact ⟨⟨rfl, rfl, rfl, Or.inl rfl, le_rfl, fun _ => rfl, [], hasRows_empty _⟩, rfl, rfl⟩
  · show (0 : ℝ) ≤ 1 / 10 ^ 12 ∧ (1 : ℝ) / 10 ^ 12 < 1
    norm_num

/-- The settings of a Kriging model that is tested. -/
structure KrigingReady (k : Kriging ℝ) (lin values : Bool) : Prop where
  usesLinear : k.usesLinear = lin
  epsilon : k.corr.base.epsilon = 1 / 10 ^ 12
  validation : k.hasValidation = false
  objective : k.objective = .maximumLikelihood
  readWarm : k.readWarm = false
  ratio : k.data.ratio = 0
  values : (values || k.data.testHasValues) = values

/-- A test of a Kriging model up to the predictions. -/
theorem kriging_run {c : TesterSettings ℝ} {lin : Bool} {dim n N : Nat} {F G : Nat → Nat → ℝ}
    {training test : Option Str} {values : Bool} {k0 k1 : Kriging ℝ}
    (h1 : (k0.setDimension c.dimension).setBoxConstraints c.box = .ok k1) (hcfg : KrigingConfig k1 dim c.box)
    (hr : KrigingReady k1 lin values) (hb : ProperBox c.box dim)
    (hdim : 0 < dim) (h99 : lin = true → dim ≤ 99) (hw : c.readWarm = false)
    (hf : DataFile training n dim F) (ht : TestFile test values N dim G) {perm permL : List Nat}
    (hp : perm.Perm (List.range n)) (hpL : permL.Perm (List.range n)) {E : Nat → EAEnv ℝ}
    (hE : ∀ t, Draws (E t)) (schedule : List Nat) (hyper old : Option Str) {e : TestMembers ℝ} :
    (∃ k' e' err, (krigingClass realFns E schedule perm permL).report c training test hyper
        ((k0, e), old) = (((k', e'), old), .error err)) ∨
    ∃ k' T, (krigingClass realFns E schedule perm permL).report c training test hyper ((k0, e), old) =
        (krigingClass realFns E schedule perm permL).finish c
          ((k', { e with hasTestData := true, isTestRead := true, isTestNormalized := true }), old) ∧
      CurrentModel k' training n dim F c.box T ∧ KrigingReady k' lin values ∧
      TestData k'.data values N dim G c.box := by
  obtain ⟨A, hread, hA⟩ := hf.table
  have hNpos : 0 < N := by
    obtain ⟨B, h1, h2⟩ := ht
    exact readFromCSV_pos h1 h2
  obtain ⟨th, ga, hst⟩ : ∃ th ga, Kriging.startParameters k1 dim th ga := by
    unfold Kriging.startParameters
    by_cases hc : k1.corrInitialized = true
    · simp only [if_pos hc]; exact ⟨_, _, rfl, rfl⟩
    · simp only [if_neg hc]; exact ⟨_, _, rfl, rfl⟩
  obtain ⟨k4, T, hload, hcur, hsame, -, -⟩ := Kriging.load_current hcfg hb hdim
    (by rw [hr.usesLinear]; exact h99) hr.ratio hread hA hp hpL hst
    (fun h0 => absurd h0 (by
      rw [hr.epsilon]
      norm_num))
  unfold Kriging.load at hload
  obtain ⟨k2, e1, hload⟩ := andThen_inv hload
  obtain ⟨k3, e2, e3⟩ := andThen_inv hload
  obtain ⟨f1, u2, d2, -, fL⟩ := Kriging.readData_parts e1
  have f2 := Kriging.normalizeData_data e2
  obtain ⟨tr, va, -, hord, hl⟩ := hcfg.data.load hb hdim hread hA hp
  have hn := readFromCSV_pos hread hA
  obtain rfl := hord hr.ratio
  obtain ⟨g1, g2, q1, q2, c2, b2, -⟩ := hl (by simp; omega)
  have hg1 : g1 = k2.data := by rw [f1] at q1; exact (congrArg Prod.fst q1).symm
  subst hg1
  have hg2 : g2 = k3.data := by rw [f2] at q2; exact (congrArg Prod.fst q2).symm
  subst hg2
  have hk := k2.data.normalize_keeps
  rw [f2] at hk
  have hdm : k2.data.dimension = dim := by
    have := SMData.normalize_dimension k2.data
    rw [f2] at this
    rw [← this]; exact b2
  have hbx : ∀ d : SMData ℝ, d.box = c.box → d.setBoxConstraints c.box = .ok d := by
    intro d hd
    refine (if_neg (by simp [hb.set])).trans ?_
    rw [← hd]
  have h2b : ∀ d, (krigingClass realFns E schedule perm permL).setBoxConstraints
      ((krigingClass realFns E schedule perm permL).withTest d k2) c.box =
      .ok ((krigingClass realFns E schedule perm permL).withTest d k2) := by
    intro d
    show Kriging.setBoxConstraints (k2.withTest d) c.box = .ok (k2.withTest d)
    unfold Kriging.setBoxConstraints
    have hdim2 : (k2.withTest d).dimension = dim := d2.trans hcfg.size
    rw [if_neg (by simp [hb.set]), if_neg (by omega), if_neg (by rw [hdim2, hb.size]; simp)]
    refine bind_eq (a := k2.linear) ?_ (bind_eq (a := (k2.withTest d).data) (hbx _ ?_) rfl)
    · unfold Kriging.linearBox
      show (if k2.usesLinear then k2.linear.setBoxConstraints c.box else .ok k2.linear) = _
      by_cases hu : k2.usesLinear = true
      · rw [if_pos hu]
        have hu1 : k1.usesLinear = true := by rw [← u2]; exact hu
        have hLc := hcfg.linear hu1
        obtain ⟨m2, m3, m4, w, p1, -, -, -, p2, -⟩ := linear_loaded hLc hb hdim (h99 (by rw [← hr.usesLinear]; exact hu1)) hread hA hpL
        have hm2 : m2 = k2.linear := by
          have := fL hu1
          rw [p1] at this
          exact congrArg Prod.fst this
        subst hm2
        exact bind_eq (hbx _ p2) rfl
      · rw [if_neg hu]
    · show k2.data.box = _
      rw [← hk.2.2.2.2.1]; exact c2.box
  have hv2 : (values || k2.data.testHasValues) = values := by
    rw [SMData.readData_keepsTest f1]
    exact hr.values
  obtain ⟨d, hT, hrep⟩ := ModelClass.report_eq (kriging_frame realFns E schedule perm permL) (c := c)
    (m := k0) (m1 := k1) (m2 := k2) (m3 := k3) (m4 := k4) (e := e) (old := old)
    (training := training) (test := test) (b := c.box) (dim := dim) (n := N) (values := values) (G := G)
    h1 e1 h2b e2 e3 hdm c2.box hcur.prepared.dataDim hv2 ht
    hb hdim hyper
  rw [hrep]
  set V := krigingClass realFns E schedule perm permL with hV
  set k5 : Kriging ℝ := V.tuned c (V.withTest d k4) with hk5
  have h5 : k5 = { k4.withTest d with iterations := c.iterations } := by
    rw [hk5]
    unfold ModelClass.tuned
    rw [if_neg (by simp [hw])]
    rfl
  have hcur5 : CurrentModel k5 training n dim F c.box T := by
    rw [h5]
    exact (hcur.withTest d).iterations c.iterations
  have hlik : Likelihood k5 := by
    rw [h5]
    refine ⟨?_, ?_, ?_, ?_⟩
    · show 0 < k4.corr.base.epsilon
      rw [hsame.epsilon, hr.epsilon]
      norm_num
    · exact hsame.validation.trans hr.validation
    · exact hsame.objective.trans hr.objective
    · exact hsame.readWarm.trans hr.readWarm
  obtain ⟨hcur6, hcfg6⟩ := Kriging.train_current hcur5 hlik hE schedule hyper
  obtain ⟨d6, hd6⟩ := Kriging.train_keepsTest hcur5.isInitialized hlik.validation hlik.objective hlik.readWarm
    E schedule hyper
  set k6 := (k5.train realFns E schedule hyper).1.1 with hk6
  set e5 : TestMembers ℝ := { e with hasTestData := true, isTestRead := true, isTestNormalized := true } with he5
  have htrain : V.train k5 hyper = (k6, (k5.train realFns E schedule hyper).2) := rfl
  rw [htrain]
  cases hres : (k5.train realFns E schedule hyper).2 with
  | error x => exact Or.inl ⟨k6, e5, x, rfl⟩
  | ok u =>
    refine Or.inr ?_
    have hT6 : TestData (V.data k6) values N dim G c.box := by
      show TestData k6.data values N dim G c.box
      rw [hd6, h5]
      refine ⟨?_, hT.count, hT.hasValues, hT.read, hT.raw, hT.inputs⟩
      have := hcur6.prepared.dataDim
      rw [hd6] at this
      exact this
    have h5u : k5.usesLinear = k4.usesLinear := by rw [h5]; rfl
    have h5e : k5.corr.base.epsilon = k4.corr.base.epsilon := by rw [h5]; rfl
    refine ⟨k6, T, andThen_ok rfl rfl, hcur6, ⟨?_, ?_, ?_, ?_, ?_, hcur6.ratio, ?_⟩, hT6⟩
    · rw [hcfg6.usesLinear, h5u, hsame.usesLinear]; exact hr.usesLinear
    · rw [hcfg6.epsilon, h5e, hsame.epsilon]; exact hr.epsilon
    · rw [hcfg6.validation]; exact hlik.validation
    · rw [hcfg6.objective]; exact hlik.objective
    · rw [hcfg6.readWarm]; exact hlik.readWarm
    · rw [show k6.data.testHasValues = values from hT6.hasValues]
      exact Bool.or_self values

/-- The predictions of a model at test points. -/
theorem Spec.CurrentModel.predictions {k : Kriging ℝ} {file : Option Str} {n dim : Nat} {F : Nat → Nat → ℝ}
    {b : Bounds ℝ} {T : List ℝ → ℝ} (h : CurrentModel k file n dim F b T) (G : Nat → Nat → ℝ) :
    ∃ f v : Nat → ℝ, ∀ i, k.interpolateWithVariance realFns ((List.range dim).map (normalized b dim G i)) =
        .ok (f i, v i) ∧ k.interpolate realFns ((List.range dim).map (normalized b dim G i)) = .ok (f i) ∧
        0 ≤ v i := by
  have hpred : ∀ i, ∃ f v, k.interpolateWithVariance realFns ((List.range dim).map (normalized b dim G i)) =
      .ok (f, v) ∧ k.interpolate realFns ((List.range dim).map (normalized b dim G i)) = .ok f ∧ 0 ≤ v :=
    fun i => C75_variance_nonneg h.model (by simp)
  choose f v h1 h2 h3 using hpred
  exact ⟨f, v, fun i => ⟨h1 i, h2 i, h3 i⟩⟩

/-- A Kriging model that has been tested can be configured again. -/
theorem Spec.CurrentModel.configure {k : Kriging ℝ} {file : Option Str} {n dim : Nat} {F : Nat → Nat → ℝ}
    {b : Bounds ℝ} {T : List ℝ → ℝ} (h : CurrentModel k file n dim F b T) {lin values : Bool}
    (hr : KrigingReady k lin values) (hb : ProperBox b dim) :
    ∃ k', (k.setDimension dim).setBoxConstraints b = .ok k' ∧ KrigingConfig k' dim b ∧
      KrigingReady k' lin values := by
  have hbx : ∀ d : SMData ℝ, d.setBoxConstraints b = .ok { d with box := b } :=
    fun d => if_neg (by simp [hb.set])
  have hdim := h.prepared.dimPos
  set L : LinearModel ℝ := if k.usesLinear then { k.linear.setDimension dim with data := { k.linear.data with box := b } }
    else k.linear.setDimension dim with hL
  refine ⟨{ k.setDimension dim with linear := L, data := { k.data with dimension := dim, box := b } }, ?_, ?_, ?_⟩
  · unfold Kriging.setBoxConstraints
    have hd : (k.setDimension dim).dimension = dim := rfl
    rw [if_neg (by simp [hb.set]), if_neg (by omega), if_neg (by rw [hd, hb.size]; simp)]
    refine bind_eq (a := L) ?_ (bind_eq (hbx _) rfl)
    unfold Kriging.linearBox
    rw [hL]
    show (if k.usesLinear then (k.linear.setDimension dim).setBoxConstraints b else .ok (k.linear.setDimension dim)) = _
    by_cases hu : k.usesLinear = true
    · rw [if_pos hu, if_pos hu]; exact bind_eq (hbx _) rfl
    · rw [if_neg hu, if_neg hu]
  · refine ⟨rfl, ⟨rfl, h.config.data.noGradients, h.config.data.noDirectional, Or.inr rfl,
      h.config.data.ratio, h.config.data.stale, h.config.data.rows⟩, ?_, h.config.epsilon, h.config.params⟩
    intro hu
    have hu' : k.usesLinear = true := hu
    have hc := h.config.linear hu'
    show LinearConfig L dim b
    rw [hL, if_pos hu']
    exact ⟨⟨rfl, hc.data.noGradients, hc.data.noDirectional, hc.data.size, hc.data.ratio, hc.data.stale,
      hc.data.rows⟩, hc.ratio, rfl⟩
  · exact ⟨hr.usesLinear, hr.epsilon, hr.validation, hr.objective, hr.readWarm, hr.ratio, hr.values⟩

end Rodeo
