import Verif.Lemmas.Campaign

set_option linter.unusedSectionVars false

/-! # The iterations of an optimization with surrogate models and training data files -/

namespace Rodeo
open Spec Text EGO Mat

namespace Campaign

/-- The environment of `Model/EGO` in which models and files never throw, the acquisition function is `a`
and only the simulations of iteration `i` are those of `E`. -/
def okEnv (E : CampaignEnv ℝ) (a : Acq ℝ) (i : Nat) : EGOEnv ℝ :=
  { E.base with
    initSurrogates := .ok (), train := fun _ => .ok (), surrogate := fun _ => a,
    addSample := fun _ _ _ => .ok ()
    objective := fun n x => if n = i then E.base.objective n x else .ok 0
    constraint := fun n k x => if n = i then E.base.constraint n k x else .ok 0 }

/-- The environment of `Model/EGO` in which models and files never throw.  Statements about it do not
depend on the acquisition function. -/
def plain (E : CampaignEnv ℝ) : EGOEnv ℝ :=
  { E.base with
    initSurrogates := .ok (), train := fun _ => .ok (), surrogate := fun _ => ⟨fun _ => 0, fun _ => 0⟩,
    addSample := fun _ _ _ => .ok () }

variable {E : CampaignEnv ℝ} {names : List Str} {m0 : Models ℝ} {start : Option Nat → TrainingFile}

theorem ready_okEnv {a : Acq ℝ} {i : Nat} {s : EGOState ℝ} {N : Nat} {F : Nat → Nat → ℝ} :
    Ready (okEnv E a i) s N F ↔ Ready (plain E) s N F :=
  ⟨fun h => ⟨h.dim, h.nc, h.values, h.gradient, h.cgradients, h.feasible, h.gset, h.glb, h.gub, h.gdim, h.gnc,
    h.gnorm, h.mat, h.rows, h.hdim, h.hnc, h.hnames, h.doe, h.tr⟩,
   fun h => ⟨h.dim, h.nc, h.values, h.gradient, h.cgradients, h.feasible, h.gset, h.glb, h.gub, h.gdim, h.gnc,
    h.gnorm, h.mat, h.rows, h.hdim, h.hnc, h.hnames, h.doe, h.tr⟩⟩

theorem simulated_okEnv {a : Acq ℝ} {i : Nat} {d : Design ℝ} (h : Simulated (okEnv E a i) i d) :
    Simulated (plain E) i d := by
  refine ⟨h.box, ?_, h.size, ?_, h.feasible⟩
  · have := h.objective
    simp only [okEnv, if_pos] at this
    exact this
  · intro k c hk
    obtain ⟨v, h1, h2⟩ := h.constraints k c hk
    refine ⟨v, h1, ?_⟩
    unfold ConstraintValue at h2 ⊢
    cases hc : c.source with
    | user f => rw [hc] at h2; exact h2
    | data D =>
      rw [hc] at h2
      simp only [okEnv, if_pos] at h2
      exact h2

theorem wellPosed_okEnv {a : Acq ℝ} {i : Nat} (h : WellPosed (plain E) names) :
    WellPosed (okEnv E a i) names :=
  ⟨h.boxSet, h.box, h.discrete, h.few, h.constraints, h.constraintNames, h.names⟩

theorem responds_okEnv (hP : ProperCampaign E names m0 start) (hS : Sane E.base) {i : Nat}
    (hD : DeliversAt E.base i) (a : Acq ℝ) : Responds (okEnv E a i) where
  objective := by
    intro n x
    by_cases h : n = i
    · subst h
      obtain ⟨v, h1, h2⟩ := hD.objective x
      exact ⟨v, by simp only [okEnv, if_pos]; exact h1, h2⟩
    · exact ⟨0, by simp only [okEnv, if_neg h], hS.zero⟩
  constraint := by
    intro n k x
    by_cases h : n = i
    · subst h
      obtain ⟨v, h1, h2⟩ := hD.constraint k x
      exact ⟨v, by simp only [okEnv, if_pos]; exact h1, h2⟩
    · exact ⟨0, by simp only [okEnv, if_neg h], hS.zero⟩
  user := hS.user
  zero := hS.zero
  init := rfl
  train := fun _ => rfl
  addSample := fun _ _ _ => rfl
  complete := hP.complete
  around := hP.around
  fuel := hP.fuel

/-- What is known about one iteration. -/
structure Iterated (E : CampaignEnv ℝ) (s s' : EGOState ℝ) (N : Nat) (F : Nat → Nat → ℝ) (d : Design ℝ) :
    Prop where
  ready : Ready (plain E) s' (N + 1) (appendRow F N (historyRow d E.base.setup.problem.constraints.length))
  simulated : Simulated (plain E) (s.iteration + 1) d
  improvement : d.improvement = (improvementValue s.best d.feasible d.trueValue).2
  best : s'.best = (improvementValue s.best d.feasible d.trueValue).1
  iteration : s'.iteration = s.iteration + 1
  calls : s'.calls = s.calls ++ [d.params]
  samples : s'.samples = s.samples ++ newSamples E.base d
  evaluations : s'.evaluations = s.evaluations + 1
  trained : s'.trained = s.trained ++ trainedAt E.base (s.iteration + 1)
  doe : s'.history.numberOfDoESamples = s.history.numberOfDoESamples
  crowding : s'.crowdingCoefficient = s.crowdingCoefficient
  tr : s'.tr = s.tr.step (decide (d.improvement > s.global.design.improvement))
  global : s.global.setFromHistory s'.history.data = .ok s'.global
  sigma : SigmaOK (plain E) s s'

theorem lift_ok {f : Step ℝ} {s s' : EGOState ℝ} {m : Models ℝ} (h : f s = (s', .ok ())) :
    CStep.lift f (s, m) = ((s', m), .ok ()) := by
  unfold CStep.lift
  dsimp only
  rw [h]

theorem cthen_ok {f g : CStep ℝ} {p p' : CampaignState ℝ} (h : f p = (p', .ok ())) :
    CStep.then f g p = g p' := andThen_ok h rfl

theorem cthen_error {f g : CStep ℝ} {p p' : CampaignState ℝ} {e : Err} (h : f p = (p', .error e)) :
    CStep.then f g p = (p', .error e) := by
  unfold CStep.then andThen
  rw [h]

theorem proposeStep_inv {E : EGOEnv ℝ} {s s' : EGOState ℝ} (h : EGO.proposeStep E s = (s', .ok ())) :
    ∃ r, findDesignToSimulate (E.surrogate s.iteration) E.setup E.fuel s.global.design.paramsNormalized
        s.tr.length (E.search s.iteration) = .ok r ∧
      s' = { s with current := { s.current with params := r.2, paramsNormalized := r.1 } } := by
  unfold EGO.proposeStep at h
  rcases Step.ofRes_cases _ s with ⟨s2, f1, f2⟩ | ⟨e, f1, f2⟩
  · rw [f2] at h
    obtain rfl := (Prod.mk.inj h).1
    obtain ⟨r, g1, g2⟩ := bind_ok_inv f1
    cases g2
    exact ⟨r, g1, rfl⟩
  · rw [f2] at h
    cases (Prod.mk.inj h).2

/-- The samples of the constraints with training data. -/
noncomputable def csamples (E : CampaignEnv ℝ) (d : Design ℝ) : List (Option Nat × List ℝ) :=
  (E.base.setup.problem.constraints.zipIdx 0).flatMap fun c => constraintSample c.1 c.2 d

theorem acqOf_congr {s s' : EGOState ℝ} (m : Models ℝ) (h1 : s.sigma = s'.sigma) (h2 : s.global = s'.global) :
    acqOf E m s = acqOf E m s' := by
  unfold acqOf feasibleMinimum
  rw [h1, h2]

theorem evaluateConstraints_okEnv (a : Acq ℝ) (n : Nat) : ∀ (cs : List (Constraint ℝ)) (k : Nat)
    (d : Design ℝ), evaluateConstraints (okEnv E a n) n k cs d = evaluateConstraints E.base n k cs d := by
  intro cs
  induction cs with
  | nil => intro k d; rfl
  | cons c cs ih =>
    intro k d
    unfold evaluateConstraints
    have h1 : evaluateConstraint (okEnv E a n) n k c d = evaluateConstraint E.base n k c d := by
      unfold evaluateConstraint
      have h2 : constraintValue (okEnv E a n) n k c d.params = constraintValue E.base n k c d.params := by
        unfold constraintValue
        simp only [okEnv, if_pos]
      rw [h2]
    rw [h1]
    cases evaluateConstraint E.base n k c d with
    | error e => rfl
    | ok d1 => exact ih (k + 1) d1

theorem constraintStep_okEnv (a : Acq ℝ) {i : Nat} {s : EGOState ℝ} (hi : s.iteration = i) :
    EGO.constraintStep (okEnv E a i) s = EGO.constraintStep E.base s := by
  subst hi
  unfold EGO.constraintStep Step.ofRes
  have h : ∀ d : Design ℝ, evaluateConstraints (okEnv E a s.iteration) s.iteration 0
      (okEnv E a s.iteration).setup.problem.constraints d =
      evaluateConstraints E.base s.iteration 0 E.base.setup.problem.constraints d :=
    fun d => evaluateConstraints_okEnv a s.iteration _ 0 d
  simp only [h]
  rfl

theorem evaluateStep_okEnv (a : Acq ℝ) {i : Nat} {s : EGOState ℝ} (hi : s.iteration = i) :
    EGO.evaluateStep (okEnv E a i) s = EGO.evaluateStep E.base s := by
  subst hi
  unfold EGO.evaluateStep
  simp only [okEnv, if_pos]

theorem proposeStep_okEnv {s : EGOState ℝ} {m : Models ℝ} {a : Acq ℝ} (h : acqOf E m s = a) (i : Nat) :
    proposeStep E (s, m) = CStep.lift (EGO.proposeStep (okEnv E a i)) (s, m) := by
  subst h
  unfold proposeStep CStep.lift EGO.proposeStep Step.ofRes
  dsimp only [okEnv]

/-- One iteration: it is completed, or a training throws. -/
theorem iterate_campaign (hP : ProperCampaign E names m0 start) (hW : WellPosed (plain E) names)
    (hS : Sane E.base) {l : List (Option Nat × List ℝ)} {s : EGOState ℝ} {m : Models ℝ} {N : Nat}
    {F : Nat → Nat → ℝ} (hD : DeliversAt E.base (s.iteration + 1)) (hr : Ready (plain E) s N F) (h : Held E m0 start l All m) :
    (∃ s' m' m1 d, iterate E (s, m) = ((s', m'), .ok ()) ∧ Held E m0 start l All m1 ∧
      Held E m0 start (l ++ newSamples E.base d) All m' ∧ ProposedBy E m1 s d.params ∧ Iterated E s s' N F d) ∨
    ∃ m1 m' e, (s.iteration + 1) % E.base.howOften = 1 ∧ Held E m0 start l All m1 ∧
      Held E m0 start l All m' ∧ trainSurrogates E (s.iteration + 1) m1 = (m', .error e) ∧
      iterate E (s, m) = (({ s with
        iteration := s.iteration + 1, trained := s.trained ++ trainedAt E.base (s.iteration + 1) }, m'),
        .error e) := by
  obtain ⟨m1, hm1, ht | ⟨m2, e, q1, q2, q3, q4⟩⟩ := held_trainStep hP h
    { s with iteration := s.iteration + 1 }
  · left
    obtain ⟨a, ha⟩ : ∃ a, a = acqOf E m1 s := ⟨_, rfl⟩
    have hW1 : WellPosed (okEnv E a (s.iteration + 1)) names := wellPosed_okEnv hW
    have hE1 : Responds (okEnv E a (s.iteration + 1)) := responds_okEnv hP hS hD a
    obtain ⟨d, e1, h1, h2, h3, h4, h5, h6⟩ := beforeRecording_ok hW1 hE1 (show (okEnv E a (s.iteration + 1)).howOften ≠ 0 from
      hP.howOften) (ready_okEnv.2 hr)
    set s1 : EGOState ℝ := { s with
      iteration := s.iteration + 1, trained := s.trained ++ trainedAt (okEnv E a (s.iteration + 1)) (s.iteration + 1),
      calls := s.calls ++ [d.params], evaluations := s.evaluations + 1,
      best := (improvementValue s.best d.feasible d.trueValue).1, current := d } with hs1
    have hr1 : Ready (okEnv E a (s.iteration + 1)) s1 N F := by
      refine ⟨h3, h4, h1.size, ?_, ?_, ?_, hr.gset, hr.glb, hr.gub, hr.gdim, hr.gnc, hr.gnorm, hr.mat, hr.rows,
        hr.hdim, hr.hnc, hr.hnames, hr.doe, hr.tr⟩
      · show ∀ x ∈ d.gradient, x = 0
        rw [h5]; exact hr.gradient
      · show d.constraintGradients = []
        rw [h6]; exact hr.cgradients
      · intro hc
        refine h1.feasible.2 ?_
        intro k c v hk'
        rw [hc] at hk'; simp at hk'
    have hpl : d.params.length = E.base.setup.problem.dimension := by
      rw [h1.box.1]; exact hP.box.2.1
    obtain ⟨s', e2, r1, r2, r3, r4, r5, r6, r7, r8, r9, r10, r11, r12, r13, r14⟩ :=
      recording_ok hW1 hE1 hr1 hpl
    -- the steps
    unfold beforeRecording at e1
    obtain ⟨p1, b1, e1⟩ := Step.then_ok_inv e1
    obtain ⟨p2, b2, e1⟩ := Step.then_ok_inv e1
    obtain ⟨p3, b3, e1⟩ := Step.then_ok_inv e1
    obtain ⟨p4, b4, e1⟩ := Step.then_ok_inv e1
    obtain ⟨p5, b5, e1⟩ := Step.then_ok_inv e1
    obtain ⟨p6, b6, b7⟩ := Step.then_ok_inv e1
    obtain rfl : { s with iteration := s.iteration + 1 } = p1 := (Prod.mk.inj b1).1
    obtain ⟨-, rfl⟩ := trainStep_ok b2
    unfold recording at e2
    obtain ⟨t1, c1, e2⟩ := Step.then_ok_inv e2
    obtain ⟨t2, c2, e2⟩ := Step.then_ok_inv e2
    obtain ⟨t3, c3, e2⟩ := Step.then_ok_inv e2
    obtain ⟨t4, c4, e2⟩ := Step.then_ok_inv e2
    obtain ⟨t5, c5, c6⟩ := Step.then_ok_inv e2
    -- the search
    obtain ⟨r, hfind, hp3⟩ : ∃ r, findDesignToSimulate a E.base.setup E.base.fuel
        s.global.design.paramsNormalized s.tr.length (E.base.search (s.iteration + 1)) = .ok r ∧
        p3.current.params = r.2 := by
      obtain ⟨r, f1, rfl⟩ := proposeStep_inv b3
      exact ⟨r, f1, rfl⟩
    have hd3 : d.params = p3.current.params := by
      obtain ⟨-, v, -, rfl⟩ := evaluateStep_ok b4
      have k5 := (constraintStep_keeps (okEnv E a (s.iteration + 1))).eq b5
      have k6 := (improvementStep_keeps (K := ℝ)).eq b6
      have k7 := (nanStep_keeps (okEnv E a (s.iteration + 1))).eq b7
      have kk := k7.trans (k6.trans k5)
      have kc : s.calls ++ [d.params] = p3.calls ++ [p3.current.params] := congrArg (fun x => x.2.1) kk
      have k3 := congrArg (fun x => x.2.1) ((proposeStep_keeps (okEnv E a (s.iteration + 1))).eq b3)
      have k3' : p3.calls = s.calls := k3
      rw [k3'] at kc
      simpa using kc
    have hi3 : p3.iteration = s.iteration + 1 := by
      obtain ⟨r, -, rfl⟩ := proposeStep_inv b3
      rfl
    have hi4 : p4.iteration = s.iteration + 1 := by
      obtain ⟨-, v, -, rfl⟩ := evaluateStep_ok b4
      exact hi3
    -- the models
    obtain ⟨m2, g1, hm2⟩ := held_dataStep hP hm1 (s := s1) hpl h3
    have ht1 : { s1 with samples := s1.samples ++ [(none, s1.current.params ++ [s1.current.trueValue])] } =
        t1 := by
      unfold EGO.dataStep at c1
      have e : s1.current.sampleObjective = .ok (s1.current.params ++ [s1.current.trueValue]) := by
        have := Design.startSample_ok (d := s1.current) (hpl.trans h3.symm) 0 s1.current.trueValue
        rw [Nat.add_zero] at this
        exact this
      rw [e] at c1
      exact (Prod.mk.inj c1).1
    obtain ⟨m3, g2, hm3⟩ := held_constraintDataStep hP E.base.setup.problem.constraints 0 t1 m2 _
      (by rw [← ht1]; exact hpl) (by rw [← ht1]; exact h3)
      (by rw [← ht1]; exact h1.size.trans h4.symm) (by intro j c hj; rwa [Nat.zero_add])
      (by rw [← ht1]; show 0 + E.base.setup.problem.constraints.length ≤ d.numberOfConstraints; rw [h4]; exact (Nat.zero_add _).le) hm2
    have ht2 : { t1 with samples := t1.samples ++ csamples E t1.current } = t2 := by
      have := constraintDataStep_ok hE1 E.base.setup.problem.constraints 0 t1
        (by rw [← ht1]; exact hpl.trans h3.symm) (by rw [← ht1]; exact h1.size.trans h4.symm)
        (by intro j c hj; rw [(hP.constraints j c hj).2.2.2]; simp)
        (by rw [← ht1]; show 0 + E.base.setup.problem.constraints.length ≤ d.numberOfConstraints; rw [h4]; exact (Nat.zero_add _).le)
      have c2' : EGO.constraintDataStep (okEnv E a (s.iteration + 1)) E.base.setup.problem.constraints t1 = (t2, .ok ()) := c2
      rw [this] at c2'
      exact (Prod.mk.inj c2').1
    refine ⟨s', m3, m1, d, ?_, hm1, ?_, ?_, ?_⟩
    · unfold iterate
      have j1 : proposeStep E ({ s with
          iteration := s.iteration + 1
          trained := s.trained ++ trainedAt E.base (s.iteration + 1) }, m1) = ((p3, m1), .ok ()) := by
        rw [proposeStep_okEnv (a := a) (by rw [ha]; exact acqOf_congr m1 rfl rfl) (s.iteration + 1)]
        exact lift_ok b3
      have j2 : CStep.lift (EGO.evaluateStep E.base) (p3, m1) = ((p4, m1), .ok ()) :=
        lift_ok (by rw [← evaluateStep_okEnv a hi3]; exact b4)
      have j3 : CStep.lift (EGO.constraintStep E.base) (p4, m1) = ((p5, m1), .ok ()) :=
        lift_ok (by rw [← constraintStep_okEnv a hi4]; exact b5)
      have j4 : CStep.lift (EGO.nanStep E.base) (p6, m1) = ((s1, m1), .ok ()) := lift_ok b7
      have j5 : dataStep E (s1, m1) = ((t1, m2), .ok ()) := by rw [← ht1]; exact g1
      have j6 : constraintDataStep E 0 E.base.setup.problem.constraints (t1, m2) = ((t2, m3), .ok ()) := by
        rw [← ht2]; exact g2
      have j7 : CStep.lift (EGO.sigmaStep E.base) (t4, m3) = ((t5, m3), .ok ()) := lift_ok c5
      have j8 : CStep.lift (EGO.globalStep E.base) (t5, m3) = ((s', m3), .ok ()) := lift_ok c6
      exact (cthen_ok (lift_ok b1)).trans <| (cthen_ok ht).trans <| (cthen_ok j1).trans <|
        (cthen_ok j2).trans <| (cthen_ok j3).trans <| (cthen_ok (lift_ok b6)).trans <|
        (cthen_ok j4).trans <| (cthen_ok j5).trans <| (cthen_ok j6).trans <|
        (cthen_ok (lift_ok c3)).trans <| (cthen_ok (lift_ok c4)).trans <| (cthen_ok j7).trans j8
    · have : newSamples E.base d = [(none, s1.current.params ++ [s1.current.trueValue])] ++
          csamples E t1.current := by
        rw [← ht1]; rfl
      rw [this, ← List.append_assoc]
      exact hm3
    · refine ⟨r.1, ?_⟩
      rw [hd3, hp3, ← ha]
      exact hfind
    · refine ⟨ready_okEnv.1 r1, simulated_okEnv h1, h2, r7, r2, r3, r8, r4, r5, r9, r10, r11, r12, ?_, r14⟩
      intro hm
      obtain ⟨a, b⟩ := r13 hm
      refine ⟨a, fun hv => ?_⟩
      obtain ⟨c, m, q1, q2⟩ := b hv
      exact ⟨c, m, _, q1, q2⟩
  · right
    refine ⟨m2, m1, e, q1, q2, hm1, q3, ?_⟩
    unfold iterate
    rw [cthen_ok (lift_ok (show EGO.countStep s = (_, .ok ()) from rfl)), cthen_error q4]

/-! ## Simulations that fail -/

theorem evaluateConstraints_inv {E : EGOEnv ℝ} {n : Nat} : ∀ (cs : List (Constraint ℝ)) (k : Nat)
    (d d' : Design ℝ), (∀ (j : Nat) c, cs[j]? = some c → c.id = ((k + j : Nat) : Int)) →
    evaluateConstraints E n k cs d = .ok d' → d'.params = d.params ∧ d'.trueValue = d.trueValue ∧
      (∀ i, i < k → d'.constraintTrueValues[i]? = d.constraintTrueValues[i]?) ∧
      ∀ (j : Nat) c D, cs[j]? = some c → c.source = .data D → ∃ v, E.constraint n (k + j) d.params = .ok v ∧
        d'.constraintTrueValues[k + j]? = some v := by
  intro cs
  induction cs with
  | nil =>
    intro k d d' _ h
    unfold evaluateConstraints at h
    cases h
    exact ⟨rfl, rfl, fun _ _ => rfl, fun j c D h => by simp at h⟩
  | cons c cs ih =>
    intro k d d' hid h
    have hc : c.id = (k : Int) := by simpa using hid 0 c (by simp)
    unfold evaluateConstraints at h
    obtain ⟨d1, h1, h2⟩ := bind_ok_inv h
    obtain ⟨v, hv, hk, rfl⟩ : ∃ v, constraintValue E n k c d.params = .ok v ∧
        k < d.constraintTrueValues.length ∧
        d1 = { d with constraintTrueValues := d.constraintTrueValues.set k v } := by
      unfold evaluateConstraint at h1
      cases hv : constraintValue E n k c d.params with
      | error e => rw [hv] at h1; cases h1
      | ok v =>
        rw [hv] at h1
        dsimp only at h1
        split at h1
        · cases h1
        · rename_i hn
          rw [hc] at hn h1
          rw [not_or] at hn
          rw [Int.toNat_natCast] at h1
          refine ⟨v, rfl, by omega, (Except.ok.inj h1).symm⟩
    obtain ⟨a1, a2, a3, a4⟩ := ih (k + 1) _ d' (by
      intro j c' hj
      rw [hid (j + 1) c' (by simpa using hj)]
      congr 1
      omega) h2
    refine ⟨a1, a2, ?_, ?_⟩
    · intro i hi
      rw [a3 i (by omega)]
      show (d.constraintTrueValues.set k v)[i]? = _
      rw [List.getElem?_set_ne (by omega)]
    · intro j c' D hj hs
      match j with
      | 0 =>
        simp at hj
        subst hj
        unfold constraintValue at hv
        rw [hs] at hv
        dsimp only at hv
        split at hv
        · cases hv
        · refine ⟨v, hv, ?_⟩
          rw [a3 (k + 0) (by omega)]
          show (d.constraintTrueValues.set k v)[k + 0]? = _
          rw [Nat.add_zero, List.getElem?_set_self hk]
      | j + 1 =>
        obtain ⟨w, w1, w2⟩ := a4 j c' D (by simpa using hj) hs
        have e : k + (j + 1) = k + 1 + j := by omega
        rw [e]
        exact ⟨w, w1, w2⟩

/-- An iteration in which a simulation fails: the models and files are those before it. -/
theorem iterate_fails (hP : ProperCampaign E names m0 start) (hW : WellPosed (plain E) names)
    (hS : Sane E.base) {l : List (Option Nat × List ℝ)} {s : EGOState ℝ} {m : Models ℝ} {N : Nat}
    {F : Nat → Nat → ℝ} (hF : FailsAt E.base (s.iteration + 1)) (hr : Ready (plain E) s N F)
    (h : Held E m0 start l All m) :
    (∃ s' m' e x, iterate E (s, m) = ((s', m'), .error e) ∧ Held E m0 start l All m' ∧
      ProposedBy E m' s x ∧ s'.samples = s.samples ∧ s'.history = s.history ∧ s'.global = s.global ∧
      s'.calls = s.calls ++ [x]) ∨
    ∃ m1 m' e, (s.iteration + 1) % E.base.howOften = 1 ∧ Held E m0 start l All m1 ∧
      Held E m0 start l All m' ∧ trainSurrogates E (s.iteration + 1) m1 = (m', .error e) ∧
      iterate E (s, m) = (({ s with
        iteration := s.iteration + 1, trained := s.trained ++ trainedAt E.base (s.iteration + 1) }, m'),
        .error e) := by
  obtain ⟨m1, hm1, ht | ⟨m2, e, q1, q2, q3, q4⟩⟩ := held_trainStep hP h
    { s with iteration := s.iteration + 1 }
  · left
    obtain ⟨a, ha⟩ : ∃ a, a = acqOf E m1 s := ⟨_, rfl⟩
    -- an environment whose simulations always deliver 0
    set Z : EGOEnv ℝ := { okEnv E a 0 with
      objective := fun _ _ => .ok 0, constraint := fun _ _ _ => .ok 0 } with hZdef
    have hWZ : WellPosed Z names := ⟨hW.boxSet, hW.box, hW.discrete, hW.few, hW.constraints,
      hW.constraintNames, hW.names⟩
    have hEZ : Responds Z := ⟨fun _ _ => ⟨0, rfl, hS.zero⟩, fun _ _ _ => ⟨0, rfl, hS.zero⟩, hS.user, hS.zero,
      rfl, fun _ => rfl, fun _ _ _ => rfl, hP.complete, hP.around, hP.fuel⟩
    have hrZ : Ready Z s N F := ⟨hr.dim, hr.nc, hr.values, hr.gradient, hr.cgradients, hr.feasible, hr.gset,
      hr.glb, hr.gub, hr.gdim, hr.gnc, hr.gnorm, hr.mat, hr.rows, hr.hdim, hr.hnc, hr.hnames, hr.doe, hr.tr⟩
    obtain ⟨d, e1, -⟩ := beforeRecording_ok hWZ hEZ (show Z.howOften ≠ 0 from hP.howOften) hrZ
    unfold beforeRecording at e1
    obtain ⟨p1, b1, e1⟩ := Step.then_ok_inv e1
    obtain ⟨p2, b2, e1⟩ := Step.then_ok_inv e1
    obtain ⟨p3, b3, e1⟩ := Step.then_ok_inv e1
    obtain ⟨p4, b4, -⟩ := Step.then_ok_inv e1
    obtain rfl : { s with iteration := s.iteration + 1 } = p1 := (Prod.mk.inj b1).1
    obtain ⟨-, rfl⟩ := trainStep_ok b2
    have hlen : p3.current.params.length = E.base.setup.problem.dimension := (evaluateStep_ok b4).1
    obtain ⟨r, hfind, hp3⟩ := proposeStep_inv b3
    have j1 : proposeStep E ({ s with
        iteration := s.iteration + 1
        trained := s.trained ++ trainedAt E.base (s.iteration + 1) }, m1) = ((p3, m1), .ok ()) := by
      rw [proposeStep_okEnv (a := a) (by rw [ha]; exact acqOf_congr m1 rfl rfl) 0]
      exact lift_ok b3
    have hit : iterate E (s, m) = (CStep.then (.lift (EGO.evaluateStep E.base)) <|
        CStep.then (.lift (EGO.constraintStep E.base)) <| CStep.then (.lift EGO.improvementStep) <|
        CStep.then (.lift (EGO.nanStep E.base)) <| CStep.then (dataStep E) <|
        CStep.then (constraintDataStep E 0 E.base.setup.problem.constraints) <|
        CStep.then (.lift EGO.historyStep) <| CStep.then (.lift EGO.successStep) <|
        CStep.then (.lift (EGO.sigmaStep E.base)) (.lift (EGO.globalStep E.base))) (p3, m1) := by
      unfold iterate
      exact (cthen_ok (lift_ok b1)).trans <| (cthen_ok ht).trans (cthen_ok j1)
    have hprop : ProposedBy E m1 s p3.current.params := by
      refine ⟨r.1, ?_⟩
      rw [hp3, ← ha]
      exact hfind
    have k3 : p3.samples = s.samples ∧ p3.history = s.history ∧ p3.global = s.global ∧ p3.calls = s.calls ∧
        p3.iteration = s.iteration + 1 := by
      rw [hp3]; exact ⟨rfl, rfl, rfl, rfl, rfl⟩
    obtain ⟨u1, u2, u3, u4, u5⟩ := k3
    have lift_error : ∀ {f : Step ℝ} {t t' : EGOState ℝ} {e : Err}, f t = (t', .error e) →
        CStep.lift f (t, m1) = ((t', m1), .error e) := by
      intro f t t' e hf
      unfold CStep.lift
      dsimp only
      rw [hf]
    -- the simulation of the objective function
    rcases h4 : EGO.evaluateStep E.base p3 with ⟨t4, r4⟩
    have v4 := (evaluateStep_records E.base).eq h4
    simp only [records, Prod.mk.injEq] at v4
    have c4 : t4.calls = p3.calls ++ [p3.current.params] := by
      unfold EGO.evaluateStep at h4
      rw [if_neg (not_not.2 hlen)] at h4
      dsimp only at h4
      cases ho : E.base.objective p3.iteration p3.current.params with
      | error e => rw [ho] at h4; rw [← (Prod.mk.inj h4).1]
      | ok v => rw [ho] at h4; rw [← (Prod.mk.inj h4).1]
    cases r4 with
    | error e =>
      refine ⟨t4, m1, e, _, ?_, hm1, hprop, v4.1.trans u1, v4.2.1.trans u2, v4.2.2.trans u3, by rw [c4, u4]⟩
      rw [hit, cthen_error (lift_error h4)]
    | ok u =>
      obtain ⟨-, v, hv, ht4⟩ := evaluateStep_ok h4
      rcases h5 : EGO.constraintStep E.base t4 with ⟨t5, r5⟩
      have v5 := (constraintStep_records E.base).eq h5
      simp only [records, Prod.mk.injEq] at v5
      have c5 : t5.calls = t4.calls := congrArg (fun x => x.2.1) ((constraintStep_keeps E.base).eq h5)
      cases r5 with
      | error e =>
        refine ⟨t5, m1, e, _, ?_, hm1, hprop, v5.1.trans (v4.1.trans u1), v5.2.1.trans (v4.2.1.trans u2),
          v5.2.2.trans (v4.2.2.trans u3), by rw [c5, c4, u4]⟩
        rw [hit, cthen_ok (lift_ok h4), cthen_error (lift_error h5)]
      | ok u =>
        rcases h6 : EGO.improvementStep t5 with ⟨t6, r6⟩
        unfold EGO.improvementStep at h6
        obtain ⟨ht6, rfl⟩ := Prod.mk.inj h6
        have hnan : t6.current.checkIfHasNan E.base.isNan = true := by
          rw [C60_partial]
          left
          have hcur : t6.current.trueValue = t5.current.trueValue ∧
              t6.current.constraintTrueValues = t5.current.constraintTrueValues := by
            rw [← ht6]; exact ⟨rfl, rfl⟩
          unfold simulatedNumbers
          rw [hcur.1, hcur.2]
          unfold EGO.constraintStep Step.ofRes at h5
          dsimp only at h5
          by_cases hc : E.base.setup.problem.constraints.length > 0
          · simp only [if_pos hc] at h5
            cases hev : evaluateConstraints E.base t4.iteration 0 E.base.setup.problem.constraints
                t4.current with
            | error e => rw [hev] at h5; cases (Prod.mk.inj h5).2
            | ok d5 =>
              rw [hev] at h5
              obtain ⟨a1, a2, -, a4⟩ := evaluateConstraints_inv _ 0 _ _ (by
                intro j c hj
                rw [(hP.constraints j c hj).2.2.2, Nat.zero_add]) hev
              simp only [bind, Except.bind] at h5
              cases hb : E.base.setup.problem.checkConstraintFeasibility d5.constraintTrueValues with
              | error e => rw [hb] at h5; cases (Prod.mk.inj h5).2
              | ok b =>
                rw [hb] at h5
                have ht5 : t5.current.trueValue = v ∧
                    t5.current.constraintTrueValues = d5.constraintTrueValues := by
                  rw [← (Prod.mk.inj h5).1]
                  refine ⟨?_, rfl⟩
                  show d5.trueValue = v
                  rw [a2, ht4]
                rw [ht5.1, ht5.2]
                rcases hF with hF | ⟨k, c, D, hk, hs, hF⟩
                · exact ⟨v, by simp, hF _ _ (by rw [← u5]; exact hv)⟩
                · obtain ⟨w, w1, w2⟩ := a4 k c D hk hs
                  rw [Nat.zero_add] at w1 w2
                  refine ⟨w, List.mem_cons_of_mem _ (List.mem_of_getElem? w2), hF t4.current.params w ?_⟩
                  rw [← u5, ← w1, ht4]
          · simp only [if_neg hc] at h5
            have ht5 : t4 = t5 := (Prod.mk.inj h5).1
            rcases hF with hF | ⟨k, c, D, hk, hs, hF⟩
            · refine ⟨v, ?_, hF _ _ (by rw [← u5]; exact hv)⟩
              rw [← ht5, ht4]
              simp
            · exfalso
              have := (List.getElem?_eq_some_iff.1 hk).1
              omega
        have h7 : EGO.nanStep E.base t6 = (t6, .error .runtimeError) := by
          unfold EGO.nanStep
          rw [hnan]
          rfl
        refine ⟨t6, m1, .runtimeError, _, ?_, hm1, hprop, ?_, ?_, ?_, ?_⟩
        · rw [hit, cthen_ok (lift_ok h4), cthen_ok (lift_ok h5), cthen_ok (lift_ok (s' := t6) (by
            rw [← ht6]; rfl)), cthen_error (lift_error h7)]
        · rw [← ht6]; exact v5.1.trans (v4.1.trans u1)
        · rw [← ht6]; exact v5.2.1.trans (v4.2.1.trans u2)
        · rw [← ht6]; exact v5.2.2.trans (v4.2.2.trans u3)
        · rw [← ht6]
          show t5.calls = _
          rw [c5, c4, u4]
  · right
    refine ⟨m2, m1, e, q1, q2, hm1, q3, ?_⟩
    unfold iterate
    rw [cthen_ok (lift_ok (show EGO.countStep s = (_, .ok ()) from rfl)), cthen_error q4]

end Campaign
end Rodeo
