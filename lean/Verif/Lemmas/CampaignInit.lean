import Verif.Lemmas.CampaignLoop

set_option linter.unusedSectionVars false

/-! # The beginning of an optimization with surrogate models and training data files -/

namespace Rodeo
open Spec Text EGO Mat

namespace Campaign

variable {E : CampaignEnv ℝ} {names : List Str} {m0 : Models ℝ} {start : Option Nat → TrainingFile}

/-- The constraint at position `k` with the training data of its model. -/
def fill (m : Models ℝ) (c : Constraint ℝ) (k : Nat) : Constraint ℝ :=
  match c.source with
  | .user _ => c
  | .data _ => { c with source := .data (m.fn (some k)).krig.data.rawData }

theorem withData_eq (m : Models ℝ) (cs : List (Constraint ℝ)) :
    withData m cs = cs.zipIdx.map (fun c => fill m c.1 c.2) := by
  unfold withData
  congr 1
  funext c
  unfold fill
  cases c.1.source <;> rfl

theorem withData_get (m : Models ℝ) (cs : List (Constraint ℝ)) (k : Nat) :
    (withData m cs)[k]? = (cs[k]?).map (fun c => fill m c k) := by
  rw [withData_eq, List.getElem?_map, List.getElem?_zipIdx]
  cases cs[k]? <;> simp

theorem withData_length (m : Models ℝ) (cs : List (Constraint ℝ)) : (withData m cs).length = cs.length := by
  rw [withData_eq]; simp

theorem withData_zipIdx (m : Models ℝ) (cs : List (Constraint ℝ)) :
    (withData m cs).zipIdx = cs.zipIdx.map (fun c => (fill m c.1 c.2, c.2)) := by
  apply List.ext_getElem?
  intro i
  rw [List.getElem?_zipIdx, withData_get, List.getElem?_map, List.getElem?_zipIdx]
  cases cs[i]? <;> simp

theorem fill_user {m : Models ℝ} {c : Constraint ℝ} {k : Nat} {f : List ℝ → ℝ} (h : c.source = .user f) :
    fill m c k = c := by
  unfold fill; rw [h]

theorem fill_data {m : Models ℝ} {c : Constraint ℝ} {k : Nat} {D : Mat ℝ} (h : c.source = .data D) :
    fill m c k = { c with source := .data (m.fn (some k)).krig.data.rawData } := by
  unfold fill; rw [h]

theorem fill_same (m : Models ℝ) (c : Constraint ℝ) (k : Nat) :
    (fill m c k).id = c.id ∧ (fill m c k).type = c.type ∧ (fill m c k).target = c.target := by
  unfold fill
  cases c.source <;> exact ⟨rfl, rfl, rfl⟩

theorem fill_user_iff {m : Models ℝ} {c : Constraint ℝ} {k : Nat} {f : List ℝ → ℝ} :
    (fill m c k).source = .user f ↔ c.source = .user f := by
  cases h : c.source with
  | user g => rw [fill_user h, h]
  | data D => rw [fill_data h]; simp

theorem modelled_filled (m : Models ℝ) :
    modelled (filled E m).base.setup.problem.constraints = modelled E.base.setup.problem.constraints := by
  show modelled (withData m E.base.setup.problem.constraints) = _
  unfold modelled
  rw [withData_zipIdx, List.filterMap_map]
  congr 1
  funext c
  simp only [Function.comp]
  cases h : c.1.source with
  | user f => rw [fill_user h, h]
  | data D => rw [fill_data h]

theorem hasModel_filled (m : Models ℝ) (key : Option Nat) : HasModel (filled E m) key ↔ HasModel E key := by
  rw [← mem_keys, ← mem_keys, modelled_filled]

theorem held_filled {m m1 : Models ℝ} {l : List (Option Nat × List ℝ)} {ready : Option Nat → Prop} :
    Held (filled E m) m0 start l ready m1 ↔ Held E m0 start l ready m1 := by
  constructor
  · intro h
    exact ⟨h.same, fun k hk => h.rest k (fun h' => hk ((hasModel_filled m k).1 h')),
      fun n hn => h.others n (fun k hk => hn k ((hasModel_filled m k).1 hk)),
      fun k hk => h.held k ((hasModel_filled m k).2 hk)⟩
  · intro h
    exact ⟨h.same, fun k hk => h.rest k (fun h' => hk ((hasModel_filled m k).2 h')),
      fun n hn => h.others n (fun k hk => hn k ((hasModel_filled m k).2 hk)),
      fun k hk => h.held k ((hasModel_filled m k).1 hk)⟩

theorem proper_filled (hP : ProperCampaign E names m0 start) (m : Models ℝ) :
    ProperCampaign (filled E m) names m0 start where
  fns := hP.fns
  boxSet := hP.boxSet
  box := hP.box
  discrete := hP.discrete
  few := hP.few
  constraints := by
    intro k c hk
    have hk' : (withData m E.base.setup.problem.constraints)[k]? = some c := hk
    rw [withData_get] at hk'
    obtain ⟨c0, h0, rfl⟩ := Option.map_eq_some_iff.1 hk'
    obtain ⟨e1, e2, e3⟩ := fill_same m c0 k
    rw [e1, e2, e3]
    exact hP.constraints k c0 h0
  constraintNames := by
    refine ⟨?_, hP.constraintNames.2⟩
    show E.base.constraintNames.length = (withData m E.base.setup.problem.constraints).length
    rw [withData_length]
    exact hP.constraintNames.1
  names := hP.names
  functions := fun key hk => hP.functions key ((hasModel_filled m key).1 hk)
  files := fun key hk => hP.files key ((hasModel_filled m key).1 hk)
  distinct := fun k k' hk hk' => hP.distinct k k' ((hasModel_filled m k).1 hk) ((hasModel_filled m k').1 hk')
  shuffles := hP.shuffles
  draws := hP.draws
  howOften := hP.howOften
  maxSamples := hP.maxSamples
  fuel := hP.fuel
  complete := hP.complete
  around := hP.around

theorem sane_filled (hS : Sane E.base) (m : Models ℝ) : Sane (filled E m).base where
  user := by
    intro c hc f x hs
    have hc' : c ∈ withData m E.base.setup.problem.constraints := hc
    obtain ⟨k, hk⟩ := List.getElem?_of_mem hc'
    rw [withData_get] at hk
    obtain ⟨c0, h0, rfl⟩ := Option.map_eq_some_iff.1 hk
    exact hS.user c0 (List.mem_of_getElem? h0) f x (fill_user_iff.1 hs)
  zero := hS.zero

theorem delivers_filled {n : Nat} (hD : DeliversAt E.base n) (m : Models ℝ) :
    DeliversAt (filled E m).base n := ⟨hD.objective, hD.constraint⟩

theorem fails_filled (n : Nat) (m : Models ℝ) : FailsAt (filled E m).base n ↔ FailsAt E.base n := by
  unfold FailsAt
  refine or_congr Iff.rfl ?_
  constructor
  · rintro ⟨k, c, D, h1, h2, h3⟩
    have hk' : (withData m E.base.setup.problem.constraints)[k]? = some c := h1
    rw [withData_get] at hk'
    obtain ⟨c0, h0, rfl⟩ := Option.map_eq_some_iff.1 hk'
    cases hc : c0.source with
    | user f => rw [fill_user hc, hc] at h2; cases h2
    | data D0 => exact ⟨k, c0, D0, h0, hc, h3⟩
  · rintro ⟨k, c, D, h1, h2, h3⟩
    refine ⟨k, fill m c k, (m.fn (some k)).krig.data.rawData, ?_, by rw [fill_data h2], h3⟩
    show (withData m E.base.setup.problem.constraints)[k]? = _
    rw [withData_get, h1]; rfl

theorem newSamples_filled (m : Models ℝ) (d : Design ℝ) :
    newSamples (filled E m).base d = newSamples E.base d := by
  unfold newSamples
  congr 1
  show (withData m E.base.setup.problem.constraints).zipIdx.flatMap _ = _
  rw [withData_zipIdx, List.flatMap_map]
  congr 1
  funext c
  unfold constraintSample
  cases h : c.1.source with
  | user f => rw [fill_user h, h]
  | data D => rw [fill_data h]

theorem trainList_filled (m : Models ℝ) (n : Nat) : ∀ (l : List (Option Nat)) (m1 : Models ℝ),
    trainList (filled E m) n l m1 = trainList E n l m1 := by
  intro l
  induction l with
  | nil => intro m1; rfl
  | cons k l ih =>
    intro m1
    unfold trainList
    have : trainList (filled E m) n l = trainList E n l := funext ih
    rw [this]
    rfl

theorem trainSurrogates_filled (m : Models ℝ) (n : Nat) (m1 : Models ℝ) :
    trainSurrogates (filled E m) n m1 = trainSurrogates E n m1 := by
  unfold trainSurrogates
  rw [modelled_filled]
  have : trainList (filled E m) n (modelled E.base.setup.problem.constraints) =
      trainList E n (modelled E.base.setup.problem.constraints) := funext (trainList_filled m n _)
  rw [this]
  rfl

theorem acqConstraints_filled (m m1 : Models ℝ) : acqConstraints (filled E m) m1 = acqConstraints E m1 := by
  unfold acqConstraints
  show (withData m E.base.setup.problem.constraints).zipIdx.map _ = _
  rw [withData_zipIdx, List.map_map]
  congr 1
  funext c
  obtain ⟨e1, e2, e3⟩ := fill_same m c.1 c.2
  simp only [Function.comp]
  rw [e1, e2, e3]
  cases h : c.1.source with
  | user f => rw [fill_user h, h]; rfl
  | data D => rw [fill_data h]; rfl

theorem acqOf_filled (m m1 : Models ℝ) (s : EGOState ℝ) : acqOf (filled E m) m1 s = acqOf E m1 s := by
  unfold acqOf
  rw [acqConstraints_filled]
  have : (filled E m).base.setup.problem.constraints.length = E.base.setup.problem.constraints.length :=
    withData_length m _
  rw [this]
  rfl

theorem find_filled (m : Models ℝ) (a : Acq ℝ) (fuel : Nat) (x : List ℝ) (r : ℝ) (o : SearchOracle ℝ) :
    findDesignToSimulate a (filled E m).base.setup fuel x r o =
    findDesignToSimulate a E.base.setup fuel x r o := rfl

theorem proposedBy_filled {m m1 : Models ℝ} {s : EGOState ℝ} {x : List ℝ}
    (h : ProposedBy (filled E m) m1 s x) : ProposedBy E m1 s x := by
  obtain ⟨norm, h⟩ := h
  rw [acqOf_filled, find_filled] at h
  exact ⟨norm, h⟩

theorem simulated_filled {m : Models ℝ} {n : Nat} {d : Design ℝ} (h : Simulated (plain (filled E m)) n d) :
    Simulated E.base n d where
  box := h.box
  objective := h.objective
  size := h.size.trans (withData_length m _)
  constraints := by
    intro k c hk
    obtain ⟨v, h1, h2⟩ := h.constraints k (fill m c k) (by
      show (withData m E.base.setup.problem.constraints)[k]? = _
      rw [withData_get, hk]; rfl)
    refine ⟨v, h1, ?_⟩
    unfold ConstraintValue at h2 ⊢
    cases hc : c.source with
    | user f => rw [fill_user hc, hc] at h2; exact h2
    | data D => rw [fill_data hc] at h2; exact h2
  feasible := by
    rw [h.feasible]
    constructor
    · intro h' k c v hk hv
      have := h' k (fill m c k) v (by
        show (withData m E.base.setup.problem.constraints)[k]? = _
        rw [withData_get, hk]; rfl) hv
      obtain ⟨e1, e2, e3⟩ := fill_same m c k
      unfold Holds at this ⊢
      rwa [e2, e3] at this
    · intro h' k c v hk hv
      have hk' : (withData m E.base.setup.problem.constraints)[k]? = some c := hk
      rw [withData_get] at hk'
      obtain ⟨c0, h0, rfl⟩ := Option.map_eq_some_iff.1 hk'
      have := h' k c0 v h0 hv
      obtain ⟨e1, e2, e3⟩ := fill_same m c0 k
      unfold Holds at this ⊢
      rwa [e2, e3]

theorem fresh_filled (m : Models ℝ) :
    fresh (filled E m).base.setup.problem names = fresh E.base.setup.problem names := by
  unfold fresh
  have : (filled E m).base.setup.problem.constraints.length = E.base.setup.problem.constraints.length :=
    withData_length m _
  rw [this]
  rfl

/-- A campaign at its beginning. -/
theorem held_start (hP : ProperCampaign E names m0 start) : Held E m0 start [] (fun _ => False) m0 where
  same := fun key => SameFn.refl _
  rest := fun _ _ => rfl
  others := fun _ _ => rfl
  held := by
    intro key hk
    obtain ⟨h1, h2, h3⟩ := hP.files key hk
    exact ⟨⟨_, _, _, h1, List.prefix_refl _, h2, h3, Collected.start _ _ _, fun h => h.elim⟩,
      .new (hP.functions key hk).2⟩

/-- The rows of the model of a function to which no sample was handed over. -/
theorem held_rows {m : Models ℝ} (h : Held E m0 start [] All m)
    {key : Option Nat} (hk : HasModel E key) :
    IsMat (m.fn key).krig.data.rawData (start key).rows (E.base.setup.problem.dimension + 1)
      (start key).table ∧ 0 < (start key).rows := by
  obtain ⟨⟨text, n, G, t1, t2, t3, t4, t5, t6⟩, -⟩ := h.held key hk
  obtain ⟨T, hc⟩ := (t6 trivial).current
  have h1 := t5.le
  have h2 := t5.few
  simp only [samplesOf, List.filterMap_nil, List.length_nil] at h2
  obtain rfl : n = (start key).rows := by omega
  exact ⟨hc.rows.congr (fun i j hi hj => t5.kept i j hi hj), readFromCSV_pos hc.table hc.rows⟩

theorem wellPosed_filled (hP : ProperCampaign E names m0 start) {m : Models ℝ}
    (h : Held E m0 start [] All m) : WellPosed (plain (filled E m)) names where
  boxSet := hP.boxSet
  box := hP.box
  discrete := hP.discrete
  few := hP.few
  constraints := by
    intro k c hk
    obtain ⟨h1, h2, h3, h4⟩ := (proper_filled hP m).constraints k c hk
    refine ⟨⟨h1, h2, h3, ?_⟩, h4⟩
    have hk' : (withData m E.base.setup.problem.constraints)[k]? = some c := hk
    rw [withData_get] at hk'
    obtain ⟨c0, h0, rfl⟩ := Option.map_eq_some_iff.1 hk'
    cases hc : c0.source with
    | user f => rw [fill_user hc, hc]; trivial
    | data D =>
      rw [fill_data hc]
      obtain ⟨q1, q2⟩ := held_rows h (key := some k) (Or.inr ⟨k, c0, D, rfl, h0, hc⟩)
      exact ⟨_, _, _, q1, q2, Nat.lt_succ_self _⟩
  constraintNames := (proper_filled hP m).constraintNames
  names := hP.names

/-- The history after the initialization. -/
theorem initStep_data {B : EGOEnv ℝ} {T : Mat ℝ} {s s' : EGOState ℝ} (h : initStep B T s = (s', .ok ())) :
    B.setup.problem.initialData T = .ok s'.history.data := by
  unfold initStep at h
  rcases Step.ofRes_cases _ s with ⟨s2, e1, e2⟩ | ⟨e, e1, e2⟩
  · rw [e2] at h
    obtain rfl : s2 = s' := (Prod.mk.inj h).1
    obtain ⟨c, -, e1⟩ := bind_ok_inv e1
    split_ifs at e1
    obtain ⟨hh, -, e1⟩ := bind_ok_inv e1
    obtain ⟨r, er, e1⟩ := bind_ok_inv e1
    have hdata : s2.history.data = r.1.data := by
      unfold initialCrowding at e1
      split_ifs at e1
      · obtain ⟨h2, e3, e1⟩ := bind_ok_inv e1
        dsimp only at e3 e1
        have : h2.data = r.1.data := by
          unfold History.calculateCrowdingFactor at e3
          split_ifs at e3
          all_goals first
            | (obtain ⟨x, -, e3⟩ := bind_ok_inv e3; obtain ⟨y, -, e3⟩ := bind_ok_inv e3; cases e3; rfl)
            | (obtain ⟨x, -, e3⟩ := bind_ok_inv e3; cases e3; rfl)
            | (cases e3; rfl)
        split at e1
        · cases e1; exact this
        · cases e1
      · cases e1; rfl
    rw [hdata]
    unfold Problem.setHistoryData at er
    obtain ⟨A, eA, er⟩ := bind_ok_inv er
    obtain ⟨h1, eh, er⟩ := bind_ok_inv er
    obtain ⟨best, -, er⟩ := bind_ok_inv er
    have h1d : h1.data = A := by
      unfold History.setData at eh
      split_ifs at eh
      cases eh; rfl
    obtain ⟨u, -, er⟩ := bind_ok_inv er
    dsimp only at er
    split_ifs at er
    obtain ⟨g1, -, er⟩ := bind_ok_inv er
    cases er
    rw [eA]
    have : h1.save.1.data = h1.data := by
      unfold History.save
      split_ifs
      · rfl
      · cases h1.setHeader <;> rfl
    exact congrArg Except.ok (h1d.symm.trans this.symm)
  · rw [e2] at h; cases h

/-- Settings, surrogate models and history at the beginning. -/
theorem init_campaign (hP : ProperCampaign E names m0 start) (hS : Sane E.base) :
    ∃ s0 s1 m F, fresh E.base.setup.problem names = .ok s0 ∧
      (filled E m).base.setup.problem.initialData (m.fn none).krig.data.rawData = .ok s1.history.data ∧
      (∀ n, perform E true n (s0, m0) = loop (filled E m) n (s1, m)) ∧
      Held E m0 start [] All m ∧ Ready (plain (filled E m)) s1 (start none).rows F ∧
      Problem.Filled (filled E m).base.setup.problem (start none).rows (start none).table F ∧
      s1.iteration = 0 ∧ s1.evaluations = 0 ∧ s1.trained = [] ∧ s1.calls = [] ∧ s1.samples = [] ∧
      s1.sigma = .fin 1 ∧ s1.sigmaMultiplier = 1 ∧
      s1.history.numberOfDoESamples = (start none).rows ∧
      s1.tr = TrustRegion.start E.base.setup.problem.dimension ∧
      (E.base.variableSigma = true → s1.crowdingCoefficient =
        reportedCrowding (start none).rows E.base.setup.problem.dimension F) ∧
      (∃ g : GlobalDesign ℝ, g.design.dimension = E.base.setup.problem.dimension ∧
        g.design.numberOfConstraints = (filled E m).base.setup.problem.constraints.length ∧
        g.box.isSet = true ∧ g.box.lb = E.base.setup.problem.lb ∧ g.box.ub = E.base.setup.problem.ub ∧
        g.setFromHistory s1.history.data = .ok s1.global) := by
  obtain ⟨m, em, hm⟩ := held_initialize hP 0 (held_start hP)
  obtain ⟨hT, hN⟩ := held_rows hm (key := none) (Or.inl rfl)
  have hP' := proper_filled hP m
  have hW := wellPosed_filled hP hm
  set Z : EGOEnv ℝ := { plain (filled E m) with
    objective := fun _ _ => .ok 0, constraint := fun _ _ _ => .ok 0 } with hZ
  have hWZ : WellPosed Z names := ⟨hW.boxSet, hW.box, hW.discrete, hW.few, hW.constraints,
    hW.constraintNames, hW.names⟩
  have hEZ : Responds Z := ⟨fun _ _ => ⟨0, rfl, hS.zero⟩, fun _ _ _ => ⟨0, rfl, hS.zero⟩,
    (sane_filled hS m).user, hS.zero, rfl, fun _ => rfl, fun _ _ _ => rfl, hP.complete, hP.around, hP.fuel⟩
  obtain ⟨s0, s, F, e0, e1, hr, hF, i1, i2, i3, i4, i5, i6, i7, i8, i9, i10, -, i12⟩ :=
    init_ok hWZ hEZ hP.maxSamples hT hN.ne' (Nat.lt_succ_self _)
  obtain ⟨s2, c1, c2⟩ := Step.then_ok_inv e1
  refine ⟨s0, s, m, F, ?_, initStep_data c2, ?_, hm, ?_, hF, i1, i2, i3, i4, i5, i6, i7, i8, i9, i10, i12⟩
  · rw [← fresh_filled m]; exact e0
  · intro n
    have k1 : CStep.lift (EGO.checkStep { E.base with initSurrogates := .ok () } true) (s0, m0) =
        ((s2, m0), .ok ()) := by
      refine lift_ok ?_
      rw [← c1]
      rfl
    have k2 : CStep.onModels (initializeSurrogates E 0) (s2, m0) = ((s2, m), .ok ()) := by
      unfold CStep.onModels
      dsimp only
      rw [em]
    have k3 : CStep.lift (EGO.initStep (filled E m).base (m.fn none).krig.data.rawData) (s2, m) =
        ((s, m), .ok ()) := by
      refine lift_ok ?_
      rw [← c2]
      rfl
    unfold perform
    refine (cthen_ok k1).trans ((cthen_ok k2).trans ?_)
    unfold afterInit
    exact cthen_ok k3
  · exact ⟨hr.dim, hr.nc, hr.values, hr.gradient, hr.cgradients, hr.feasible, hr.gset,
      hr.glb, hr.gub, hr.gdim, hr.gnc, hr.gnorm, hr.mat, hr.rows, hr.hdim, hr.hnc, hr.hnames, hr.doe, hr.tr⟩

end Campaign
end Rodeo
