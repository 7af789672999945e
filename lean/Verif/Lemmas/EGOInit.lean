import Verif.Lemmas.EGOTotal

/-! # The state before the first iteration -/

set_option linter.unusedSectionVars false

namespace Rodeo

open Text Spec

variable {K : Type} [Field K] [LinearOrder K] [IsStrictOrderedRing K]

theorem Problem.initialData_shape {p : Problem K} {T : Mat K} {N mT : Nat} {G : Nat → Nat → K}
    (hT : IsMat T N mT G) (hmT : p.dimension < mT)
    (hb : p.boxSet = true) (hd : p.dimension ≠ 0) (hN : N ≠ 0)
    (hl : p.lb.length = p.dimension) (hu : p.ub.length = p.dimension)
    (hc : ∀ (k : Nat) c, p.constraints[k]? = some c → UsableConstraint p.dimension c ∧ c.id = (k : Int)) :
    OkP (p.initialData T) (fun B => ∃ F',
      IsMat B N (p.dimension + 1 + p.constraints.length + 2) F' ∧ Problem.Filled p N G F') := by
  by_cases hcons : p.constraints = []
  · -- the box is not used
    have key : ∀ p' : Problem K, p'.constraints = p.constraints → p'.dimension = p.dimension →
        p'.boxSet = p.boxSet → p'.initialData T = p.initialData T := by
      intro p' h1 h2 h3
      unfold Problem.initialData Problem.setConstraintsDataIfAny Problem.setFeasibilityValues
      simp only [h1, h2, hcons, List.length_nil, gt_iff_lt, lt_irrefl, if_false]
    let L : K := ∑ i ∈ Finset.range N, ∑ j ∈ Finset.range p.dimension, |G i j|
    let p' : Problem K := { p with
      lb := List.replicate p.dimension (-L)
      ub := List.replicate p.dimension L }
    have hL : ∀ i j, i < N → j < p.dimension → |G i j| ≤ L := by
      intro i j hi hj
      refine le_trans ?_ (Finset.single_le_sum (f := fun i => ∑ j ∈ Finset.range p.dimension, |G i j|)
        (fun i _ => Finset.sum_nonneg (fun j _ => abs_nonneg _)) (Finset.mem_range.2 hi))
      exact Finset.single_le_sum (f := fun j => |G i j|) (fun j _ => abs_nonneg _) (Finset.mem_range.2 hj)
    have hin : ∀ i, i < N → InBox p'.lb p'.ub ((List.range p'.dimension).map (G i)) := by
      intro i hi
      refine ⟨by simp [p'], by simp [p'], ?_⟩
      intro j l u x h1 h2 h3
      simp only [p', List.getElem?_replicate, List.getElem?_map] at h1 h2 h3
      have hj : j < p.dimension := by
        by_contra hj; rw [if_neg hj] at h1; cases h1
      rw [if_pos hj] at h1 h2
      rw [List.getElem?_range hj] at h3
      simp only [Option.some.injEq, Option.map_some] at h1 h2 h3
      subst h1 h2 h3
      exact abs_le.1 (hL i j hi hj)
    obtain ⟨B, e, F', h1, h2, -⟩ := Problem.initialData_ok (p := p') hT hmT hb hd hN (by simp [p'])
      (by simp [p']) hc (Or.inr hin)
    refine ⟨B, ?_, F', h1, h2⟩
    rw [← e]
    exact (key p' rfl rfl rfl).symm
  · obtain ⟨B, e, F', h1, h2, -⟩ := Problem.initialData_ok hT hmT hb hd hN hl hu hc (Or.inl hcons)
    exact ⟨B, e, F', h1, h2⟩

namespace Design

/-- The matrices of a design are proper matrices. -/
def Shaped (d : Design K) : Prop :=
  (∃ n m F, IsMat d.gradientsMatrix n m F) ∧ (∃ n m F, IsMat d.gradientsMatrixLowFi n m F) ∧
  (∃ n m F, IsMat d.directionsMatrix n m F) ∧ ∃ n m F, IsMat d.directionsMatrixLowFi n m F

theorem setNumberOfConstraints_ok {d : Design K} (hd : d.dimension ≠ 0) (hs : d.Shaped) (n : Nat) :
    ∃ d', d.setNumberOfConstraints n = .ok d' ∧ d'.Shaped ∧ d'.dimension = d.dimension ∧
      d'.numberOfConstraints = n ∧ d'.constraintTrueValues.length = n ∧ d'.gradient = d.gradient ∧
      d'.constraintGradients = d.constraintGradients ∧ d'.improvement = d.improvement ∧
      d'.paramsNormalized = d.paramsNormalized := by
  obtain ⟨⟨n1, m1, F1, h1⟩, ⟨n2, m2, F2, h2⟩, ⟨n3, m3, F3, h3⟩, ⟨n4, m4, F4, h4⟩⟩ := hs
  obtain ⟨A1, e1, g1⟩ := Mat.resize_ok h1 n d.dimension
  obtain ⟨A2, e2, g2⟩ := Mat.resize_ok h2 n d.dimension
  obtain ⟨A3, e3, g3⟩ := Mat.resize_ok h3 n d.dimension
  obtain ⟨A4, e4, g4⟩ := Mat.resize_ok h4 n d.dimension
  refine ⟨{ d with
      numberOfConstraints := n
      constraintTrueValues := Vec.resize d.constraintTrueValues n
      constraintTrueValuesLowFi := Vec.resize d.constraintTrueValuesLowFi n
      constraintTangent := Vec.resize d.constraintTangent n
      constraintTangentLowFi := Vec.resize d.constraintTangentLowFi n
      gradientsMatrix := A1
      gradientsMatrixLowFi := A2
      directionsMatrix := A3
      directionsMatrixLowFi := A4 }, ?_, ⟨⟨_, _, _, g1⟩, ⟨_, _, _, g2⟩, ⟨_, _, _, g3⟩, ⟨_, _, _, g4⟩⟩,
    rfl, rfl, ?_, rfl, rfl, rfl, rfl⟩
  · unfold setNumberOfConstraints
    rw [if_neg hd]
    exact bind_eq e1 (bind_eq e2 (bind_eq e3 (bind_eq e4 rfl)))
  · simp [Vec.resize]; omega

theorem new_shaped : (Design.new : Design K).Shaped := by
  have h : IsMat (Mat.empty : Mat K) 0 0 (fun _ _ => 0) := by
    refine ⟨rfl, rfl, ?_, ?_⟩ <;> simp [Mat.empty]
  exact ⟨⟨_, _, _, h⟩, ⟨_, _, _, h⟩, ⟨_, _, _, h⟩, ⟨_, _, _, h⟩⟩

end Design

namespace EGO

open Step

section round
variable [FloorRing K]

/-- A new optimizer. -/
theorem fresh_ok {p : Problem K} (hd : 0 < p.dimension) (names : List Str) :
    ∃ s : EGOState K, fresh p names = .ok s ∧ s.iteration = 0 ∧ s.evaluations = 0 ∧ s.trained = [] ∧
      s.calls = [] ∧ s.samples = [] ∧ s.sigma = .fin 1 ∧ s.sigmaMultiplier = 1 ∧ s.bestDelta = 0 ∧
      s.tr.length = 8 / 10 ∧ s.tr.successCounter = 0 ∧ s.tr.failureCounter = 0 ∧
      s.tr.successTolerance = 3 ∧ s.tr.failureTolerance = 15 ∧
      s.history.dimension = p.dimension ∧ s.history.parameterNames = names ∧
      s.history.constraintNames = [] ∧ s.history.data.nrows = 0 ∧
      s.current.dimension = p.dimension ∧ s.current.Shaped ∧ (∀ x ∈ s.current.gradient, x = 0) ∧
      s.current.constraintGradients = [] ∧
      s.global.box = ⟨p.lb, p.ub, p.dimension, true⟩ ∧ s.global.design.dimension = p.dimension ∧
      s.global.design.numberOfConstraints = p.constraints.length := by
  obtain ⟨c, ec, c1, c2, c3, c4, c5, c6⟩ : ∃ c : Design K,
      (Design.new : Design K).setDimension p.dimension = .ok c ∧ c.dimension = p.dimension ∧ c.Shaped ∧
      (∀ x ∈ c.gradient, x = 0) ∧ c.constraintGradients = [] ∧ c.numberOfConstraints = 0 ∧
      c.improvement = 0 := by
    unfold Design.setDimension
    rw [if_neg (by omega)]
    refine ⟨_, rfl, rfl, Design.new_shaped, ?_, rfl, rfl, rfl⟩
    intro x hx
    simp [Vec.resize, Design.new] at hx
    exact hx.2
  obtain ⟨g, eg, g1, g2, g3⟩ : OkP (forRange p.constraints.length
      (fun k (g : Design K) => g.setNumberOfConstraints (k + 1)) c) (fun g : Design K =>
        g.dimension = p.dimension ∧ g.Shaped ∧ g.numberOfConstraints = p.constraints.length) := by
    refine forRange_inv (fun k (g : Design K) => g.dimension = p.dimension ∧ g.Shaped ∧ g.numberOfConstraints = k)
      ⟨c1, c2, c5⟩ ?_
    rintro k g hk ⟨h1, h2, -⟩
    obtain ⟨d', e, h3, h4, h5, -⟩ := Design.setNumberOfConstraints_ok (d := g) (by omega) h2 (k + 1)
    exact ⟨d', e, h4.trans h1, h3, h5⟩
  refine ⟨{
    iteration := 0
    current := c
    global := ⟨g, ⟨p.lb, p.ub, p.dimension, true⟩⟩
    history := { (History.new : History K) with dimension := p.dimension, parameterNames := names }
    best := 0
    tr := { (TrustRegion.start p.dimension : TrustRegion K) with lengthMin := 0, lengthMax := 0 }
    sigma := .fin 1
    sigmaMultiplier := 1
    bestDelta := 0
    crowdingCoefficient := 0
    evaluations := 0
    trained := []
    calls := []
    samples := [] }, ?_, ?_⟩
  · unfold fresh
    rw [if_neg (by omega)]
    exact bind_eq ec (bind_eq eg rfl)
  · refine ⟨rfl, rfl, rfl, rfl, rfl, rfl, rfl, rfl, rfl, rfl, rfl, rfl, rfl, rfl, rfl, rfl, rfl, c1, c2, c3,
      c4, rfl, g1, g3⟩

theorem checkBoxConstraints_ok {p : Problem K} (h : ValidBox p.dimension p.lb p.ub) :
    checkBoxConstraints p = .ok true := by
  obtain ⟨hd, hl, hu, hlt⟩ := h
  have H : ∃ r, checkBoxConstraints p = .ok r ∧
      (r = true ↔ ∀ j, j < p.dimension → (fun _ : Nat => false) j = false) := by
    unfold checkBoxConstraints
    refine noneOf_ok ?_
    intro j hj
    have h1 := List.getElem?_eq_getElem (l := p.lb) (i := j) (by omega)
    have h2 := List.getElem?_eq_getElem (l := p.ub) (i := j) (by omega)
    rw [vat_eq_ok.2 h1, vat_eq_ok.2 h2]
    have := hlt j _ _ h1 h2
    simp only [ge_iff_le, Except.ok.injEq, decide_eq_false_iff_not, not_le]
    exact this
  obtain ⟨r, e, hr⟩ := H
  rw [e, hr.2 (fun _ _ => rfl)]

theorem addNames_ok : ∀ (names : List Str) (h : History K), (h.constraintNames ++ names).Nodup →
    [] ∉ names → addNames h names = .ok { h with constraintNames := h.constraintNames ++ names } := by
  intro names
  induction names with
  | nil => intro h _ _; simp [addNames, foldRes]
  | cons n names ih =>
    intro h hn he
    have e1 : h.addConstraintName n = .ok { h with constraintNames := h.constraintNames ++ [n] } := by
      unfold History.addConstraintName
      rw [if_neg (by rintro rfl; simp at he), if_neg ?_]
      intro hm
      rw [List.nodup_append] at hn
      exact hn.2.2 n hm n (by simp) rfl
    unfold addNames foldRes
    rw [e1]
    dsimp only
    have := ih { h with constraintNames := h.constraintNames ++ [n] } (by simpa using hn)
      (by intro h'; exact he (List.mem_cons_of_mem _ h'))
    unfold addNames at this
    rw [this]
    simp

/-- The optimizer is ready for the first iteration. -/
theorem init_ok {E : EGOEnv K} {names : List Str} (hW : WellPosed E names) (hE : Responds E)
    (hM : E.maxSamples ≠ 0) {T : Mat K} {N mT : Nat} {G : Nat → Nat → K} (hT : IsMat T N mT G)
    (hN : N ≠ 0) (hmT : E.setup.problem.dimension < mT) :
    ∃ s0 s F, fresh E.setup.problem names = .ok s0 ∧
      Step.then (checkStep E true) (initStep E T) s0 = (s, .ok ()) ∧
      Ready E s N F ∧ Problem.Filled E.setup.problem N G F ∧
      s.iteration = 0 ∧ s.evaluations = 0 ∧ s.trained = [] ∧ s.calls = [] ∧ s.samples = [] ∧
      s.sigma = .fin 1 ∧ s.sigmaMultiplier = 1 ∧ s.history.numberOfDoESamples = N ∧
      s.tr = TrustRegion.start E.setup.problem.dimension ∧
      (E.variableSigma = true →
        s.crowdingCoefficient = reportedCrowding N E.setup.problem.dimension F) ∧
      (∃ h : History K, h.data = s.history.data ∧ h.dimension = E.setup.problem.dimension ∧
        h.calculateInitialImprovementValue = .ok s.best) ∧
      (∃ g : GlobalDesign K, g.design.dimension = E.setup.problem.dimension ∧
        g.design.numberOfConstraints = E.setup.problem.constraints.length ∧ g.box.isSet = true ∧
        g.box.lb = E.setup.problem.lb ∧ g.box.ub = E.setup.problem.ub ∧
        g.setFromHistory s.history.data = .ok s.global) := by
  have hd : 0 < E.setup.problem.dimension := hW.box.1
  obtain ⟨s0, e0, i1, i2, i3, i4, i5, i6, i7, i8, t1, t2, t3, t4, t5, i10, i11, i12, i13, i14, i15, i16, i17,
    i18, i19, i20⟩ := fresh_ok hd names
  obtain ⟨B, eB, F, hB, hF⟩ := Problem.initialData_shape hT hmT hW.boxSet (by omega) hN hW.box.2.1
    hW.box.2.2.1 hW.constraints
  obtain ⟨c, ec, c0, c1, c2, c3, c4, c5, c6, -⟩ := Design.setNumberOfConstraints_ok (d := s0.current)
    (by omega) i15 E.setup.problem.constraints.length
  -- settings
  let s1 : EGOState K := { s0 with
    sigma := .fin 1
    tr := { s0.tr with
      lengthMin := (1 / 2) ^ 8 * (1 / (E.setup.problem.dimension : K))
      lengthMax := 1 / (E.setup.problem.dimension : K) } }
  have q1 : checkStep E true s0 = (s1, .ok ()) := by
    unfold checkStep
    apply Step.ofRes_ok
    rw [if_neg (by simp), if_neg (by simp [hW.boxSet]), if_neg hM]
    refine bind_eq (checkBoxConstraints_ok hW.box) ?_
    rw [if_neg (by simp)]
    exact bind_eq hE.init rfl
  -- history
  let h1 : History K := { s0.history with
    dimension := E.setup.problem.dimension
    constraintNames := E.constraintNames }
  have eh1 : addNames { s0.history with dimension := E.setup.problem.dimension } E.constraintNames =
      .ok h1 := by
    rw [addNames_ok _ _ (by dsimp only; rw [i12]; simpa using hW.constraintNames.2.1) hW.constraintNames.2.2]
    simp only [i12, List.nil_append, h1]
  have hent : h1.numberOfEntries =
      E.setup.problem.dimension + 1 + E.setup.problem.constraints.length + 2 := by
    unfold History.numberOfEntries
    rw [← hW.constraintNames.1]
  have hne : B.isEmpty = false := by
    unfold Mat.isEmpty; simp [hB.1, hB.2.1, hN]
  let h2 : History K := { h1 with data := B }
  have eh2 : h1.setData B = .ok h2 := by
    unfold History.setData
    rw [if_neg (by show ¬ E.setup.problem.dimension = 0; omega), if_neg (by simp [hne]),
      if_neg (by rw [hent, hB.2.1]; simp)]
  obtain ⟨best, ebest, -⟩ := History.initialImprovement_ok (h := h2) hB hN
    (by show E.setup.problem.dimension ≠ 0; omega)
    (by show E.setup.problem.dimension < _; omega)
  have hnames : h2.parameterNames = [] ∨ h2.parameterNames.length = h2.dimension := by
    show s0.history.parameterNames = [] ∨ s0.history.parameterNames.length = E.setup.problem.dimension
    rw [i11]; exact hW.names
  obtain ⟨hdr, ehdr, hl, -⟩ := History.setHeader_ok h2 hnames
  let text := Mat.csvText 6 hdr N (E.setup.problem.dimension + 1 + E.setup.problem.constraints.length + 2) F
  have esave : h2.save = ({ h2 with file := some text }, .ok ()) := by
    unfold History.save
    rw [if_neg (by show ¬ B.isEmpty = true; simp [hne]), ehdr]
    dsimp only
    have : h2.data = B := rfl
    rw [this, Mat.saveAsCSV_ok hB 6 hdr (Or.inr (by rw [hl]; exact hent))]
  let h3 : History K := { h2 with
    file := some text
    numberOfDoESamples := N }
  obtain ⟨g', e6, b1, b2, b3, k, b4, b5, -⟩ := GlobalDesign.setFromHistory_ok (g := s0.global) hB hN
    (by rw [i19]; omega) (by rw [i19, i20]) (by rw [i18]) (by rw [i18, i19]; exact hW.box.2.1)
    (by rw [i18, i19]; exact hW.box.2.2.1)
  have ehist : E.setup.problem.setHistoryData h1 s0.global T = .ok (h3, best, g') := by
    unfold Problem.setHistoryData
    refine bind_eq eB (bind_eq eh2 (bind_eq ebest ?_))
    rw [esave]
    dsimp only
    refine bind_eq rfl ?_
    rw [if_neg (by simp [hW.boxSet])]
    refine bind_eq e6 ?_
    rw [hT.1]
  let s2 : EGOState K := { s1 with
    current := { c with feasible := true }
    history := h3
    best := best
    global := g' }
  obtain ⟨cr, ecr, hcr, hcr0⟩ := C33_reported (h := h3) hB (by show E.setup.problem.dimension ≠ 0; omega)
    (by show E.setup.problem.dimension < _; omega) hN (le_refl N)
  obtain ⟨s, es, hs⟩ : ∃ s, initialCrowding E s2 = .ok s ∧
      (∃ x y, s = { s2 with history := { h3 with crowding := x }, crowdingCoefficient := y } ∧
        (E.variableSigma = true → y = cr)) := by
    unfold initialCrowding
    by_cases hv : E.variableSigma = true
    · rw [if_pos hv]
      refine ⟨{ s2 with history := { h3 with crowding := cr }, crowdingCoefficient := cr }, bind_eq ecr ?_,
        cr, cr, rfl, fun _ => rfl⟩
      show Except.ok _ = Except.ok _
      simp only [mul_one]
    · rw [if_neg hv]
      exact ⟨s2, rfl, h3.crowding, s2.crowdingCoefficient, rfl, fun h => absurd h hv⟩
  obtain ⟨x, y, rfl, hy⟩ := hs
  refine ⟨s0, { s2 with history := { h3 with crowding := x }, crowdingCoefficient := y }, F, e0, ?_, ?_, hF, i1, i2, i3, i4, i5, rfl, i7, rfl, ?_, ?_, ⟨h2, rfl, rfl, ebest⟩,
    ⟨s0.global, i19, i20, by rw [i18], by rw [i18], by rw [i18], e6⟩⟩
  · rw [then_ok q1]
    unfold initStep
    apply Step.ofRes_ok
    refine bind_eq ec ?_
    rw [if_neg (by omega)]
    exact bind_eq eh1 (bind_eq ehist es)
  · refine ⟨c1.trans i14, c2, c3, ?_, ?_, fun _ => rfl, ?_, ?_, ?_, b2.trans i19, b3.trans i20, ?_, hB, hN,
      rfl, hW.constraintNames.1, ?_, ⟨hN, le_refl N⟩, ?_⟩
    · show ∀ x ∈ c.gradient, x = 0
      rw [c4]; exact i16
    · show c.constraintGradients = []
      rw [c5, i17]
    · show g'.box.isSet = true
      rw [b1, i18]
    · show g'.box.lb = _
      rw [b1, i18]
    · show g'.box.ub = _
      rw [b1, i18]
    · show g'.design.paramsNormalized.length = _
      rw [b5.2.2.2.2.2, List.length_map, List.length_range, b2, i19]
    · exact hnames
    · have := TrustRegion.start_limits (K := K) hd
      refine ⟨this.1, this.2.1, ?_⟩
      show (1 / 2) ^ 8 * (1 / (E.setup.problem.dimension : K)) ≤ s0.tr.length
      rw [t1]; exact this.2.2
  · show ({ s0.tr with
      lengthMin := (1 / 2) ^ 8 * (1 / (E.setup.problem.dimension : K))
      lengthMax := 1 / (E.setup.problem.dimension : K) } : TrustRegion K) = _
    unfold TrustRegion.start
    dsimp only
    rw [t1, t2, t3, t4, t5]
  · intro hv
    show y = _
    rw [hy hv, hcr]
    show reportedCrowding N E.setup.problem.dimension (fun i => F (N - N + i)) = _
    simp

end round
end EGO
end Rodeo
