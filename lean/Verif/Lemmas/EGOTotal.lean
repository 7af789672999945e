import Verif.Lemmas.EGO
import Verif.Spec.EGO

/-! # The optimization loop when nothing outside throws -/

set_option linter.unusedSectionVars false

namespace Rodeo

open Text Spec

variable {K : Type} [Field K] [LinearOrder K] [IsStrictOrderedRing K]

/-- The step returns, and the state satisfies `Q`. -/
def OkS (f : Step K) (s : EGOState K) (Q : EGOState K → Prop) : Prop := ∃ s', f s = (s', .ok ()) ∧ Q s'

theorem OkS.then {f g : Step K} {s : EGOState K} {P Q : EGOState K → Prop} (h : OkS f s P)
    (h2 : ∀ s', P s' → OkS g s' Q) : OkS (Step.then f g) s Q := by
  obtain ⟨s1, e, h1⟩ := h
  obtain ⟨s2, e2, h3⟩ := h2 s1 h1
  exact ⟨s2, by rw [Step.then_ok e, e2], h3⟩

theorem OkS.ofRes {f : EGOState K → Res (EGOState K)} {s : EGOState K} {Q : EGOState K → Prop}
    (h : OkP (f s) Q) : OkS (Step.ofRes f) s Q := by
  obtain ⟨s', e, h⟩ := h
  exact ⟨s', Step.ofRes_ok e, h⟩

theorem OkS.mono {f : Step K} {s : EGOState K} {P Q : EGOState K → Prop} (h : OkS f s P)
    (h2 : ∀ s', P s' → Q s') : OkS f s Q := by
  obtain ⟨s1, e, h1⟩ := h
  exact ⟨s1, e, h2 _ h1⟩

theorem OkS.ok {f : Step K} {s s' : EGOState K} {Q : EGOState K → Prop} (e : f s = (s', .ok ()))
    (h : Q s') : OkS f s Q := ⟨s', e, h⟩

namespace Problem

theorem checkConstraintFeasibility_iff (p : Problem K) {values : List K}
    (h : values.length = p.constraints.length) :
    ∃ b, p.checkConstraintFeasibility values = .ok b ∧
      (b = true ↔ ∀ (k : Nat) c v, p.constraints[k]? = some c → values[k]? = some v → Holds c v) := by
  unfold checkConstraintFeasibility
  rw [if_neg (by omega)]
  obtain ⟨r, e, hr⟩ := noneOf_ok (n := p.constraints.length)
    (test := fun i => match p.constraints[i]?, vat values i with
      | some c, .ok v => .ok (! c.checkFeasibility v)
      | none, _ => .error .ub
      | _, .error e => .error e)
    (b := fun i => match p.constraints[i]?, values[i]? with
      | some c, some v => ! c.checkFeasibility v
      | _, _ => false) (by
      intro j hj
      have h1 := List.getElem?_eq_getElem hj
      have h2 := List.getElem?_eq_getElem (l := values) (i := j) (by omega)
      rw [h1, vat_eq_ok.2 h2, h2])
  refine ⟨r, e, hr.trans ⟨?_, ?_⟩⟩
  · intro H k c v hc hv
    have hk : k < p.constraints.length := (List.getElem?_eq_some_iff.1 hc).1
    have := H k hk
    rw [hc, hv] at this
    simp only [Bool.not_eq_false'] at this
    exact (checkFeasibility_iff c v).1 this
  · intro H k hk
    have h1 := List.getElem?_eq_getElem hk
    have h2 := List.getElem?_eq_getElem (l := values) (i := k) (by omega)
    rw [h1, h2]
    simp only [Bool.not_eq_false']
    exact (checkFeasibility_iff _ _).2 (H k _ _ h1 h2)

end Problem

namespace EGO

open Step

/-- Sizes and settings that hold between the iterations; `F` are the `N` rows of the history. -/
structure Ready (E : EGOEnv K) (s : EGOState K) (N : Nat) (F : Nat → Nat → K) : Prop where
  dim : s.current.dimension = E.setup.problem.dimension
  nc : s.current.numberOfConstraints = E.setup.problem.constraints.length
  values : s.current.constraintTrueValues.length = E.setup.problem.constraints.length
  gradient : ∀ x ∈ s.current.gradient, x = 0
  cgradients : s.current.constraintGradients = []
  feasible : E.setup.problem.constraints = [] → s.current.feasible = true
  gset : s.global.box.isSet = true
  glb : s.global.box.lb = E.setup.problem.lb
  gub : s.global.box.ub = E.setup.problem.ub
  gdim : s.global.design.dimension = E.setup.problem.dimension
  gnc : s.global.design.numberOfConstraints = E.setup.problem.constraints.length
  gnorm : s.global.design.paramsNormalized.length = E.setup.problem.dimension
  mat : IsMat s.history.data N
    (E.setup.problem.dimension + 1 + E.setup.problem.constraints.length + 2) F
  rows : N ≠ 0
  hdim : s.history.dimension = E.setup.problem.dimension
  hnc : s.history.constraintNames.length = E.setup.problem.constraints.length
  hnames : s.history.parameterNames = [] ∨ s.history.parameterNames.length = E.setup.problem.dimension
  doe : s.history.numberOfDoESamples ≠ 0 ∧ s.history.numberOfDoESamples ≤ N
  tr : 0 ≤ s.tr.lengthMin ∧ s.tr.lengthMin ≤ s.tr.lengthMax ∧ s.tr.lengthMin ≤ s.tr.length

theorem constraintValue_ok {E : EGOEnv K} (hE : Responds E) (n k : Nat) {c : Constraint K}
    (hc : c ∈ E.setup.problem.constraints) {x : List K} (hx : x.length = E.setup.problem.dimension) :
    ∃ v, constraintValue E n k c x = .ok v ∧ ConstraintValue E n k c x v ∧ E.isNan v = false := by
  unfold constraintValue ConstraintValue
  cases hs : c.source with
  | user f => exact ⟨f x, rfl, rfl, hE.user c hc f x hs⟩
  | data A =>
    obtain ⟨v, h1, h2⟩ := hE.constraint n k x
    dsimp only
    rw [if_neg (by simpa using hx)]
    exact ⟨v, h1, h1, h2⟩

theorem evaluateConstraints_ok {E : EGOEnv K} (hE : Responds E) (n : Nat) :
    ∀ (cs : List (Constraint K)) (k : Nat) (d : Design K),
    d.params.length = E.setup.problem.dimension →
    (∀ c ∈ cs, c ∈ E.setup.problem.constraints) →
    (∀ (j : Nat) c, cs[j]? = some c → c.id = ((k + j : Nat) : Int)) →
    k + cs.length ≤ d.constraintTrueValues.length →
    OkP (evaluateConstraints E n k cs d) (fun d' =>
      d' = { d with constraintTrueValues := d'.constraintTrueValues } ∧
      d'.constraintTrueValues.length = d.constraintTrueValues.length ∧
      (∀ j, j < k → d'.constraintTrueValues[j]? = d.constraintTrueValues[j]?) ∧
      ∀ (j : Nat) c, cs[j]? = some c → ∃ v, d'.constraintTrueValues[k + j]? = some v ∧
        ConstraintValue E n (k + j) c d.params v ∧ E.isNan v = false) := by
  intro cs
  induction cs with
  | nil =>
    intro k d _ _ _ _
    exact okP_ok ⟨rfl, rfl, fun _ _ => rfl, by simp⟩
  | cons c cs ih =>
    intro k d hd hmem hid hlen
    obtain ⟨v, e1, hv, hnan⟩ := constraintValue_ok hE n k (hmem c (by simp)) hd
    have hid0 : c.id = (k : Int) := by simpa using hid 0 c rfl
    simp only [List.length_cons] at hlen
    have e2 : evaluateConstraint E n k c d =
        .ok { d with constraintTrueValues := d.constraintTrueValues.set k v } := by
      unfold evaluateConstraint
      rw [e1]
      dsimp only
      rw [if_neg (by rw [hid0]; push Not; constructor <;> omega), hid0]
      rfl
    refine bind_okP e2 ?_
    refine (ih (k + 1) { d with constraintTrueValues := d.constraintTrueValues.set k v } hd (fun c' hc' => hmem c' (by simp [hc'])) ?_ ?_).mono ?_
    · intro j c' hj
      have := hid (j + 1) c' (by simpa using hj)
      rw [this]
      push_cast; ring
    · simp; omega
    · rintro d' ⟨h1, h2, h3, h4⟩
      refine ⟨?_, ?_, ?_, ?_⟩
      · rw [h1]
      · rw [h2]; simp
      · intro j hj
        rw [h3 j (by omega)]
        simp only
        rw [List.getElem?_set_ne (by omega)]
      · intro j c' hj
        cases j with
        | zero =>
          simp only [List.getElem?_cons_zero, Option.some.injEq] at hj
          subst hj
          refine ⟨v, ?_, hv, hnan⟩
          rw [h3 (k + 0) (by omega)]
          exact List.getElem?_set_self (by omega)
        | succ j =>
          have := h4 j c' (by simpa using hj)
          rwa [show k + 1 + j = k + (j + 1) by omega] at this

theorem constraintStep_ok {E : EGOEnv K} {names : List Str} (hW : WellPosed E names) (hE : Responds E)
    {s : EGOState K} (hp : s.current.params.length = E.setup.problem.dimension)
    (hv : s.current.constraintTrueValues.length = E.setup.problem.constraints.length)
    (hf : E.setup.problem.constraints = [] → s.current.feasible = true) :
    ∃ (w : List K) (b : Bool), constraintStep E s =
        ({ s with current := { s.current with constraintTrueValues := w, feasible := b } }, .ok ()) ∧
      w.length = E.setup.problem.constraints.length ∧
      (∀ (k : Nat) c, E.setup.problem.constraints[k]? = some c →
        ∃ v, w[k]? = some v ∧ ConstraintValue E s.iteration k c s.current.params v ∧ E.isNan v = false) ∧
      (b = true ↔ ∀ (k : Nat) c v, E.setup.problem.constraints[k]? = some c → w[k]? = some v →
        Holds c v) := by
  unfold constraintStep
  by_cases hc : E.setup.problem.constraints.length > 0
  · obtain ⟨d, e1, h1, h2, -, h4⟩ := evaluateConstraints_ok hE s.iteration E.setup.problem.constraints 0
      s.current hp (fun c hc => hc) (by
        intro j c hj
        rw [(hW.constraints j c hj).2]; simp) (by omega)
    obtain ⟨b, e2, hb⟩ := E.setup.problem.checkConstraintFeasibility_iff
      (values := d.constraintTrueValues) (by omega)
    refine ⟨d.constraintTrueValues, b, ?_, by omega, ?_, hb⟩
    · apply Step.ofRes_ok
      rw [if_pos hc]
      refine bind_eq e1 (bind_eq e2 ?_)
      rw [h1]
    · intro k c hk
      have := h4 k c hk
      rwa [Nat.zero_add] at this
  · have hnil : E.setup.problem.constraints = [] := List.length_eq_zero_iff.1 (by omega)
    refine ⟨s.current.constraintTrueValues, true, ?_, by rw [hv], ?_, ?_⟩
    · apply Step.ofRes_ok
      rw [if_neg hc]
      congr 1
      rw [← hf hnil]
    · intro k c hk; rw [hnil] at hk; simp at hk
    · rw [hnil]; simp

section round
variable [FloorRing K]

/-- Everything up to the check for NaN. -/
theorem beforeRecording_ok {E : EGOEnv K} {names : List Str} (hW : WellPosed E names) (hE : Responds E)
    (hk : E.howOften ≠ 0) {s : EGOState K} {N : Nat} {F : Nat → Nat → K} (h : Ready E s N F) :
    ∃ d : Design K, beforeRecording E s =
        ({ s with iteration := s.iteration + 1, trained := s.trained ++ trainedAt E (s.iteration + 1),
                  calls := s.calls ++ [d.params], evaluations := s.evaluations + 1,
                  best := (improvementValue s.best d.feasible d.trueValue).1, current := d }, .ok ()) ∧
      Simulated E (s.iteration + 1) d ∧
      d.improvement = (improvementValue s.best d.feasible d.trueValue).2 ∧
      d.dimension = E.setup.problem.dimension ∧
      d.numberOfConstraints = E.setup.problem.constraints.length ∧
      d.gradient = s.current.gradient ∧ d.constraintGradients = s.current.constraintGradients := by
  obtain ⟨norm, dv, -, e3, -, -, -, hbox⟩ := C66_design_in_box (E.surrogate (s.iteration + 1))
    (s := E.setup) (incumbent := s.global.design.paramsNormalized) (trLength := s.tr.length)
    (o := E.search (s.iteration + 1)) (fuel := E.fuel) hW.boxSet hW.box hW.discrete hW.few h.gnorm
    (h.tr.1.trans h.tr.2.2) (hE.complete _) (hE.around _) hE.fuel
  obtain ⟨v, e4, hv⟩ := hE.objective (s.iteration + 1) dv
  have hlen : dv.length = E.setup.problem.dimension := by rw [hbox.1, hW.box.2.1]
  let s1 : EGOState K := { s with iteration := s.iteration + 1 }
  let s2 : EGOState K := { s1 with trained := s.trained ++ trainedAt E (s.iteration + 1) }
  let s3 : EGOState K := { s2 with current := { s.current with params := dv, paramsNormalized := norm } }
  let s4 : EGOState K := { s3 with
    calls := s.calls ++ [dv]
    evaluations := s.evaluations + 1
    current := { s3.current with trueValue := v } }
  have q1 : countStep s = (s1, .ok ()) := rfl
  have q2 : trainStep E s1 = (s2, .ok ()) := by
    unfold trainStep
    rw [if_neg hk]
    by_cases hm : (s.iteration + 1) % E.howOften = 1
    · rw [if_pos hm, hE.train]
      simp only [s2, trainedAt, if_pos hm]
      rfl
    · rw [if_neg hm]
      simp only [s2, trainedAt, if_neg hm, List.append_nil]
      rfl
  have q3 : proposeStep E s2 = (s3, .ok ()) := Step.ofRes_ok (bind_eq e3 rfl)
  have q4 : evaluateStep E s3 = (s4, .ok ()) := by
    unfold evaluateStep
    rw [if_neg (by simpa [s3] using hlen)]
    have : E.objective s3.iteration s3.current.params = .ok v := e4
    dsimp only
    rw [this]
  obtain ⟨w, b, q5, w1, w2, w3⟩ := constraintStep_ok hW hE (s := s4) hlen h.values h.feasible
  set s5 : EGOState K := { s4 with current := { s4.current with constraintTrueValues := w, feasible := b } }
    with hs5
  set d : Design K := { s5.current with improvement := (improvementValue s.best b v).2 } with hd
  let s6 : EGOState K := { s5 with best := (improvementValue s.best b v).1, current := d }
  have q6 : improvementStep s5 = (s6, .ok ()) := rfl
  have hnan : d.checkIfHasNan E.isNan = false := by
    unfold Design.checkIfHasNan
    have g1 : d.gradient = s.current.gradient := rfl
    have g2 : d.constraintGradients = s.current.constraintGradients := rfl
    have g3 : d.constraintTrueValues = w := rfl
    have g4 : d.trueValue = v := rfl
    rw [g1, g2, g3, g4, h.cgradients, hv]
    simp only [Bool.false_or, List.any_nil, Bool.or_false, Bool.or_eq_false_iff, List.any_eq_false]
    refine ⟨?_, ?_⟩
    · intro x hx
      rw [h.gradient x hx, hE.zero]; simp
    · intro x hx
      obtain ⟨k, hk', rfl⟩ := List.getElem_of_mem hx
      obtain ⟨v', a1, -, a3⟩ := w2 k _ (List.getElem?_eq_getElem (by omega))
      rw [List.getElem?_eq_getElem hk'] at a1
      rw [Option.some.inj a1, a3]; simp
  have q7 : nanStep E s6 = (s6, .ok ()) := by
    unfold nanStep
    have : s6.current = d := rfl
    rw [this, hnan]
    rfl
  refine ⟨d, ?_, ⟨hbox, e4, w1, ?_, w3⟩, rfl, h.dim, h.nc, rfl, rfl⟩
  · unfold beforeRecording
    rw [then_ok q1, then_ok q2, then_ok q3, then_ok q4, then_ok q5, then_ok q6, q7]
  · intro k c hc
    obtain ⟨v', a1, a2, -⟩ := w2 k c hc
    exact ⟨v', a1, a2⟩

theorem constraintDataStep_ok {E : EGOEnv K} (hE : Responds E) : ∀ (cs : List (Constraint K)) (k : Nat)
    (s : EGOState K), s.current.params.length = s.current.dimension →
    s.current.constraintTrueValues.length = s.current.numberOfConstraints →
    (∀ (j : Nat) c, cs[j]? = some c → c.id = ((k + j : Nat) : Int)) →
    k + cs.length ≤ s.current.numberOfConstraints →
    constraintDataStep E cs s = ({ s with
      samples := s.samples ++ (cs.zipIdx k).flatMap (fun c => constraintSample c.1 c.2 s.current) },
      .ok ()) := by
  intro cs
  induction cs with
  | nil => intro k s _ _ _ _; simp [constraintDataStep]
  | cons c cs ih =>
    intro k s hp hv hid hlen
    simp only [List.length_cons] at hlen
    have hid0 : c.id = (k : Int) := by simpa using hid 0 c rfl
    have e1 : constraintData E c s =
        ({ s with samples := s.samples ++ constraintSample c k s.current }, .ok ()) := by
      unfold constraintData constraintSample
      cases c.source with
      | user f => simp
      | data A =>
        dsimp only
        rw [if_neg (by omega), hid0]
        have hlt : k < s.current.constraintTrueValues.length := by omega
        have e : s.current.sampleConstraint k =
            .ok (s.current.params ++ [s.current.constraintTrueValues.getD k 0]) := by
          unfold Design.sampleConstraint
          rw [if_neg (by omega), if_neg (by omega)]
          refine bind_eq (vat_ok_of_lt hlt) ?_
          have := Design.startSample_ok (d := s.current) hp 0 (s.current.constraintTrueValues[k])
          rw [Nat.add_zero] at this
          rw [this]
          simp [List.getD, hlt]
        have e' : s.current.sampleConstraint (Int.toNat (k : Int)) =
            .ok (s.current.params ++ [s.current.constraintTrueValues.getD k 0]) := e
        rw [e']
        dsimp only
        rw [hE.addSample]
        rfl
    unfold constraintDataStep
    rw [then_ok e1]
    refine (ih (k + 1) { s with samples := s.samples ++ constraintSample c k s.current } hp hv ?_ ?_).trans ?_
    rotate_left
    · show k + 1 + cs.length ≤ s.current.numberOfConstraints
      omega
    · simp only [List.zipIdx_cons, List.flatMap_cons, List.append_assoc]
    · intro j c' hj
      rw [hid (j + 1) c' (by simpa using hj)]
      push_cast; ring

/-- The rows of the history with one more row. -/
def appendRow (F : Nat → Nat → K) (N : Nat) (row : List K) : Nat → Nat → K :=
  fun i j => if i < N then F i j else row.getD j 0

/-- What is recorded, and the bookkeeping of the trust region and of the exploration factor. -/
theorem recording_ok {E : EGOEnv K} {names : List Str} (hW : WellPosed E names) (hE : Responds E)
    {s : EGOState K} {N : Nat} {F : Nat → Nat → K} (h : Ready E s N F)
    (hp : s.current.params.length = E.setup.problem.dimension) :
    ∃ s', recording E s = (s', .ok ()) ∧
      Ready E s' (N + 1) (appendRow F N (historyRow s.current E.setup.problem.constraints.length)) ∧
      s'.iteration = s.iteration ∧ s'.calls = s.calls ∧ s'.evaluations = s.evaluations ∧
      s'.trained = s.trained ∧ s'.current = s.current ∧ s'.best = s.best ∧
      s'.samples = s.samples ++ newSamples E s.current ∧
      s'.history.numberOfDoESamples = s.history.numberOfDoESamples ∧
      s'.crowdingCoefficient = s.crowdingCoefficient ∧
      s'.tr = s.tr.step (decide (s.current.improvement > s.global.design.improvement)) ∧
      s.global.setFromHistory s'.history.data = .ok s'.global ∧
      (1 ≤ s.sigmaMultiplier → 1 ≤ s'.sigmaMultiplier ∧
        (E.variableSigma = true → ∃ D m, 1 ≤ m ∧ s'.sigma = sigmaFactorOf s.crowdingCoefficient
          (reportedCrowding s.history.numberOfDoESamples E.setup.problem.dimension D) m
          (E.sigmaDraw s.iteration) 1 100)) ∧
      (E.variableSigma = false → s'.sigma = s.sigma) := by
  have hd : 0 < E.setup.problem.dimension := hW.box.1
  have hpd : s.current.params.length = s.current.dimension := by rw [hp, h.dim]
  -- training data of the objective function
  let r1 : EGOState K := { s with samples := s.samples ++ [(none, s.current.params ++ [s.current.trueValue])] }
  have q1 : dataStep E s = (r1, .ok ()) := by
    unfold dataStep
    have e : s.current.sampleObjective = .ok (s.current.params ++ [s.current.trueValue]) := by
      have := Design.startSample_ok (d := s.current) hpd 0 s.current.trueValue
      rw [Nat.add_zero] at this
      exact this
    rw [e]
    dsimp only
    rw [hE.addSample]
  -- of the constraints
  let r2 : EGOState K := { r1 with samples := s.samples ++ newSamples E s.current }
  have q2 : constraintDataStep E E.setup.problem.constraints r1 = (r2, .ok ()) := by
    rw [constraintDataStep_ok hE E.setup.problem.constraints 0 r1 hpd
      (by show s.current.constraintTrueValues.length = _; rw [h.values]; exact h.nc.symm)
      (by
        intro j c hj
        rw [(hW.constraints j c hj).2]; simp)
      (by
        show 0 + E.setup.problem.constraints.length ≤ s.current.numberOfConstraints
        rw [h.nc]; omega)]
    simp only [r1, r2, newSamples, List.append_assoc, List.singleton_append]
  -- history
  have hu := C32_update h.mat (Or.inr (by rw [h.hdim, h.hnc])) (by rw [h.hdim]; exact h.hnames) s.current
  rw [if_neg (by rw [h.hdim]; simpa using hp), if_neg (by rw [h.hnc, h.values]; omega)] at hu
  obtain ⟨h', e3, -, hmat, a1, a2, a3, a4, a5⟩ := hu
  let r3 : EGOState K := { r2 with history := h' }
  have q3 : historyStep r2 = (r3, .ok ()) := by
    unfold historyStep
    have : r2.history.update r2.current = (h', .ok ()) := e3
    dsimp only
    rw [this]
  rw [h.hdim, h.hnc] at hmat
  -- trust region
  obtain ⟨m, bd, q4, hm⟩ : ∃ m bd, successStep r3 = ({ r3 with
      tr := s.tr.step (decide (s.current.improvement > s.global.design.improvement))
      sigmaMultiplier := m
      bestDelta := bd }, .ok ()) ∧ (1 ≤ s.sigmaMultiplier → 1 ≤ m) := by
    unfold successStep
    by_cases hi : s.current.improvement > s.global.design.improvement
    · refine ⟨if (s.current.improvement - s.global.design.improvement) /
          (if s.current.improvement - s.global.design.improvement > s.bestDelta then
            s.current.improvement - s.global.design.improvement else s.bestDelta) * 100 > 10 then 1
          else s.sigmaMultiplier,
        if s.current.improvement - s.global.design.improvement > s.bestDelta then
          s.current.improvement - s.global.design.improvement else s.bestDelta, ?_, ?_⟩
      · dsimp only
        rw [if_pos (by simpa [r3, r2, r1] using hi)]
      · intro h1
        split_ifs <;> first | exact le_refl _ | exact h1
    · refine ⟨s.sigmaMultiplier, s.bestDelta, ?_, id⟩
      dsimp only
      rw [if_neg (by simpa [r3, r2, r1] using hi)]
  set r4 : EGOState K := { r3 with
      tr := s.tr.step (decide (s.current.improvement > s.global.design.improvement))
      sigmaMultiplier := m
      bestDelta := bd } with hr4
  -- exploration factor
  obtain ⟨h'', m', σ, q5, hh, hm', hσ⟩ : ∃ (h'' : History K) (m' : K) (σ : Ext K), sigmaStep E r4 =
      ({ r4 with history := h'', sigma := σ, sigmaMultiplier := m' }, .ok ()) ∧
      (∃ c, h'' = { h' with crowding := c }) ∧
      (1 ≤ m → 1 ≤ m' ∧ (E.variableSigma = true → ∃ D m, 1 ≤ m ∧ σ = sigmaFactorOf s.crowdingCoefficient
          (reportedCrowding s.history.numberOfDoESamples E.setup.problem.dimension D) m
          (E.sigmaDraw s.iteration) 1 100)) ∧
      (E.variableSigma = false → σ = s.sigma) := by
    unfold sigmaStep
    by_cases hv : E.variableSigma = true
    · obtain ⟨c, e5, hc, -⟩ := C33_reported hmat (by rw [a1, h.hdim]; omega) (by rw [a1, h.hdim]; omega)
        (by rw [a5]; exact h.doe.1) (by rw [a5]; exact Nat.le_succ_of_le h.doe.2)
      refine ⟨{ h' with crowding := c }, m * (101 / 100),
        sigmaFactorOf s.crowdingCoefficient c m (E.sigmaDraw s.iteration) 1 100,
        Step.ofRes_ok ?_, ⟨c, rfl⟩, ?_, ?_⟩
      · rw [if_pos hv]
        exact bind_eq e5 rfl
      · intro hm1
        refine ⟨?_, fun _ => ⟨_, m, hm1, by rw [hc, a5, a1, h.hdim]⟩⟩
        show (1 : K) ≤ m * (101 / 100)
        linarith
      · intro hv'; rw [hv] at hv'; cases hv'
    · refine ⟨h', m, s.sigma, Step.ofRes_ok ?_, ⟨h'.crowding, rfl⟩, fun h1 => ⟨h1, fun h2 => absurd h2 hv⟩,
        fun _ => rfl⟩
      rw [if_neg hv]
  obtain ⟨c, rfl⟩ := hh
  set r5 : EGOState K := { r4 with history := { h' with crowding := c }, sigma := σ, sigmaMultiplier := m' }
    with hr5
  -- global optimum
  obtain ⟨g', e6, b1, b2, b3, k, b4, b5, -⟩ := GlobalDesign.setFromHistory_ok (g := s.global) hmat (by omega)
    (by rw [h.gdim]; omega) (by rw [h.gdim, h.gnc]) h.gset (by rw [h.glb, h.gdim]; exact hW.box.2.1)
    (by rw [h.gub, h.gdim]; exact hW.box.2.2.1)
  have q6 : globalStep E r5 = ({ r5 with global := g' }, .ok ()) := by
    unfold globalStep
    apply Step.ofRes_ok
    have n1 : r5.history.data.nrows = N + 1 := hmat.1
    have n2 : r5.history.data.ncols =
      E.setup.problem.dimension + 1 + E.setup.problem.constraints.length + 2 := hmat.2.1
    rw [if_neg (by simp [hW.boxSet]), if_neg (by omega)]
    exact bind_eq e6 rfl
  refine ⟨{ r5 with global := g' }, ?_, ?_, rfl, rfl, rfl, rfl, rfl, rfl, rfl, a5, rfl, rfl, e6, ?_, hσ⟩
  · unfold recording
    rw [then_ok q1, then_ok q2, then_ok q3, then_ok q4, then_ok q5, q6]
  · refine ⟨h.dim, h.nc, h.values, h.gradient, h.cgradients, h.feasible, ?_, ?_, ?_, ?_, ?_, ?_, hmat, by omega,
      ?_, ?_, ?_, ?_, ?_⟩
    · show g'.box.isSet = true
      rw [b1]; exact h.gset
    · show g'.box.lb = _
      rw [b1]; exact h.glb
    · show g'.box.ub = _
      rw [b1]; exact h.gub
    · exact b2.trans h.gdim
    · exact b3.trans h.gnc
    · show g'.design.paramsNormalized.length = _
      rw [b5.2.2.2.2.2, List.length_map, List.length_range, b2, h.gdim]
    · exact a1.trans h.hdim
    · show h'.constraintNames.length = _
      rw [a2]; exact h.hnc
    · show h'.parameterNames = [] ∨ h'.parameterNames.length = _
      rw [a3]; exact h.hnames
    · show h'.numberOfDoESamples ≠ 0 ∧ h'.numberOfDoESamples ≤ N + 1
      rw [a5]; exact ⟨h.doe.1, Nat.le_succ_of_le h.doe.2⟩
    · show 0 ≤ (s.tr.step _).lengthMin ∧ _
      obtain ⟨l1, l2⟩ := s.tr.step_limits (decide (s.current.improvement > s.global.design.improvement))
      have := (TrustRegion.run_lower s.tr h.tr.1 h.tr.2.1 h.tr.2.2
        [decide (s.current.improvement > s.global.design.improvement)]).2.2.1
      refine ⟨?_, ?_, ?_⟩
      · rw [l1]; exact h.tr.1
      · show (s.tr.step _).lengthMin ≤ (s.tr.step _).lengthMax
        rw [l1, l2]; exact h.tr.2.1
      · show (s.tr.step _).lengthMin ≤ (s.tr.step _).length
        rw [l1]; exact this
  · intro h1
    exact hm' (hm h1)

end round
end EGO
end Rodeo
