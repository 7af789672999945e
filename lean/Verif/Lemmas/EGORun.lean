import Verif.Lemmas.EGOInit

/-! # The whole optimization when nothing outside throws -/

set_option linter.unusedSectionVars false

namespace Rodeo

open Text Spec

variable {K : Type} [Field K] [LinearOrder K] [IsStrictOrderedRing K]

namespace EGO

open Step

/-- The rows of the history with some more rows. -/
def appendRows (F : Nat → Nat → K) (N : Nat) (rows : List (List K)) : Nat → Nat → K :=
  fun i j => if i < N then F i j else (rows.getD (i - N) []).getD j 0

theorem appendRows_nil (F : Nat → Nat → K) (N i j : Nat) (h : i < N) : appendRows F N [] i j = F i j := by
  unfold appendRows; rw [if_pos h]

theorem appendRows_cons (F : Nat → Nat → K) (N : Nat) (r : List K) (rows : List (List K)) :
    appendRows (appendRow F N r) (N + 1) rows = appendRows F N (r :: rows) := by
  funext i j
  unfold appendRows appendRow
  by_cases h1 : i < N
  · rw [if_pos h1, if_pos (by omega), if_pos h1]
  · rw [if_neg h1]
    by_cases h2 : i = N
    · subst h2
      rw [if_pos (by omega), if_neg h1]
      simp
    · rw [if_neg (by omega)]
      have : i - N = i - (N + 1) + 1 := by omega
      rw [this, List.getD_cons_succ, if_neg h1]

theorem Ready.congr {E : EGOEnv K} {s : EGOState K} {N : Nat} {F F' : Nat → Nat → K} (h : Ready E s N F)
    (hF : ∀ i j, i < N → F i j = F' i j) : Ready E s N F' :=
  ⟨h.dim, h.nc, h.values, h.gradient, h.cgradients, h.feasible, h.gset, h.glb, h.gub, h.gdim, h.gnc, h.gnorm,
    h.mat.congr (fun i j hi _ => hF i j hi), h.rows, h.hdim, h.hnc, h.hnames, h.doe, h.tr⟩

section round
variable [FloorRing K]

/-- What the bookkeeping of the exploration factor preserves. -/
def SigmaOK (E : EGOEnv K) (s s' : EGOState K) : Prop :=
  (1 ≤ s.sigmaMultiplier → 1 ≤ s'.sigmaMultiplier ∧
    (E.variableSigma = true → ∃ D m n, 1 ≤ m ∧ s'.sigma = sigmaFactorOf s.crowdingCoefficient
      (reportedCrowding s.history.numberOfDoESamples E.setup.problem.dimension D) m (E.sigmaDraw n) 1 100)) ∧
  (E.variableSigma = false → s'.sigma = s.sigma)

/-- One iteration. -/
theorem iterate_total {E : EGOEnv K} {names : List Str} (hW : WellPosed E names) (hE : Responds E)
    (hk : E.howOften ≠ 0) {s : EGOState K} {N : Nat} {F : Nat → Nat → K} (h : Ready E s N F) :
    ∃ s' d, iterate E s = (s', .ok ()) ∧
      Ready E s' (N + 1) (appendRow F N (historyRow d E.setup.problem.constraints.length)) ∧
      Simulated E (s.iteration + 1) d ∧
      d.improvement = (improvementValue s.best d.feasible d.trueValue).2 ∧
      s'.best = (improvementValue s.best d.feasible d.trueValue).1 ∧
      s'.iteration = s.iteration + 1 ∧ s'.calls = s.calls ++ [d.params] ∧
      s'.samples = s.samples ++ newSamples E d ∧
      s'.history.numberOfDoESamples = s.history.numberOfDoESamples ∧
      s'.crowdingCoefficient = s.crowdingCoefficient ∧
      s'.tr = s.tr.step (decide (d.improvement > s.global.design.improvement)) ∧
      s.global.setFromHistory s'.history.data = .ok s'.global ∧ SigmaOK E s s' := by
  obtain ⟨d, e1, h1, h2, h3, h4, h5, h6⟩ := beforeRecording_ok hW hE hk h
  set s1 : EGOState K := { s with
    iteration := s.iteration + 1, trained := s.trained ++ trainedAt E (s.iteration + 1),
    calls := s.calls ++ [d.params], evaluations := s.evaluations + 1,
    best := (improvementValue s.best d.feasible d.trueValue).1, current := d } with hs1
  have hr1 : Ready E s1 N F := by
    refine ⟨h3, h4, h1.size, ?_, ?_, ?_, h.gset, h.glb, h.gub, h.gdim, h.gnc, h.gnorm, h.mat, h.rows, h.hdim,
      h.hnc, h.hnames, h.doe, h.tr⟩
    · show ∀ x ∈ d.gradient, x = 0
      rw [h5]; exact h.gradient
    · show d.constraintGradients = []
      rw [h6]; exact h.cgradients
    · intro hc
      refine h1.feasible.2 ?_
      intro k c v hk'
      rw [hc] at hk'; simp at hk'
  have hpl : d.params.length = E.setup.problem.dimension := by rw [h1.box.1, hW.box.2.1]
  obtain ⟨s', e2, r1, r2, r3, r4, r5, r6, r7, r8, r9, r10, r11, r12, r13, r14⟩ := recording_ok hW hE hr1 hpl
  refine ⟨s', d, ?_, r1, h1, h2, r7, r2, r3, r8, r9, r10, r11, r12, ?_, r14⟩
  · unfold iterate
    rw [then_ok e1, e2]
  · intro hm
    obtain ⟨a, b⟩ := r13 hm
    refine ⟨a, fun hv => ?_⟩
    obtain ⟨c, m, q1, q2⟩ := b hv
    exact ⟨c, m, _, q1, q2⟩

/-- The run from `s` to `s'` that simulated the designs `ds`. -/
structure Ran (E : EGOEnv K) (s s' : EGOState K) (N : Nat) (F : Nat → Nat → K) (ds : List (Design K)) :
    Prop where
  ready : Ready E s' (N + ds.length)
    (appendRows F N (ds.map (fun d => historyRow d E.setup.problem.constraints.length)))
  simulated : ∀ (i : Nat) d, ds[i]? = some d → Simulated E (s.iteration + i + 1) d
  improvements : ds.map (fun d => d.improvement) =
    improvementValues s.best (ds.map (fun d => (d.feasible, d.trueValue)))
  calls : s'.calls = s.calls ++ ds.map (fun d => d.params)
  samples : s'.samples = s.samples ++ ds.flatMap (newSamples E)
  doe : s'.history.numberOfDoESamples = s.history.numberOfDoESamples
  global : ∃ g : GlobalDesign K, g.design.dimension = E.setup.problem.dimension ∧
    g.design.numberOfConstraints = E.setup.problem.constraints.length ∧ g.box.isSet = true ∧
    g.box.lb = E.setup.problem.lb ∧ g.box.ub = E.setup.problem.ub ∧
    g.setFromHistory s'.history.data = .ok s'.global
  tr : ∃ bs, bs.length = ds.length ∧ s'.tr = s.tr.run bs
  sigma : SigmaOK E s s'

theorem loop_total {E : EGOEnv K} {names : List Str} (hW : WellPosed E names) (hE : Responds E)
    (hk : E.howOften ≠ 0) : ∀ (m : Nat) (s : EGOState K) (N : Nat) (F : Nat → Nat → K), Ready E s N F →
    s.iteration + (m + 1) = max (s.iteration + 1) E.maxSamples →
    ∃ s' ds, loop E (m + 1) s = (s', .ok ()) ∧ ds.length = m + 1 ∧ Ran E s s' N F ds := by
  intro m
  induction m with
  | zero =>
    intro s N F h hm
    obtain ⟨s', d, e, h1, h2, h3, h4, h5, h6, h7, h8, h9, h10, h11, h12⟩ := iterate_total hW hE hk h
    refine ⟨s', [d], ?_, rfl, ?_⟩
    · unfold loop
      rw [then_ok e, if_pos (by omega)]
    · refine ⟨?_, ?_, ?_, by simpa using h6, by simpa using h7, h8,
        ⟨s.global, h.gdim, h.gnc, h.gset, h.glb, h.gub, h11⟩, ⟨[_], rfl, h10⟩, h12⟩
      · refine h1.congr ?_
        intro i j hi
        rw [List.map_cons, ← appendRows_cons, List.map_nil, appendRows_nil _ _ _ _ hi]
      · intro i d' hd
        match i with
        | 0 => simp at hd; subst hd; exact h2
        | i + 1 => simp at hd
      · simp [improvementValues, h3]
  | succ m ih =>
    intro s N F h hm
    obtain ⟨s1, d, e, h1, h2, h3, h4, h5, h6, h7, h8, h9, h10, h11, h12⟩ := iterate_total hW hE hk h
    obtain ⟨s', ds, e', hl, r⟩ := ih s1 (N + 1) _ h1 (by rw [h5]; omega)
    refine ⟨s', d :: ds, ?_, by simp [hl], ?_⟩
    · unfold loop
      rw [then_ok e, if_neg (by omega)]
      exact e'
    · refine ⟨?_, ?_, ?_, ?_, ?_, r.doe.trans h8, r.global, ?_, ?_, ?_⟩
      · rw [List.map_cons, ← appendRows_cons, List.length_cons]
        have : N + (ds.length + 1) = N + 1 + ds.length := by omega
        rw [this]; exact r.ready
      · intro i d' hd
        match i with
        | 0 => simp at hd; subst hd; exact h2
        | i + 1 =>
          simp only [List.getElem?_cons_succ] at hd
          have := r.simulated i d' hd
          rw [h5] at this
          have e2 : s.iteration + (i + 1) + 1 = s.iteration + 1 + i + 1 := by omega
          rw [e2]; exact this
      · simp only [List.map_cons, improvementValues]
        rw [h3, r.improvements, h4]
      · rw [r.calls, h6]; simp
      · rw [r.samples, h7]; simp
      · obtain ⟨bs, hb, ht⟩ := r.tr
        exact ⟨decide (d.improvement > s.global.design.improvement) :: bs, by simp [hb], by rw [ht, h10]; rfl⟩
      · intro hm1
        obtain ⟨a1, a2⟩ := h12.1 hm1
        obtain ⟨b1, b2⟩ := r.sigma.1 a1
        refine ⟨b1, fun hv => ?_⟩
        obtain ⟨c, mm, n, c1, c2⟩ := b2 hv
        exact ⟨c, mm, n, c1, by rw [c2, h9, h8]⟩
      · intro hv
        rw [r.sigma.2 hv, h12.2 hv]

end round
end EGO
end Rodeo
