import Mathlib.Data.Rat.Floor
import Verif.Lemmas.EGORun

/-! # C22, C23, C34 and C60: the optimization loop -/

set_option linter.unusedSectionVars false

namespace Rodeo

open Text Spec

variable {K : Type} [Field K] [LinearOrder K] [IsStrictOrderedRing K]

namespace EGO

open Step

theorem checkStep_keeps {α : Type} (φ : EGOState K → α)
    (hφ : ∀ (s : EGOState K) σ t, φ { s with sigma := σ, tr := t } = φ s) (E : EGOEnv K) (o : Bool) :
    Keeps φ (checkStep E o) := by
  refine Keeps.ofRes ?_
  intro s s' h
  split_ifs at h
  obtain ⟨b, -, h⟩ := bind_ok_inv h
  dsimp only at h
  split_ifs at h
  obtain ⟨u, -, h⟩ := bind_ok_inv h
  cases h
  exact hφ _ _ _

section round
variable [FloorRing K]

theorem initStep_keeps (E : EGOEnv K) (T : Mat K) :
    Keeps (fun s => (s.iteration, s.calls, s.evaluations, s.trained, s.samples)) (initStep E T) := by
  refine Keeps.ofRes ?_
  intro s s' h
  obtain ⟨c, -, h⟩ := bind_ok_inv h
  split_ifs at h
  obtain ⟨h1, -, h⟩ := bind_ok_inv h
  obtain ⟨r, -, h⟩ := bind_ok_inv h
  unfold initialCrowding at h
  split_ifs at h
  · obtain ⟨h2, -, h⟩ := bind_ok_inv h
    dsimp only at h
    split at h
    · cases h; rfl
    · cases h
  · cases h; rfl

theorem fresh_counts {p : Problem K} {names : List Str} {s0 : EGOState K} (h : fresh p names = .ok s0) :
    s0.iteration = 0 ∧ s0.calls = [] ∧ s0.evaluations = 0 ∧ s0.trained = [] ∧ s0.samples = [] := by
  unfold fresh at h
  split_ifs at h
  obtain ⟨c, -, h⟩ := bind_ok_inv h
  obtain ⟨g, -, h⟩ := bind_ok_inv h
  cases h
  exact ⟨rfl, rfl, rfl, rfl, rfl⟩

/-- The state at the entry of the loop. -/
theorem prepare_counts {E : EGOEnv K} {names : List Str} {o : Bool} {T : Mat K} {s0 s1 : EGOState K}
    {r : Res Unit} (h0 : fresh E.setup.problem names = .ok s0)
    (h : Step.then (checkStep E o) (initStep E T) s0 = (s1, r)) :
    s1.iteration = 0 ∧ s1.calls = [] ∧ s1.evaluations = 0 ∧ s1.trained = [] ∧ s1.samples = [] := by
  obtain ⟨a1, a2, a3, a4, a5⟩ := fresh_counts h0
  have hk : Keeps (fun s : EGOState K => (s.iteration, s.calls, s.evaluations, s.trained, s.samples))
      (Step.then (checkStep E o) (initStep E T)) :=
    Keeps.then (checkStep_keeps _ (fun _ _ _ => rfl) E o) (initStep_keeps E T)
  have := hk.eq h
  simp only [Prod.mk.injEq] at this
  obtain ⟨b1, b2, b3, b4, b5⟩ := this
  exact ⟨b1.trans a1, b2.trans a2, b3.trans a3, b4.trans a4, b5.trans a5⟩

theorem then_assoc (f g h : Step K) : Step.then f (Step.then g h) = Step.then (Step.then f g) h := by
  funext s
  rcases then_cases f g s with ⟨s1, h1, h2⟩ | ⟨s1, e, h1, h2⟩
  · rw [then_ok h1]
    rcases h3 : g s1 with ⟨s2, r⟩
    rw [h3] at h2
    cases r with
    | ok u => rw [then_ok h3, then_ok h2]
    | error e => rw [then_error h3, then_error h2]
  · rw [then_error h1, then_error h2]

theorem perform_eq (E : EGOEnv K) (o : Bool) (T : Mat K) (n : Nat) :
    perform E o T n = Step.then (Step.then (checkStep E o) (initStep E T)) (loop E n) :=
  then_assoc _ _ _

theorem checkStep_ok_max {E : EGOEnv K} {o : Bool} {s s' : EGOState K} (h : checkStep E o s = (s', .ok ())) :
    E.maxSamples ≠ 0 := by
  intro h0
  unfold checkStep Step.ofRes at h
  simp only [h0, if_true] at h
  split_ifs at h <;> cases h

end round
end EGO

open EGO Step

section round
variable [FloorRing K]

/-! ## C22: the number of simulations -/

/-- **C22.** A new optimizer with any environment (simulations, surrogates, random numbers): if the
optimization returns, the objective was simulated exactly as often as the maximum number of samples says, the
counter agrees, and the history has exactly as many rows more than before the loop. -/
theorem C22_returned {E : EGOEnv K} {names : List Str} {o : Bool} {T : Mat K} {n : Nat} {s0 s' : EGOState K}
    (h0 : fresh E.setup.problem names = .ok s0) (h : perform E o T n s0 = (s', .ok ())) :
    s'.calls.length = E.maxSamples ∧ s'.evaluations = E.maxSamples ∧
    ∃ s1, Step.then (checkStep E o) (initStep E T) s0 = (s1, .ok ()) ∧
      s'.history.data.nrows = s1.history.data.nrows + E.maxSamples := by
  rw [perform_eq] at h
  obtain ⟨s1, h1, h2⟩ := then_ok_inv h
  obtain ⟨a1, a2, a3, -, -⟩ := prepare_counts h0 h1
  obtain ⟨s2, c1, -⟩ := then_ok_inv h1
  have hM := checkStep_ok_max c1
  obtain ⟨-, -, b2, b3, ⟨xs, b4, b5, -⟩, -, b7⟩ := loop_ok n h2
  have hi : s'.iteration - s1.iteration = E.maxSamples := by rw [b2, a1]; omega
  refine ⟨?_, ?_, s1, h1, ?_⟩
  · rw [b4, a2, List.nil_append, b5, hi]
  · rw [b3, a3, hi]; omega
  · rw [b7, hi]

/-- C22 when something throws: there are never more simulations. -/
theorem C22_never_more {E : EGOEnv K} {names : List Str} {s0 : EGOState K}
    (h0 : fresh E.setup.problem names = .ok s0) (o : Bool) (T : Mat K) (n : Nat) :
    (perform E o T n s0).1.calls.length ≤ E.maxSamples := by
  rw [perform_eq]
  rcases then_cases (Step.then (checkStep E o) (initStep E T)) (loop E n) s0 with
    ⟨s1, h1, h2⟩ | ⟨s1, e, h1, h2⟩
  · obtain ⟨a1, a2, -⟩ := prepare_counts h0 h1
    obtain ⟨s2, c1, -⟩ := then_ok_inv h1
    have hM := checkStep_ok_max c1
    rw [h2]
    have := loop_any E n s1
    rw [a1, a2, List.length_nil] at this
    omega
  · obtain ⟨a1, a2, -⟩ := prepare_counts h0 h1
    rw [h2]
    simp [a2]

/-- C22, "then stops": after that many rounds the loop has ended, however many more it is given. -/
theorem C22_stops {E : EGOEnv K} {names : List Str} {s0 : EGOState K}
    (h0 : fresh E.setup.problem names = .ok s0) (o : Bool) (T : Mat K) (n : Nat) (hn : E.maxSamples ≤ n) :
    perform E o T n s0 = perform E o T E.maxSamples s0 := by
  rw [perform_eq, perform_eq]
  rcases h1 : Step.then (checkStep E o) (initStep E T) s0 with ⟨s1, r⟩
  cases r with
  | error e => rw [then_error h1, then_error h1]
  | ok u =>
    rw [then_ok h1, then_ok h1]
    obtain ⟨a1, -⟩ := prepare_counts h0 h1
    obtain ⟨s2, c1, -⟩ := then_ok_inv h1
    have hM := checkStep_ok_max c1
    have hmax : max 1 (E.maxSamples - s1.iteration) = E.maxSamples := by omega
    have e1 := loop_fuel E n s1 (by omega)
    rw [hmax] at e1
    exact e1

/-- C22, the excluded value: with 0 samples the optimizer refuses before anything happens. -/
theorem C22_zero (E : EGOEnv K) (T : Mat K) (n : Nat) (s : EGOState K) (hb : E.setup.problem.boxSet = true)
    (hM : E.maxSamples = 0) : perform E true T n s = (s, .error .runtimeError) := by
  unfold perform
  rw [then_error (s1 := s) (e := .runtimeError)]
  unfold checkStep Step.ofRes
  simp [hb, hM]

/-- What a whole run is to leave behind: `ds` are the designs simulated, `G` the initial samples. -/
structure Spec.Completed (E : EGOEnv K) (N : Nat) (G : Nat → Nat → K) (s' : EGOState K)
    (ds : List (Design K)) : Prop where
  count : ds.length = E.maxSamples
  calls : s'.calls = ds.map (fun d => d.params)
  evaluations : s'.evaluations = E.maxSamples
  simulated : ∀ (i : Nat) d, ds[i]? = some d → Simulated E (i + 1) d
  samples : s'.samples = ds.flatMap (newSamples E)
  /-- the history: the initial samples, then the simulated designs -/
  history : ∃ F, IsMat s'.history.data (N + E.maxSamples)
      (E.setup.problem.dimension + 1 + E.setup.problem.constraints.length + 2) F ∧
    (∀ i j, i < N → j ≤ E.setup.problem.dimension → F i j = G i j) ∧
    (∀ (i : Nat) d, ds[i]? = some d → ∀ j, F (N + i) j =
      (historyRow d E.setup.problem.constraints.length).getD j 0) ∧
    /- the reported optimum -/
    ((∀ i, i < N + E.maxSamples → FeasibleRow F
        (E.setup.problem.dimension + 1 + E.setup.problem.constraints.length + 2) i →
        F i E.setup.problem.dimension < dblMax) → ∃ k,
      IsOptimum F (N + E.maxSamples)
        (E.setup.problem.dimension + 1 + E.setup.problem.constraints.length + 2)
        E.setup.problem.dimension k s'.global.design.feasible ∧
      DescribesRow s'.global F
        (E.setup.problem.dimension + 1 + E.setup.problem.constraints.length + 2) k)

/-- The run of a new optimizer on a well-posed problem, with all that is known about it. -/
theorem run_total {E : EGOEnv K} {names : List Str} (hW : WellPosed E names) (hE : Responds E)
    (hk : E.howOften ≠ 0) (hM : E.maxSamples ≠ 0) {T : Mat K} {N mT : Nat} {G : Nat → Nat → K}
    (hT : IsMat T N mT G) (hN : N ≠ 0) (hmT : E.setup.problem.dimension < mT) :
    ∃ s0 s1 s' F ds, fresh E.setup.problem names = .ok s0 ∧
      Step.then (checkStep E true) (initStep E T) s0 = (s1, .ok ()) ∧
      perform E true T E.maxSamples s0 = (s', .ok ()) ∧ ds.length = E.maxSamples ∧
      Ready E s1 N F ∧ Problem.Filled E.setup.problem N G F ∧
      s1.iteration = 0 ∧ s1.calls = [] ∧ s1.samples = [] ∧ s1.sigma = .fin 1 ∧ s1.sigmaMultiplier = 1 ∧
      s1.history.numberOfDoESamples = N ∧ s1.tr = TrustRegion.start E.setup.problem.dimension ∧
      (E.variableSigma = true → s1.crowdingCoefficient = reportedCrowding N E.setup.problem.dimension F) ∧
      Ran E s1 s' N F ds := by
  obtain ⟨s0, s1, F, e0, e1, hr, hF, i1, -, -, i4, i5, i6, i7, i8, i9, i10, -, -⟩ :=
    init_ok hW hE hM hT hN hmT
  obtain ⟨m, hm⟩ : ∃ m, E.maxSamples = m + 1 := ⟨E.maxSamples - 1, by omega⟩
  obtain ⟨s', ds, e2, hl, r⟩ := loop_total hW hE hk m s1 N F hr (by rw [i1]; omega)
  refine ⟨s0, s1, s', F, ds, e0, e1, ?_, by omega, hr, hF, i1, i4, i5, i6, i7, i8, i9, i10, r⟩
  rw [perform_eq, then_ok e1, hm]
  exact e2

/-- **C22** for a well-posed problem when nothing outside throws: the optimization returns, after exactly as
many simulations as configured, all of them of designs of the box; every one is recorded once in the history,
in the order of the simulations and below the initial samples, and handed over once to the training data; the
reported optimum is an optimal row of the history. -/
theorem C22_run {E : EGOEnv K} {names : List Str} (hW : WellPosed E names) (hE : Responds E)
    (hk : E.howOften ≠ 0) (hM : E.maxSamples ≠ 0) {T : Mat K} {N mT : Nat} {G : Nat → Nat → K}
    (hT : IsMat T N mT G) (hN : N ≠ 0) (hmT : E.setup.problem.dimension < mT) :
    ∃ s0 s' ds, fresh E.setup.problem names = .ok s0 ∧
      perform E true T E.maxSamples s0 = (s', .ok ()) ∧ Spec.Completed E N G s' ds := by
  obtain ⟨s0, s1, s', F, ds, e0, -, e2, hl, -, hF, i1, i2, i3, -, -, -, -, -, r⟩ :=
    run_total hW hE hk hM hT hN hmT
  refine ⟨s0, s', ds, e0, e2, ⟨hl, ?_, (C22_returned e0 e2).2.1, ?_, ?_, ?_⟩⟩
  · rw [r.calls, i2, List.nil_append]
  · intro i d hd
    have := r.simulated i d hd
    rw [i1] at this
    simpa using this
  · rw [r.samples, i3, List.nil_append]
  · have hmat := r.ready.mat
    rw [hl] at hmat
    refine ⟨_, hmat, ?_, ?_, ?_⟩
    · intro i j hi hj
      unfold appendRows
      rw [if_pos hi]
      exact hF.1 i j hi hj
    · intro i d hd j
      unfold appendRows
      rw [if_neg (by omega), Nat.add_sub_cancel_left]
      simp [List.getD, hd]
    · intro hv
      obtain ⟨g, g1, g2, g3, g4, g5, g6⟩ := r.global
      obtain ⟨g', k, e, -, f2, f3, f4, f5⟩ := C28_partial (g := g) hmat (by omega) (by rw [g1, g2]) g3
        (by rw [g1, g4, g5]; exact hW.box) (by rw [g1]; exact hv)
      rw [g6] at e
      cases e
      rw [g1] at f4
      exact ⟨k, f4, f5⟩

/-! ## C23: retraining -/

/-- **C23** as stated: a run that returns has trained the surrogates exactly in the iterations
`1, k + 1, 2 k + 1, …` (in this order), for every `k ≥ 1`; and the value 0 is refused with an exception. -/
def C23_full (K : Type) [Field K] [LinearOrder K] [IsStrictOrderedRing K] [FloorRing K] : Prop :=
  (∀ (E : EGOEnv K) (names : List Str) (o : Bool) (T : Mat K) (n : Nat) (s0 s' : EGOState K),
    1 ≤ E.howOften → fresh E.setup.problem names = .ok s0 → perform E o T n s0 = (s', .ok ()) →
    s'.trained.Pairwise (· < ·) ∧
    ∀ i, i ∈ s'.trained ↔ i ≤ E.maxSamples ∧ ∃ j, i = j * E.howOften + 1) ∧
  (∀ (E : EGOEnv K) (names : List Str) (o : Bool) (T : Mat K) (n : Nat) (s0 s' : EGOState K) (r : Res Unit),
    E.howOften = 0 → fresh E.setup.problem names = .ok s0 → perform E o T n s0 = (s', r) → r ≠ .error .ub)

/-- The iterations of training of a run that returned. -/
theorem trained_eq {E : EGOEnv K} {names : List Str} {o : Bool} {T : Mat K} {n : Nat} {s0 s' : EGOState K}
    (h0 : fresh E.setup.problem names = .ok s0) (h : perform E o T n s0 = (s', .ok ())) :
    s'.trained = (List.range' 1 E.maxSamples).filter (fun i => i % E.howOften = 1) := by
  rw [perform_eq] at h
  obtain ⟨s1, h1, h2⟩ := then_ok_inv h
  obtain ⟨a1, -, -, a4, -⟩ := prepare_counts h0 h1
  obtain ⟨s2, c1, -⟩ := then_ok_inv h1
  have hM := checkStep_ok_max c1
  obtain ⟨-, -, b2, -, -, b6, -⟩ := loop_ok n h2
  have hi : s'.iteration - s1.iteration = E.maxSamples := by rw [b2, a1]; omega
  rw [b6, a4, hi, a1, List.nil_append]
  generalize List.range' (0 + 1) E.maxSamples = l
  induction l with
  | nil => rfl
  | cons x l ih =>
    rw [List.flatMap_cons, ih, List.filter_cons]
    unfold trainedAt
    by_cases hx : x % E.howOften = 1
    · simp [hx]
    · simp [hx]

/-- C23 for `k ≥ 2`, for every environment.  Missing: `k = 1`, where the surrogates are never trained
(`C23_one_never_trains`), and `k = 0`, which is not refused (`C23_zero_undefined`). -/
theorem C23_partial {E : EGOEnv K} {names : List Str} {o : Bool} {T : Mat K} {n : Nat} {s0 s' : EGOState K}
    (hk : 2 ≤ E.howOften) (h0 : fresh E.setup.problem names = .ok s0)
    (h : perform E o T n s0 = (s', .ok ())) :
    s'.trained.Pairwise (· < ·) ∧
    ∀ i, i ∈ s'.trained ↔ i ≤ E.maxSamples ∧ ∃ j, i = j * E.howOften + 1 := by
  rw [trained_eq h0 h]
  constructor
  · exact List.Pairwise.filter _ (List.pairwise_lt_range' (s := 1) (n := E.maxSamples))
  · intro i
    rw [List.mem_filter, List.mem_range'_1, decide_eq_true_eq]
    constructor
    · rintro ⟨⟨h1, h2⟩, h3⟩
      refine ⟨by omega, i / E.howOften, ?_⟩
      have := Nat.div_add_mod i E.howOften
      rw [h3, Nat.mul_comm] at this
      exact this.symm
    · rintro ⟨h1, j, rfl⟩
      refine ⟨⟨by omega, by omega⟩, ?_⟩
      rw [Nat.mul_comm, Nat.mul_add_mod]
      exact Nat.mod_eq_of_lt (by omega)

/-- With `k = 1` no run that returns has ever trained the surrogates. -/
theorem C23_one_never_trains {E : EGOEnv K} {names : List Str} {o : Bool} {T : Mat K} {n : Nat}
    {s0 s' : EGOState K} (hk : E.howOften = 1) (h0 : fresh E.setup.problem names = .ok s0)
    (h : perform E o T n s0 = (s', .ok ())) : s'.trained = [] := by
  rw [trained_eq h0 h, hk]
  simp [Nat.mod_one]

/-- With `k = 0` every run that reaches the loop divides by zero, which is undefined. -/
theorem C23_zero_undefined {E : EGOEnv K} {o : Bool} {T : Mat K} {n : Nat} {s0 s1 : EGOState K}
    (hk : E.howOften = 0) (h : Step.then (checkStep E o) (initStep E T) s0 = (s1, .ok ())) :
    (perform E o T (n + 1) s0).2 = .error .ub := by
  rw [perform_eq, then_ok h]
  have e : iterate E s1 = ({ s1 with iteration := s1.iteration + 1 }, .error .ub) := by
    unfold iterate
    apply then_error
    unfold beforeRecording
    rw [then_ok (f := countStep) rfl]
    apply then_error
    unfold trainStep
    rw [if_pos hk]
  unfold loop
  rw [then_error e]

/-! ## C34: the exploration factor -/

/-- **C34** as stated: the factor is a number between the limits, for every non-negative crowding
coefficient and crowding factor, every multiplier of at least 1 and every draw between 2 and 3. -/
def C34_full (K : Type) [Field K] [LinearOrder K] [IsStrictOrderedRing K] : Prop :=
  ∀ (coefficient crowding multiplier : K) (draw : Int × K) (lo hi : K), 0 ≤ coefficient → 0 ≤ crowding →
    1 ≤ multiplier → 2 ≤ draw.2 → draw.2 ≤ 3 → lo ≤ hi →
    ∃ x, sigmaFactorOf coefficient crowding multiplier draw lo hi = .fin x ∧ lo ≤ x ∧ x ≤ hi

omit [FloorRing K] in
theorem clamp_ok (s : Ext K) (hs : s ≠ .nan) {lo hi : K} (h : lo ≤ hi) :
    ∃ x, (let t := if s.lt lo then .fin lo else s; if t.gt hi then .fin hi else t) = Ext.fin x ∧
      lo ≤ x ∧ x ≤ hi := by
  cases s with
  | nan => exact absurd rfl hs
  | pinf => exact ⟨hi, by simp [Ext.lt, Ext.gt], h, le_refl _⟩
  | ninf =>
    refine ⟨lo, ?_, le_refl _, h⟩
    simp [Ext.lt, Ext.gt, h]
  | fin x =>
    by_cases h1 : x < lo
    · refine ⟨lo, ?_, le_refl _, h⟩
      simp [Ext.lt, Ext.gt, h1, h]
    · by_cases h2 : hi < x
      · refine ⟨hi, ?_, h, le_refl _⟩
        simp [Ext.lt, Ext.gt, h1, h2]
      · refine ⟨x, ?_, not_lt.1 h1, not_lt.1 h2⟩
        simp [Ext.lt, Ext.gt, h1, h2]

omit [FloorRing K] in
theorem scale_ne_nan {m : K} (hm : m ≠ 0) {s : Ext K} (hs : s ≠ .nan) : Ext.scale m s ≠ .nan := by
  rcases lt_or_gt_of_ne hm with h | h
  · have h' : ¬ 0 < m := not_lt.2 h.le
    cases s with
    | nan => exact absurd rfl hs
    | fin x => simp [Ext.scale]
    | pinf => simp only [Ext.scale, gt_iff_lt, if_neg h', if_pos h]; simp
    | ninf => simp only [Ext.scale, gt_iff_lt, if_neg h', if_pos h]; simp
  · cases s <;> simp_all [Ext.scale]

omit [FloorRing K] in
/-- C34 for every coefficient, crowding factor, multiplier and draw, unless the coefficient and the crowding
factor both vanish.  Missing: that case, where the factor is NaN (`C34_zero_nan`). -/
theorem C34_partial {coefficient crowding multiplier : K} {draw : Int × K} {lo hi : K}
    (hc : coefficient ≠ 0 ∨ crowding ≠ 0) (hm : multiplier ≠ 0) (hd : draw.2 ≠ 0) (h : lo ≤ hi) :
    ∃ x, sigmaFactorOf coefficient crowding multiplier draw lo hi = .fin x ∧ lo ≤ x ∧ x ≤ hi := by
  have h1 : Ext.div coefficient crowding ≠ .nan := by
    unfold Ext.div
    by_cases h0 : crowding = 0
    · have hne : coefficient ≠ 0 := hc.resolve_right (fun h => h h0)
      rw [if_neg (by simpa using h0)]
      rcases lt_or_gt_of_ne hne with h | h
      · rw [if_neg (not_lt.2 h.le), if_pos h]; simp
      · rw [if_pos h]; simp
    · rw [if_pos h0]; simp
  have h2 := scale_ne_nan hm h1
  unfold sigmaFactorOf
  dsimp only
  by_cases h5 : draw.1 % 5 = 0
  · rw [if_pos h5]
    exact clamp_ok _ (scale_ne_nan hd h2) h
  · rw [if_neg h5]
    exact clamp_ok _ h2 h

omit [FloorRing K] in
/-- A vanishing coefficient and a vanishing crowding factor always give NaN: both comparisons with the limits
are false. -/
theorem C34_zero_nan (multiplier : K) (draw : Int × K) (lo hi : K) :
    sigmaFactorOf 0 0 multiplier draw lo hi = .nan := by
  unfold sigmaFactorOf Ext.div
  by_cases h : draw.1 % 5 = 0 <;> simp [h, Ext.scale, Ext.lt, Ext.gt]

theorem C34_false : ¬ C34_full ℚ := by
  intro h
  obtain ⟨x, h1, -⟩ := h 0 0 1 (1, 2) 1 100 (by norm_num) (by norm_num) (by norm_num) (by norm_num)
    (by norm_num) (by norm_num)
  rw [C34_zero_nan] at h1
  cases h1

/-- C34 for whole runs: with at least two different initial designs the exploration factor after any number of
iterations is a number between 1 and 100. -/
theorem C34_run {E : EGOEnv K} {names : List Str} (hW : WellPosed E names) (hE : Responds E)
    (hk : E.howOften ≠ 0) (hM : E.maxSamples ≠ 0) {T : Mat K} {N mT : Nat} {G : Nat → Nat → K}
    (hT : IsMat T N mT G) (hN : N ≠ 0) (hmT : E.setup.problem.dimension < mT)
    (hdraw : ∀ n, 2 ≤ (E.sigmaDraw n).2)
    (hdiff : 0 < reportedCrowding N E.setup.problem.dimension G) :
    ∃ s0 s' x, fresh E.setup.problem names = .ok s0 ∧
      perform E true T E.maxSamples s0 = (s', .ok ()) ∧ s'.sigma = .fin x ∧ 1 ≤ x ∧ x ≤ 100 := by
  obtain ⟨s0, s1, s', F, ds, e0, -, e2, -, -, hF, -, -, -, i4, i5, -, -, i8, r⟩ :=
    run_total hW hE hk hM hT hN hmT
  by_cases hv : E.variableSigma = true
  · obtain ⟨D, m, n, hm, hs⟩ := (r.sigma.1 (by rw [i5])).2 hv
    have hc : s1.crowdingCoefficient ≠ 0 := by
      rw [i8 hv, reportedCrowding_congr (G := G) (fun i j hi hj => hF.1 i j hi hj.le)]
      exact hdiff.ne'
    obtain ⟨x, h1, h2, h3⟩ := C34_partial (lo := (1 : K)) (hi := 100) (multiplier := m)
      (crowding := reportedCrowding s1.history.numberOfDoESamples E.setup.problem.dimension D)
      (draw := E.sigmaDraw n) (Or.inl hc) (by rintro rfl; linarith)
      (by have := hdraw n; intro h; linarith) (by norm_num)
    exact ⟨s0, s', x, e0, e2, hs.trans h1, h2, h3⟩
  · refine ⟨s0, s', 1, e0, e2, ?_, le_refl _, by norm_num⟩
    rw [r.sigma.2 (by simpa using hv), i4]

/-- With a single initial design the exploration factor of the variable strategy is NaN after the first
iteration, and stays so. -/
theorem C34_single_sample {E : EGOEnv K} {names : List Str} (hW : WellPosed E names) (hE : Responds E)
    (hk : E.howOften ≠ 0) (hM : E.maxSamples ≠ 0) {T : Mat K} {mT : Nat} {G : Nat → Nat → K}
    (hT : IsMat T 1 mT G) (hmT : E.setup.problem.dimension < mT) (hv : E.variableSigma = true) :
    ∃ s0 s', fresh E.setup.problem names = .ok s0 ∧
      perform E true T E.maxSamples s0 = (s', .ok ()) ∧ s'.sigma = .nan := by
  obtain ⟨s0, s1, s', F, ds, e0, -, e2, -, -, hF, -, -, -, i4, i5, i6, -, i8, r⟩ :=
    run_total hW hE hk hM hT (by norm_num) hmT
  obtain ⟨D, m, n, hm, hs⟩ := (r.sigma.1 (by rw [i5])).2 hv
  have h1 : ∀ D : Nat → Nat → K, reportedCrowding 1 E.setup.problem.dimension D = 0 := by
    intro D; simp [reportedCrowding]
  rw [i6, i8 hv, h1, h1, C34_zero_nan] at hs
  exact ⟨s0, s', e0, e2, hs⟩

/-! ## C60: no NaN is recorded -/

/-- The numbers recorded for a design in the history and in the training data. -/
def Spec.recordedNumbers {α : Type} (d : Design α) : List α :=
  d.params ++ [d.trueValue, d.improvement] ++ d.constraintTrueValues

/-- The numbers that come from the simulations. -/
def Spec.simulatedNumbers {α : Type} (d : Design α) : List α := d.trueValue :: d.constraintTrueValues

/-- **C60** as stated: every design with a NaN among the recorded numbers is detected. -/
def C60_full (K : Type) [Field K] : Prop :=
  ∀ (isNan : Ext K → Bool) (d : Design (Ext K)), (∀ x, isNan x = true ↔ x = .nan) →
    (∃ x ∈ Spec.recordedNumbers d, x = .nan) → d.checkIfHasNan isNan = true

/-- C60 fails for the parameters of the design, and for the improvement value. -/
theorem C60_false : ¬ C60_full ℚ := by
  intro h
  have z : Ext ℚ := .fin 0
  let d : Design (Ext ℚ) :=
    { dimension := 1, numberOfConstraints := 0, params := [.nan], paramsNormalized := [],
      constraintTrueValues := [], gradient := [], gradientLowFi := [], tangentDirection := [],
      trueValue := .fin 0, trueValueLowFi := .fin 0, tangentValue := .fin 0, tangentValueLowFi := .fin 0,
      improvement := .fin 0, constraintGradients := [], gradientsMatrix := ⟨0, 0, []⟩,
      gradientsMatrixLowFi := ⟨0, 0, []⟩, directionsMatrix := ⟨0, 0, []⟩,
      directionsMatrixLowFi := ⟨0, 0, []⟩, constraintTangent := [], constraintTangentLowFi := [],
      constraintTrueValuesLowFi := [], id := 0, feasible := true }
  have := h (fun x => decide (x = .nan)) d (by simp) ⟨.nan, by simp [Spec.recordedNumbers, d], rfl⟩
  revert this
  decide

omit [FloorRing K] in
/-- C60 for the values of the simulations: a design with a NaN objective or constraint value, or a NaN in a
gradient, is detected, and no other.  Missing: the parameters and the improvement value (`C60_false`). -/
theorem C60_partial {α : Type} (isNan : α → Bool) (d : Design α) :
    d.checkIfHasNan isNan = true ↔
      (∃ x ∈ Spec.simulatedNumbers d, isNan x = true) ∨ (∃ x ∈ d.gradient, isNan x = true) ∨
      ∃ g ∈ d.constraintGradients, ∃ x ∈ g, isNan x = true := by
  unfold Design.checkIfHasNan Spec.simulatedNumbers
  simp only [Bool.or_eq_true, List.any_eq_true, List.mem_cons, exists_eq_or_imp]
  constructor
  · rintro (((h | h) | h) | h)
    · exact Or.inl (Or.inl h)
    · exact Or.inr (Or.inl h)
    · exact Or.inl (Or.inr h)
    · exact Or.inr (Or.inr h)
  · rintro ((h | h) | h | h)
    · exact Or.inl (Or.inl (Or.inl h))
    · exact Or.inl (Or.inr h)
    · exact Or.inl (Or.inl (Or.inr h))
    · exact Or.inr h

namespace EGO

/-- What is recorded, with the reported optimum. -/
def records (s : EGOState K) : List (Option Nat × List K) × History K × GlobalDesign K :=
  (s.samples, s.history, s.global)

omit [FloorRing K] in
theorem trainStep_records (E : EGOEnv K) : Keeps records (trainStep E) := by
  intro s
  unfold trainStep
  split_ifs <;> rfl

omit [FloorRing K] in
theorem evaluateStep_records (E : EGOEnv K) : Keeps records (evaluateStep E) := by
  intro s
  unfold evaluateStep
  split_ifs
  · rfl
  · dsimp only
    cases E.objective s.iteration s.current.params <;> rfl

omit [FloorRing K] in
theorem constraintStep_records (E : EGOEnv K) : Keeps records (constraintStep E) := by
  refine Keeps.ofRes ?_
  intro s s' h
  split_ifs at h
  · obtain ⟨d, -, h⟩ := bind_ok_inv h
    obtain ⟨b, -, h⟩ := bind_ok_inv h
    cases h
    rfl
  · cases h; rfl

theorem beforeRecording_records (E : EGOEnv K) : Keeps records (beforeRecording E) := by
  unfold beforeRecording
  refine Keeps.then (fun _ => rfl) (Keeps.then (trainStep_records E) (Keeps.then ?_
    (Keeps.then (evaluateStep_records E) (Keeps.then (constraintStep_records E)
      (Keeps.then (fun _ => rfl) (fun _ => rfl))))))
  refine Keeps.ofRes ?_
  intro s s' h
  obtain ⟨r, -, h⟩ := bind_ok_inv h
  cases h
  rfl

omit [FloorRing K] in
theorem constraintData_current (E : EGOEnv K) (c : Constraint K) :
    Keeps (fun s => s.current) (constraintData E c) := by
  intro s
  unfold constraintData
  cases c.source with
  | user f => rfl
  | data A =>
    dsimp only
    split_ifs
    · rfl
    · cases s.current.sampleConstraint c.id.toNat <;> rfl

omit [FloorRing K] in
theorem constraintDataStep_current (E : EGOEnv K) (cs : List (Constraint K)) :
    Keeps (fun s => s.current) (constraintDataStep E cs) := by
  induction cs with
  | nil => exact fun _ => rfl
  | cons c cs ih => exact (constraintData_current E c).then ih

theorem recording_current (E : EGOEnv K) : Keeps (fun s => s.current) (recording E) := by
  unfold recording
  refine Keeps.then ?_ (Keeps.then (constraintDataStep_current E _) (Keeps.then (fun _ => rfl)
    (Keeps.then ?_ (Keeps.then ?_ ?_))))
  · intro s
    unfold dataStep
    cases s.current.sampleObjective <;> rfl
  · intro s
    unfold successStep
    dsimp only
    split_ifs <;> rfl
  · refine Keeps.ofRes ?_
    intro s s' h
    split_ifs at h
    · obtain ⟨h1, -, h⟩ := bind_ok_inv h
      cases h
      rfl
    · cases h; rfl
  · refine Keeps.ofRes ?_
    intro s s' h
    split_ifs at h
    obtain ⟨g, -, h⟩ := bind_ok_inv h
    cases h
    rfl

end EGO

/-- C60 in the loop, for every environment and every state: if an iteration leaves a design with a NaN among
the simulated values, it has thrown, and the history, its file, the training data and the reported optimum are
those before the iteration. -/
theorem C60_iterate (E : EGOEnv K) (s : EGOState K)
    (h : ∃ x ∈ Spec.simulatedNumbers (iterate E s).1.current, E.isNan x = true) :
    (∃ e, (iterate E s).2 = .error e) ∧ (iterate E s).1.samples = s.samples ∧
    (iterate E s).1.history = s.history ∧ (iterate E s).1.global = s.global := by
  rcases then_cases (beforeRecording E) (recording E) s with ⟨s1, h1, h2⟩ | ⟨s1, e, h1, h2⟩
  · exfalso
    obtain ⟨a1, -, g1⟩ := then_ok_inv h1
    obtain ⟨a2, -, g2⟩ := then_ok_inv g1
    obtain ⟨a3, -, g3⟩ := then_ok_inv g2
    obtain ⟨a4, -, g4⟩ := then_ok_inv g3
    obtain ⟨a5, -, g5⟩ := then_ok_inv g4
    obtain ⟨a6, -, g6⟩ := then_ok_inv g5
    have hcur : (iterate E s).1.current = s1.current := by
      show (Step.then (beforeRecording E) (recording E) s).1.current = _
      rw [h2]; exact recording_current E s1
    rw [hcur] at h
    have hn := (C60_partial E.isNan s1.current).2 (Or.inl h)
    unfold nanStep at g6
    obtain ⟨rfl, g7⟩ := Prod.mk.inj g6
    rw [hn] at g7
    cases g7
  · have hr := (beforeRecording_records E).eq h1
    have he : iterate E s = (s1, .error e) := h2
    rw [he]
    simp only [records, Prod.mk.injEq] at hr
    exact ⟨⟨e, rfl⟩, hr.1, hr.2.1, hr.2.2⟩

/-- C60 for the loop: it ends with an exception in the first iteration whose simulated values contain a NaN,
and what it leaves behind is what was there before this iteration. -/
theorem C60_loop (E : EGOEnv K) (s : EGOState K) (n : Nat)
    (h : ∃ x ∈ Spec.simulatedNumbers (iterate E s).1.current, E.isNan x = true) :
    ∃ s' e, loop E (n + 1) s = (s', .error e) ∧ s'.samples = s.samples ∧ s'.history = s.history ∧
      s'.global = s.global := by
  obtain ⟨⟨e, he⟩, h1, h2, h3⟩ := C60_iterate E s h
  refine ⟨(iterate E s).1, e, ?_, h1, h2, h3⟩
  unfold loop
  rw [then_error (s1 := (iterate E s).1) (e := e) (Prod.ext rfl he)]

/-! ## A concrete problem -/

namespace EGODemo

/-- Minimize `x²` over `[0, 1]`, with the constraint `x < 3/4`, maximum number of samples `M`. -/
def env (M k : Nat) (variableSigma : Bool) : EGOEnv ℚ where
  setup := ⟨⟨1, [0], [1], true, [⟨0, ['<'], 3 / 4, .user (fun x => x.headD 0)⟩]⟩, [], [], 2, 1⟩
  maxSamples := M
  howOften := k
  variableSigma := variableSigma
  constraintNames := [['c']]
  objective := fun _ x => .ok (x.headD 0 ^ 2)
  constraint := fun _ _ _ => .ok 0
  isNan := fun _ => false
  initSurrogates := .ok ()
  train := fun _ => .ok ()
  surrogate := fun n => ⟨fun x => if n = 1 then 2 - x.headD 0 else 2 + x.headD 0, fun _ => 1⟩
  search := fun _ => ⟨fun i _ => if i = 0 then 3 / 4 else 1 / 4, fun _ _ => 1 / 2, ⟨2, id, [0, 1, 0, 1]⟩,
    ⟨1, fun _ => 0, [0, 0]⟩⟩
  addSample := fun _ _ _ => .ok ()
  sigmaDraw := fun n => (n, 2)
  fuel := 27

theorem wellPosed (M k : Nat) (v : Bool) : WellPosed (env M k v) [] where
  boxSet := rfl
  box := by
    refine ⟨Nat.one_pos, rfl, rfl, ?_⟩
    intro i l u hl hu
    match i with
    | 0 => simp [env] at hl hu; subst hl hu; norm_num
    | i + 1 => simp [env] at hl
  discrete := ⟨rfl, rfl, rfl, by simp [SearchSetup.discrete, env], by simp [SearchSetup.discrete, env]⟩
  few := by simp [FewValues, SearchSetup.discrete, env]
  constraints := by
    intro i c hc
    match i with
    | 0 =>
      simp [env] at hc
      subst hc
      exact ⟨⟨Or.inl rfl, by norm_num, by norm_num, trivial⟩, rfl⟩
    | i + 1 => simp [env] at hc
  constraintNames := ⟨rfl, by simp [env], by simp [env]⟩
  names := Or.inl rfl

theorem responds (M k : Nat) (v : Bool) : Responds (env M k v) where
  objective := fun n x => ⟨_, rfl, rfl⟩
  constraint := fun n i x => ⟨0, rfl, rfl⟩
  user := fun _ _ _ _ _ => rfl
  zero := rfl
  init := rfl
  train := fun _ => rfl
  addSample := fun _ _ _ => rfl
  complete := by
    intro n i j
    simp only [env]
    split_ifs <;> norm_num
  around := by
    intro n i j
    simp only [env]
    norm_num
  fuel := le_refl _

/-- Two initial samples, one of them infeasible. -/
def T : Mat ℚ := ⟨2, 2, [1 / 2, 1, 1 / 4, 1]⟩

theorem isMatT : IsMat T 2 2 (fun i j => T.buf.getD (j * 2 + i) 0) := HistDemo.isMat 2 2 _ rfl

/-- A single initial sample. -/
def T1 : Mat ℚ := ⟨1, 2, [1 / 2, 1 / 4]⟩

theorem isMatT1 : IsMat T1 1 2 (fun i j => T1.buf.getD (j * 1 + i) 0) := HistDemo.isMat 1 2 _ rfl

/-- What can be seen of a run. -/
def run (E : EGOEnv ℚ) (T : Mat ℚ) : Option (EGOState ℚ × Res Unit) :=
  (fresh E.setup.problem []).toOption.map (fun s => perform E true T E.maxSamples s)

end EGODemo

open EGODemo

-- C22: a problem that meets the hypotheses, and its run with three simulations.
example : ∃ s0 s' ds, fresh (env 3 2 true).setup.problem [] = .ok s0 ∧
    perform (env 3 2 true) true T 3 s0 = (s', .ok ()) ∧
    Spec.Completed (env 3 2 true) 2 (fun i j => T.buf.getD (j * 2 + i) 0) s' ds :=
  C22_run (wellPosed 3 2 true) (responds 3 2 true) (by decide) (by decide) isMatT (by decide) (by decide)

example : (run (env 3 2 true) T).map (fun r => (r.1.calls, r.1.evaluations, r.2.toOption)) =
    some ([[249 / 1000], [251 / 1000], [251 / 1000]], 3, some ()) := by decide +kernel

example : (run (env 3 2 true) T).map (fun r => (r.1.history.data.nrows, r.1.history.data.ncols,
      r.1.global.design.params, r.1.global.design.feasible)) = some (5, 5, [249 / 1000], true) := by
  decide +kernel

example : (run (env 2 2 true) T).map (fun r => (r.1.samples, r.1.history.data.buf)) =
    some ([(none, [249 / 1000, 62001 / 1000000]), (none, [251 / 1000, 63001 / 1000000])],
      [1 / 2, 1, 249 / 1000, 251 / 1000, 1 / 4, 1, 62001 / 1000000, 63001 / 1000000,
       1 / 2, 1, 249 / 1000, 251 / 1000, 0, 0, 187999 / 1000000, 186999 / 1000000, 1, 0, 1, 1]) := by
  decide +kernel

-- C22: with 0 samples the run is refused.
example : (run (env 0 2 true) T).map (fun r => (r.1.calls, r.2.toOption)) = some ([], none) := by
  decide +kernel

-- C23: with `k = 2` and five iterations.
example : (run (env 5 2 true) T).map (fun r => r.1.trained) = some [1, 3, 5] := by decide +kernel

/-- C23 fails for `k = 1`: a run of two iterations without training. -/
theorem C23_false : ¬ C23_full ℚ := by
  rintro ⟨h, -⟩
  obtain ⟨s0, s', ds, e0, e1, -⟩ := C22_run (wellPosed 2 1 true) (responds 2 1 true) (by decide) (by decide)
    isMatT (by decide) (by decide)
  have h1 := (h (env 2 1 true) [] true T 2 s0 s' (le_refl _) e0 e1).2 1
  rw [C23_one_never_trains rfl e0 e1] at h1
  have := h1.2 ⟨by decide, 0, rfl⟩
  simp at this

-- C23 fails for `k = 0` too.
example : (run (env 2 0 true) T).map (fun r => r.2 = .error .ub) = some True := by
  obtain ⟨s0, s1, F, e0, e1, -⟩ := init_ok (wellPosed 2 0 true) (responds 2 0 true) (by decide) isMatT
    (by decide) (by decide)
  unfold run
  rw [e0]
  simp only [Except.toOption, Option.map_some, Option.some.injEq, eq_iff_iff, iff_true]
  exact C23_zero_undefined rfl e1

-- C34: the factor of a run, and of a run with a single initial sample.
example : (run (env 3 2 true) T).map (fun r => r.1.sigma) = some (.fin 100) := by decide +kernel

example : (run (env 2 2 true) T1).map (fun r => r.1.sigma) = some .nan := by decide +kernel

example : ∃ s0 s' x, fresh (env 3 2 true).setup.problem [] = .ok s0 ∧
    perform (env 3 2 true) true T 3 s0 = (s', .ok ()) ∧ s'.sigma = .fin x ∧ 1 ≤ x ∧ x ≤ 100 :=
  C34_run (wellPosed 3 2 true) (responds 3 2 true) (by decide) (by decide) isMatT (by decide) (by decide)
    (fun _ => le_refl _) (by
      have : reportedCrowding 2 (env 3 2 true).setup.problem.dimension
          (fun i j => T.buf.getD (j * 2 + i) (0 : ℚ)) = 1 / 2 := by decide +kernel
      rw [this]; norm_num)

example : sigmaFactorOf (3 : ℚ) 2 4 (1, 2) 1 100 = .fin 6 := by decide +kernel

-- C60: the second simulation delivers a NaN (here the number 63001/1000000 stands for it): one row is recorded.
example : (run { env 3 2 true with isNan := fun x => decide (x = 63001 / 1000000) } T).map
    (fun r => (r.1.calls.length, r.1.history.data.nrows, r.1.samples.length, r.2.toOption)) =
    some (2, 3, 1, none) := by decide +kernel

end round
end Rodeo
