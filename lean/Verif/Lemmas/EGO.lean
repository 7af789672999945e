import Verif.Model.EGO
import Verif.Props.AcqSearch
import Verif.Props.History
import Verif.Props.Design

/-! # The optimization loop, step by step -/

set_option linter.unusedSectionVars false

namespace Rodeo

open Text Spec

variable {K : Type} [Field K] [LinearOrder K] [IsStrictOrderedRing K]

/-! ## Steps in sequence -/

namespace Step

theorem then_ok {f g : Step K} {s s1 : EGOState K} (h : f s = (s1, .ok ())) :
    Step.then f g s = g s1 := by
  unfold Step.then
  rw [h]

theorem then_error {f g : Step K} {s s1 : EGOState K} {e : Err} (h : f s = (s1, .error e)) :
    Step.then f g s = (s1, .error e) := by
  unfold Step.then
  rw [h]

/-- The two ways a sequence can go. -/
theorem then_cases (f g : Step K) (s : EGOState K) :
    (∃ s1, f s = (s1, .ok ()) ∧ Step.then f g s = g s1) ∨
    ∃ s1 e, f s = (s1, .error e) ∧ Step.then f g s = (s1, .error e) := by
  rcases h : f s with ⟨s1, r⟩
  cases r with
  | error e => exact Or.inr ⟨s1, e, rfl, then_error h⟩
  | ok u => exact Or.inl ⟨s1, rfl, then_ok h⟩

theorem then_ok_inv {f g : Step K} {s s' : EGOState K} (h : Step.then f g s = (s', .ok ())) :
    ∃ s1, f s = (s1, .ok ()) ∧ g s1 = (s', .ok ()) := by
  rcases then_cases f g s with ⟨s1, h1, h2⟩ | ⟨s1, e, h1, h2⟩
  · exact ⟨s1, h1, h2 ▸ h⟩
  · rw [h2] at h; cases h

theorem ofRes_ok {f : EGOState K → Res (EGOState K)} {s s' : EGOState K} (h : f s = .ok s') :
    Step.ofRes f s = (s', .ok ()) := by
  unfold Step.ofRes
  rw [h]

theorem ofRes_cases (f : EGOState K → Res (EGOState K)) (s : EGOState K) :
    (∃ s', f s = .ok s' ∧ Step.ofRes f s = (s', .ok ())) ∨
    ∃ e, f s = .error e ∧ Step.ofRes f s = (s, .error e) := by
  unfold Step.ofRes
  cases f s with
  | ok s' => exact Or.inl ⟨s', rfl, rfl⟩
  | error e => exact Or.inr ⟨e, rfl, rfl⟩

/-- The step does not change `φ`, whatever the outcome. -/
def Keeps {α : Type} (φ : EGOState K → α) (f : Step K) : Prop := ∀ s, φ (f s).1 = φ s

theorem Keeps.then {α : Type} {φ : EGOState K → α} {f g : Step K} (hf : Keeps φ f) (hg : Keeps φ g) :
    Keeps φ (Step.then f g) := by
  intro s
  rcases then_cases f g s with ⟨s1, h1, h2⟩ | ⟨s1, e, h1, h2⟩
  · rw [h2, hg s1, ← hf s, h1]
  · rw [h2, ← hf s, h1]

theorem Keeps.eq {α : Type} {φ : EGOState K → α} {f : Step K} (hf : Keeps φ f) {s s' : EGOState K}
    {r : Res Unit} (h : f s = (s', r)) : φ s' = φ s := by
  have := hf s
  rw [h] at this
  exact this

theorem Keeps.comp {α β : Type} {φ : EGOState K → α} {f : Step K} (hf : Keeps φ f) (ψ : α → β) :
    Keeps (fun s => ψ (φ s)) f := fun s => congrArg ψ (hf s)

theorem Keeps.ofRes {α : Type} {φ : EGOState K → α} {f : EGOState K → Res (EGOState K)}
    (h : ∀ s s', f s = .ok s' → φ s' = φ s) : Keeps φ (Step.ofRes f) := by
  intro s
  rcases ofRes_cases f s with ⟨s', h1, h2⟩ | ⟨e, h1, h2⟩
  · rw [h2]; exact h s s' h1
  · rw [h2]

end Step

namespace EGO

open Step

/-! ## What the steps leave alone -/

/-- What is counted and recorded: iteration number, simulations, evaluations counted, training, history
and samples. -/
def ledger (s : EGOState K) : Nat × List (List K) × Nat × List Nat × Mat K × List (Option Nat × List K) :=
  (s.iteration, s.calls, s.evaluations, s.trained, s.history.data, s.samples)

/-- The same without the samples. -/
def counts (s : EGOState K) : Nat × List (List K) × Nat × List Nat × Mat K :=
  (s.iteration, s.calls, s.evaluations, s.trained, s.history.data)

theorem _root_.Rodeo.Step.Keeps.counts {f : Step K} (h : Keeps ledger f) : Keeps counts f := by
  intro s
  have := h s
  simp only [ledger, Prod.mk.injEq] at this
  simp only [EGO.counts, Prod.mk.injEq]
  exact ⟨this.1, this.2.1, this.2.2.1, this.2.2.2.1, this.2.2.2.2.1⟩

theorem constraintStep_keeps (E : EGOEnv K) : Keeps ledger (constraintStep E) := by
  refine Keeps.ofRes ?_
  intro s s' h
  split_ifs at h
  · obtain ⟨d, -, h⟩ := bind_ok_inv h
    obtain ⟨b, -, h⟩ := bind_ok_inv h
    cases h
    rfl
  · cases h; rfl

theorem improvementStep_keeps : Keeps (K := K) ledger improvementStep := fun _ => rfl

theorem nanStep_keeps (E : EGOEnv K) : Keeps ledger (nanStep E) := fun _ => rfl

theorem successStep_keeps : Keeps (K := K) ledger successStep := by
  intro s
  unfold successStep
  dsimp only
  split_ifs <;> rfl

theorem calculateCrowdingFactor_data {h h' : History K} (e : h.calculateCrowdingFactor = .ok h') :
    ∃ c, h' = { h with crowding := c } := by
  unfold History.calculateCrowdingFactor at e
  split_ifs at e
  all_goals
    obtain ⟨A, -, e⟩ := bind_ok_inv e
    obtain ⟨c, -, e⟩ := bind_ok_inv e
    cases e
    exact ⟨_, rfl⟩

theorem sigmaStep_keeps (E : EGOEnv K) : Keeps ledger (sigmaStep E) := by
  refine Keeps.ofRes ?_
  intro s s' h
  split_ifs at h
  · obtain ⟨h1, e, h⟩ := bind_ok_inv h
    obtain ⟨c, rfl⟩ := calculateCrowdingFactor_data e
    cases h
    rfl
  · cases h; rfl

theorem globalStep_keeps (E : EGOEnv K) : Keeps ledger (globalStep E) := by
  refine Keeps.ofRes ?_
  intro s s' h
  split_ifs at h
  obtain ⟨g, -, h⟩ := bind_ok_inv h
  cases h
  rfl

theorem dataStep_keeps (E : EGOEnv K) : Keeps counts (dataStep E) := by
  intro s
  unfold dataStep
  cases s.current.sampleObjective <;> rfl

theorem constraintData_keeps (E : EGOEnv K) (c : Constraint K) : Keeps counts (constraintData E c) := by
  intro s
  unfold constraintData
  cases c.source with
  | user f => rfl
  | data A =>
    dsimp only
    split_ifs
    · rfl
    · cases s.current.sampleConstraint c.id.toNat <;> rfl

theorem constraintDataStep_keeps (E : EGOEnv K) (cs : List (Constraint K)) :
    Keeps counts (constraintDataStep E cs) := by
  induction cs with
  | nil => exact fun _ => rfl
  | cons c cs ih => exact (constraintData_keeps E c).then ih

section round
variable [FloorRing K]

theorem proposeStep_keeps (E : EGOEnv K) : Keeps ledger (proposeStep E) := by
  refine Keeps.ofRes ?_
  intro s s' h
  obtain ⟨r, -, h⟩ := bind_ok_inv h
  cases h
  rfl

/-! ## Counting, for every environment -/

/-- The training done in iteration `n`. -/
def trainedAt (E : EGOEnv K) (n : Nat) : List Nat := if n % E.howOften = 1 then [n] else []

theorem trainStep_ok {E : EGOEnv K} {s s' : EGOState K} (h : trainStep E s = (s', .ok ())) :
    E.howOften ≠ 0 ∧ s' = { s with trained := s.trained ++ trainedAt E s.iteration } := by
  unfold trainStep at h
  unfold trainedAt
  split_ifs at h with h1 h2
  · cases h
  · rw [if_pos h2]
    exact ⟨h1, (Prod.mk.inj h).1.symm⟩
  · rw [if_neg h2, List.append_nil]
    exact ⟨h1, (Prod.mk.inj h).1.symm⟩

theorem evaluateStep_ok {E : EGOEnv K} {s s' : EGOState K} (h : evaluateStep E s = (s', .ok ())) :
    s.current.params.length = E.setup.problem.dimension ∧
    ∃ v, E.objective s.iteration s.current.params = .ok v ∧
      s' = { s with calls := s.calls ++ [s.current.params], evaluations := s.evaluations + 1,
                    current := { s.current with trueValue := v } } := by
  unfold evaluateStep at h
  split_ifs at h with hl
  · cases h
  · refine ⟨not_not.1 hl, ?_⟩
    dsimp only at h
    cases e : E.objective s.iteration s.current.params with
    | error err => rw [e] at h; cases h
    | ok v =>
      rw [e] at h
      exact ⟨v, rfl, (Prod.mk.inj h).1.symm⟩

theorem addRow_nrows {A B : Mat K} {row : List K} {p : Int} (h : Mat.addRow A row p = .ok B) :
    B.nrows = A.nrows + 1 := by
  unfold Mat.addRow at h
  dsimp only at h
  split_ifs at h <;>
    (obtain ⟨d, -, h⟩ := bind_ok_inv h
     obtain ⟨l, -, h⟩ := bind_ok_inv h
     cases h
     rfl)

theorem save_data (h : History K) : h.save.1.data = h.data := by
  unfold History.save
  split_ifs
  · rfl
  · cases h.setHeader <;> rfl

/-- The history after an update that returned. -/
theorem update_nrows {h h' : History K} {d : Design K} (e : h.update d = (h', .ok ())) :
    h'.data.nrows = h.data.nrows + 1 := by
  unfold History.update at e
  split_ifs at e
  · cases e
  · cases e1 : h.newRow d with
    | error err => rw [e1] at e; cases e
    | ok row =>
      rw [e1] at e
      dsimp only at e
      cases e2 : Mat.addRow h.data row (-1) with
      | error err => rw [e2] at e; cases e
      | ok A =>
        rw [e2] at e
        dsimp only at e
        have := save_data { h with data := A }
        rw [e] at this
        dsimp only at this
        rw [this]
        exact addRow_nrows e2

/-- One iteration, if nothing is thrown. -/
theorem iterate_ok {E : EGOEnv K} {s s' : EGOState K} (h : iterate E s = (s', .ok ())) :
    E.howOften ≠ 0 ∧ s'.iteration = s.iteration + 1 ∧ s'.evaluations = s.evaluations + 1 ∧
    (∃ x, s'.calls = s.calls ++ [x] ∧ x.length = E.setup.problem.dimension) ∧
    s'.trained = s.trained ++ trainedAt E (s.iteration + 1) ∧
    s'.history.data.nrows = s.history.data.nrows + 1 := by
  obtain ⟨b, hb, hr⟩ := then_ok_inv h
  obtain ⟨s1, h1, hb1⟩ := then_ok_inv hb
  obtain ⟨s2, h2, hb2⟩ := then_ok_inv hb1
  obtain ⟨s3, h3, hb3⟩ := then_ok_inv hb2
  obtain ⟨s4, h4, hb4⟩ := then_ok_inv hb3
  obtain ⟨s5, h5, hb5⟩ := then_ok_inv hb4
  obtain ⟨s6, h6, hb6⟩ := then_ok_inv hb5
  obtain ⟨r1, g1, hr1⟩ := then_ok_inv hr
  obtain ⟨r2, g2, hr2⟩ := then_ok_inv hr1
  obtain ⟨r3, g3, hr3⟩ := then_ok_inv hr2
  obtain ⟨r4, g4, hr4⟩ := then_ok_inv hr3
  obtain ⟨r5, g5, hr5⟩ := then_ok_inv hr4
  clear hb1 hb2 hb3 hb4 hb5 hr1 hr2 hr3 hr4 hb hr h
  obtain ⟨rfl, -⟩ := Prod.mk.inj h1
  obtain ⟨k0, rfl⟩ := trainStep_ok h2
  have k3 := (proposeStep_keeps E).eq h3
  obtain ⟨hlen, v, -, rfl⟩ := evaluateStep_ok h4
  have k5 := (constraintStep_keeps E).eq h5
  have k6 := improvementStep_keeps.eq h6
  have k7 := (nanStep_keeps E).eq hb6
  have j1 := (dataStep_keeps E).eq g1
  have j2 := (constraintDataStep_keeps E _).eq g2
  obtain ⟨rfl, e3⟩ := Prod.mk.inj g3
  have j4 := successStep_keeps.eq g4
  have j5 := (sigmaStep_keeps E).eq g5
  have j6 := (globalStep_keeps E).eq hr5
  have e3' := update_nrows (h := r2.history) (d := r2.current)
    (h' := (r2.history.update r2.current).1) (by rw [← e3])
  simp only [ledger, counts, Prod.mk.injEq] at k3 k5 k6 k7 j1 j2 j4 j5 j6
  obtain ⟨a1, a2, a3, a4, a5, -⟩ := k3
  obtain ⟨b1, b2, b3, b4, b5, -⟩ := k5
  obtain ⟨c1, c2, c3, c4, c5, -⟩ := k6
  obtain ⟨d1, d2, d3, d4, d5, -⟩ := k7
  obtain ⟨l1, l2, l3, l4, l5⟩ := j1
  obtain ⟨m1, m2, m3, m4, m5⟩ := j2
  obtain ⟨n1, n2, n3, n4, n5, -⟩ := j4
  obtain ⟨o1, o2, o3, o4, o5, -⟩ := j5
  obtain ⟨p1, p2, p3, p4, p5, -⟩ := j6
  refine ⟨k0, ?_, ?_, ⟨s3.current.params, ?_, ?_⟩, ?_, ?_⟩
  · rw [p1, o1, n1, m1, l1, d1, c1, b1, a1]
  · rw [p3, o3, n3, m3, l3, d3, c3, b3, a3]
  · rw [p2, o2, n2, m2, l2, d2, c2, b2, a2]
  · exact hlen
  · rw [p4, o4, n4, m4, l4, d4, c4, b4, a4]
  · rw [p5, o5, n5, e3', m5, l5, d5, c5, b5, a5]

/-- One iteration, whatever happens: at most one simulation of the objective. -/
theorem iterate_any (E : EGOEnv K) (s : EGOState K) :
    (iterate E s).1.calls.length ≤ s.calls.length + 1 := by
  have key : ∀ (f g : Step K) (n : Nat), (∀ s, (f s).1.calls = s.calls) →
      (∀ s, (g s).1.calls.length ≤ s.calls.length + n) →
      ∀ s, (Step.then f g s).1.calls.length ≤ s.calls.length + n := by
    intro f g n hf hg s
    rcases then_cases f g s with ⟨s1, h1, h2⟩ | ⟨s1, e, h1, h2⟩
    · rw [h2, ← hf s, h1]; exact hg s1
    · rw [h2, ← hf s, h1]; exact Nat.le_add_right _ _
  have key' : ∀ (f g : Step K), (∀ s, (f s).1.calls.length ≤ s.calls.length + 1) →
      (∀ s, (g s).1.calls = s.calls) →
      ∀ s, (Step.then f g s).1.calls.length ≤ s.calls.length + 1 := by
    intro f g hf hg s
    have := hf s
    rcases then_cases f g s with ⟨s1, h1, h2⟩ | ⟨s1, e, h1, h2⟩
    · rw [h2, hg s1]; rw [h1] at this; exact this
    · rw [h2]; rw [h1] at this; exact this
  have keep : ∀ f : Step K, Keeps counts f → ∀ s, (f s).1.calls = s.calls := by
    intro f hf s
    have := hf s
    simp only [counts, Prod.mk.injEq] at this
    exact this.2.1
  have hist : ∀ s, (historyStep (K := K) s).1.calls = s.calls := fun _ => rfl
  have rec' : ∀ s, (recording E s).1.calls = s.calls := by
    have t : ∀ f g : Step K, (∀ s, (f s).1.calls = s.calls) → (∀ s, (g s).1.calls = s.calls) →
        ∀ s, (Step.then f g s).1.calls = s.calls := fun f g hf hg =>
      Keeps.then (φ := fun s => s.calls) hf hg
    unfold recording
    exact t _ _ (keep _ (dataStep_keeps E)) (t _ _ (keep _ (constraintDataStep_keeps E _))
      (t _ _ hist (t _ _ (keep _ successStep_keeps.counts) (t _ _ (keep _ (sigmaStep_keeps E).counts)
        (keep _ (globalStep_keeps E).counts)))))
  refine key' _ _ ?_ rec' s
  unfold beforeRecording
  refine key _ _ 1 (fun _ => rfl) (key _ _ 1 ?_ (key _ _ 1 (keep _ (proposeStep_keeps E).counts)
    (key' _ _ ?_ ?_)))
  · intro s
    unfold trainStep
    split_ifs <;> rfl
  · intro s
    unfold evaluateStep
    split_ifs
    · exact Nat.le_add_right _ _
    · dsimp only
      cases E.objective s.iteration s.current.params <;> simp
  · exact Keeps.then (φ := fun s => s.calls) (keep _ (constraintStep_keeps E).counts)
      (Keeps.then (φ := fun s => s.calls) (keep _ improvementStep_keeps.counts)
        (keep _ (nanStep_keeps E).counts))

/-- The loop, if nothing is thrown. -/
theorem loop_ok {E : EGOEnv K} : ∀ (n : Nat) {s s' : EGOState K}, loop E n s = (s', .ok ()) →
    E.howOften ≠ 0 ∧ s.iteration < s'.iteration ∧
    s'.iteration = max (s.iteration + 1) E.maxSamples ∧
    s'.evaluations = s.evaluations + (s'.iteration - s.iteration) ∧
    (∃ xs, s'.calls = s.calls ++ xs ∧ xs.length = s'.iteration - s.iteration ∧
      ∀ x ∈ xs, x.length = E.setup.problem.dimension) ∧
    s'.trained = s.trained ++ (List.range' (s.iteration + 1) (s'.iteration - s.iteration)).flatMap
      (trainedAt E) ∧
    s'.history.data.nrows = s.history.data.nrows + (s'.iteration - s.iteration) := by
  intro n
  induction n with
  | zero => intro s s' h; cases h
  | succ n ih =>
    intro s s' h
    obtain ⟨s1, h1, h2⟩ := then_ok_inv h
    obtain ⟨k0, k1, k2, ⟨x, k3, k3'⟩, k4, k5⟩ := iterate_ok h1
    split_ifs at h2 with hm
    · obtain ⟨rfl, -⟩ := Prod.mk.inj h2
      have e : s1.iteration - s.iteration = 1 := by omega
      rw [e]
      refine ⟨k0, by omega, by omega, k2, ⟨[x], k3, rfl, by simpa using k3'⟩, ?_, k5⟩
      rw [k4]
      simp
    · obtain ⟨-, j1, j2, j3, ⟨xs, j4, j5, j6⟩, j7, j8⟩ := ih h2
      have e : s'.iteration - s.iteration = (s'.iteration - s1.iteration) + 1 := by omega
      refine ⟨k0, by omega, by omega, by omega, ⟨x :: xs, ?_, ?_, ?_⟩, ?_, by omega⟩
      · rw [j4, k3, List.append_assoc]; rfl
      · rw [e, List.length_cons, j5]
      · intro y hy
        rcases List.mem_cons.1 hy with rfl | hy
        · exact k3'
        · exact j6 y hy
      · rw [j7, k4, e, List.range'_succ, List.flatMap_cons, k1, List.append_assoc]

/-- Every iteration raises the number, whatever happens. -/
theorem iterate_iteration (E : EGOEnv K) (s : EGOState K) :
    (iterate E s).1.iteration = s.iteration + 1 := by
  have keep : ∀ f : Step K, Keeps counts f → Keeps (fun s => s.iteration) f := by
    intro f hf
    exact hf.comp (fun a => a.1)
  have hist : Keeps (K := K) (fun s => s.iteration) historyStep := fun _ => rfl
  have htrain : Keeps (fun s => s.iteration) (trainStep E) := by
    intro s
    unfold trainStep
    split_ifs <;> rfl
  have heval : Keeps (fun s => s.iteration) (evaluateStep E) := by
    intro s
    unfold evaluateStep
    split_ifs
    · rfl
    · dsimp only
      cases E.objective s.iteration s.current.params <;> rfl
  have hrec : Keeps (fun s => s.iteration) (recording E) :=
    (keep _ (dataStep_keeps E)).then ((keep _ (constraintDataStep_keeps E _)).then
      (hist.then ((keep _ successStep_keeps.counts).then ((keep _ (sigmaStep_keeps E).counts).then
        (keep _ (globalStep_keeps E).counts)))))
  have htail : Keeps (fun s => s.iteration) (Step.then (trainStep E) <| Step.then (proposeStep E) <|
      Step.then (evaluateStep E) <| Step.then (constraintStep E) <|
      Step.then improvementStep (nanStep E)) :=
    htrain.then ((keep _ (proposeStep_keeps E).counts).then (heval.then
      ((keep _ (constraintStep_keeps E).counts).then ((keep _ improvementStep_keeps.counts).then
        (keep _ (nanStep_keeps E).counts)))))
  have hb : (beforeRecording E s).1.iteration = s.iteration + 1 := by
    unfold beforeRecording
    rw [then_ok (s1 := { s with iteration := s.iteration + 1 }) rfl]
    exact htail _
  rcases then_cases (beforeRecording E) (recording E) s with ⟨s1, h1, h2⟩ | ⟨s1, e, h1, h2⟩
  · unfold iterate
    rw [h2]
    exact (hrec s1).trans (by rw [← hb, h1])
  · unfold iterate
    rw [h2, ← hb, h1]

/-- The loop, whatever happens: at most as many simulations as iterations are left, at least one. -/
theorem loop_any (E : EGOEnv K) : ∀ (n : Nat) (s : EGOState K),
    (loop E n s).1.calls.length ≤ s.calls.length + max 1 (E.maxSamples - s.iteration) := by
  intro n
  induction n with
  | zero => intro s; simp [loop]
  | succ n ih =>
    intro s
    have h0 := iterate_any E s
    have h0' := iterate_iteration E s
    rcases then_cases (iterate E) (fun s => if s.iteration ≥ E.maxSamples then (s, .ok ())
      else loop E n s) s with ⟨s1, h1, h2⟩ | ⟨s1, e, h1, h2⟩
    · rw [h1] at h0 h0'
      dsimp only at h0 h0'
      have : (loop E (n + 1) s) = if s1.iteration ≥ E.maxSamples then (s1, .ok ()) else loop E n s1 := h2
      rw [this]
      split_ifs with hm
      · dsimp only; omega
      · have := ih s1
        omega
    · rw [h1] at h0
      have : (loop E (n + 1) s) = (s1, .error e) := h2
      rw [this]
      dsimp only at h0 ⊢
      omega

/-- The outcome does not depend on the bound on the rounds once it is large enough. -/
theorem loop_fuel (E : EGOEnv K) : ∀ (n : Nat) (s : EGOState K), max 1 (E.maxSamples - s.iteration) ≤ n →
    loop E n s = loop E (max 1 (E.maxSamples - s.iteration)) s := by
  intro n
  induction n with
  | zero => intro s h; omega
  | succ n ih =>
    intro s hn
    obtain ⟨m, hm⟩ : ∃ m, max 1 (E.maxSamples - s.iteration) = m + 1 :=
      ⟨max 1 (E.maxSamples - s.iteration) - 1, by omega⟩
    rw [hm]
    have h0' := iterate_iteration E s
    rcases h : iterate E s with ⟨s1, r⟩
    rw [h] at h0'
    dsimp only at h0'
    cases r with
    | error e =>
      have q : ∀ k, loop E (k + 1) s = (s1, .error e) := fun k => then_error h
      rw [q, q]
    | ok u =>
      have q : ∀ k, loop E (k + 1) s = if s1.iteration ≥ E.maxSamples then (s1, .ok ()) else loop E k s1 :=
        fun k => then_ok h
      rw [q, q]
      split_ifs with hlt
      · rfl
      · have e : max 1 (E.maxSamples - s1.iteration) = m := by omega
        rw [ih s1 (by omega), e]

end round
end EGO
end Rodeo
