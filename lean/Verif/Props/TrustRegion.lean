import Verif.Lemmas.InPlace
import Verif.Spec.Optimizer
import Mathlib.Tactic.NormNum
import Mathlib.Tactic.FieldSimp
import Mathlib.Tactic.Positivity

/-! # C24 and C25: the trust region -/

set_option linter.unusedSectionVars false

namespace Rodeo

open Spec

variable {K : Type} [Field K] [LinearOrder K] [IsStrictOrderedRing K]

/-! ## C24: trust region length -/

/-- C24: for an optimizer of any dimension and after any sequence of outcomes the length lies between
its minimum and maximum, an improvement never makes it smaller, a failure never larger. -/
def C24_full (K : Type) [Field K] [LinearOrder K] [IsStrictOrderedRing K] : Prop :=
  ∀ (dim : Nat), 0 < dim → ∀ (outcomes : List Bool),
    let t : TrustRegion K := (TrustRegion.start dim).run outcomes
    t.lengthMin ≤ t.length ∧ t.length ≤ t.lengthMax ∧
    t.length ≤ (t.step true).length ∧ (t.step false).length ≤ t.length

/-- The initial length 0.8 is above the maximum `1 / dim` in every dimension from 2 on. -/
theorem C24_false : ¬ C24_full ℚ := by
  intro h
  have := (h 2 (by norm_num) []).2.1
  norm_num [TrustRegion.run, TrustRegion.start] at this

/-- In dimension 2 the first enlargement makes the trust region smaller. -/
theorem C24_enlargement_shrinks :
    ((TrustRegion.start 2 : TrustRegion ℚ).run [true, true, true]).length <
      ((TrustRegion.start 2 : TrustRegion ℚ).run [true, true]).length := by
  norm_num [TrustRegion.run, TrustRegion.start, TrustRegion.step, TrustRegion.success]

namespace TrustRegion

theorem step_limits (t : TrustRegion K) (b : Bool) :
    (t.step b).lengthMin = t.lengthMin ∧ (t.step b).lengthMax = t.lengthMax := by
  unfold step success failure
  cases b <;> simp only [Bool.false_eq_true, if_false, if_true] <;> split_ifs <;> simp

theorem run_append (t : TrustRegion K) (l l' : List Bool) :
    t.run (l ++ l') = (t.run l).run l' := by
  induction l generalizing t with
  | nil => rfl
  | cons b l ih => exact ih _

/-- A shrinking step. -/
theorem failure_le (t : TrustRegion K) (h0 : 0 ≤ t.lengthMin) (h : t.lengthMin ≤ t.length) :
    (t.step false).length ≤ t.length ∧ t.lengthMin ≤ (t.step false).length := by
  unfold step failure
  simp only [Bool.false_eq_true, if_false]
  split_ifs with h1 h2
  · exact ⟨h, le_refl _⟩
  · refine ⟨?_, not_lt.1 h2⟩
    simp only
    linarith
  · exact ⟨le_refl _, h⟩

/-- An enlarging step. -/
theorem success_ge (t : TrustRegion K) (h0 : 0 ≤ t.length) :
    (t.length ≤ t.lengthMax → t.length ≤ (t.step true).length) ∧
    (t.step true).length ≤ max t.length t.lengthMax ∧
    (t.lengthMin ≤ t.length → t.lengthMin ≤ t.lengthMax → t.lengthMin ≤ (t.step true).length) := by
  unfold step success
  simp only [if_true]
  split_ifs with h1 h2
  · exact ⟨fun h => h, le_max_right _ _, fun _ h => h⟩
  · refine ⟨fun _ => ?_, ?_, fun h _ => ?_⟩ <;> simp only
    · linarith
    · exact le_max_of_le_right (not_lt.1 h2)
    · linarith
  · exact ⟨fun _ => le_refl _, le_max_left _ _, fun h _ => h⟩

/-- Limits and lower bound along a run. -/
theorem run_lower (t : TrustRegion K) (h0 : 0 ≤ t.lengthMin) (hm : t.lengthMin ≤ t.lengthMax)
    (h : t.lengthMin ≤ t.length) (l : List Bool) :
    (t.run l).lengthMin = t.lengthMin ∧ (t.run l).lengthMax = t.lengthMax ∧
    t.lengthMin ≤ (t.run l).length ∧ (t.run l).length ≤ max t.length t.lengthMax := by
  induction l generalizing t with
  | nil => exact ⟨rfl, rfl, h, le_max_left _ _⟩
  | cons b l ih =>
    obtain ⟨e1, e2⟩ := t.step_limits b
    have hlow : t.lengthMin ≤ (t.step b).length := by
      cases b with
      | false => exact (failure_le t h0 h).2
      | true => exact (success_ge t (h0.trans h)).2.2 h hm
    have hup : (t.step b).length ≤ max t.length t.lengthMax := by
      cases b with
      | false => exact (failure_le t h0 h).1.trans (le_max_left _ _)
      | true => exact (success_ge t (h0.trans h)).2.1
    obtain ⟨i1, i2, i3, i4⟩ := ih (t.step b) (by rw [e1]; exact h0) (by rw [e1, e2]; exact hm)
      (by rw [e1]; exact hlow)
    refine ⟨i1.trans e1, i2.trans e2, by rw [← e1]; exact i3, i4.trans ?_⟩
    exact max_le hup (by rw [e2]; exact le_max_right _ _)

theorem start_limits {dim : Nat} (hd : 0 < dim) :
    (0 : K) ≤ (start dim : TrustRegion K).lengthMin ∧
    (start dim : TrustRegion K).lengthMin ≤ (start dim : TrustRegion K).lengthMax ∧
    (start dim : TrustRegion K).lengthMin ≤ (start dim : TrustRegion K).length := by
  have h1 : (1 : K) ≤ dim := by exact_mod_cast hd
  have h2 : 1 / (dim : K) ≤ 1 := by
    rw [div_le_one (by linarith)]; exact h1
  have h3 : 0 < 1 / (dim : K) := by apply div_pos one_pos; linarith
  have h4 : ((1 / 2 : K)) ^ 8 = 1 / 256 := by norm_num
  unfold start
  simp only [h4]
  refine ⟨by positivity, ?_, ?_⟩ <;> linarith

end TrustRegion

/-- C24, what holds: in every dimension and after every sequence of outcomes the length is at least the
minimum and at most the larger of 0.8 and the maximum, a failure never enlarges it; if at that time it
does not exceed the maximum, then an improvement never shrinks it and it stays between minimum and
maximum for ever.
Missing: the initial length exceeds the maximum in every dimension from 2 on (`C24_false`), and then
an enlargement shrinks the region (`C24_enlargement_shrinks`). -/
theorem C24_partial {dim : Nat} (hd : 0 < dim) (outcomes : List Bool) :
    let t : TrustRegion K := (TrustRegion.start dim).run outcomes
    t.lengthMin = (1 / 2) ^ 8 / (dim : K) ∧ t.lengthMax = 1 / (dim : K) ∧
    t.lengthMin ≤ t.length ∧ t.length ≤ max (8 / 10) t.lengthMax ∧
    (t.step false).length ≤ t.length ∧
    (t.length ≤ t.lengthMax →
      t.length ≤ (t.step true).length ∧
      ∀ later : List Bool, t.lengthMin ≤ (t.run later).length ∧ (t.run later).length ≤ t.lengthMax) := by
  intro t
  obtain ⟨s1, s2, s3⟩ := TrustRegion.start_limits (K := K) hd
  obtain ⟨r1, r2, r3, r4⟩ := TrustRegion.run_lower _ s1 s2 s3 outcomes
  have hlow : t.lengthMin ≤ t.length := by rw [show t.lengthMin = _ from r1]; exact r3
  have h0 : 0 ≤ t.lengthMin := by rw [show t.lengthMin = _ from r1]; exact s1
  refine ⟨?_, r2, hlow, ?_, ?_, ?_⟩
  · rw [show t.lengthMin = _ from r1]; simp [TrustRegion.start]; ring
  · rw [show t.lengthMax = _ from r2]; exact r4
  · exact (t.failure_le h0 hlow).1
  · intro hle
    refine ⟨(t.success_ge (h0.trans hlow)).1 hle, ?_⟩
    intro later
    obtain ⟨q1, q2, q3, q4⟩ := t.run_lower h0 (hlow.trans hle) hlow later
    exact ⟨q3, q4.trans (by rw [max_eq_right hle])⟩

theorem streak_same (b : Bool) (l : List Bool) : streak b (l ++ [b]) = streak b l + 1 := by
  unfold streak
  simp

theorem streak_other {b c : Bool} (h : c ≠ b) (l : List Bool) : streak b (l ++ [c]) = 0 := by
  unfold streak
  simp [h]

/-- The counters of a run. -/
theorem TrustRegion.run_counters (dim : Nat) (outcomes : List Bool) :
    let t : TrustRegion K := (TrustRegion.start dim).run outcomes
    t.successCounter = streak true outcomes % 3 ∧ t.failureCounter = streak false outcomes % 15 ∧
    t.successTolerance = 3 ∧ t.failureTolerance = 15 := by
  induction outcomes using List.reverseRecOn with
  | nil => exact ⟨rfl, rfl, rfl, rfl⟩
  | append_singleton l b ih =>
    intro t
    obtain ⟨i1, i2, i3, i4⟩ := ih
    have ht : t = ((TrustRegion.start dim : TrustRegion K).run l).step b := by
      show (TrustRegion.start dim : TrustRegion K).run (l ++ [b]) = _
      rw [TrustRegion.run_append]; rfl
    rw [ht]
    cases b with
    | true =>
      rw [streak_same, streak_other (by decide)]
      simp only [step, if_true, success]
      rw [i1, i3]
      by_cases h : streak true l % 3 + 1 = 3
      · rw [if_pos h]
        refine ⟨?_, rfl, rfl, i4⟩
        simp only; omega
      · rw [if_neg h]
        refine ⟨?_, rfl, rfl, i4⟩
        simp only; omega
    | false =>
      rw [streak_same, streak_other (by decide)]
      simp only [step, Bool.false_eq_true, if_false, failure]
      rw [i2, i4]
      by_cases h : streak false l % 15 + 1 = 15
      · rw [if_pos h]
        refine ⟨rfl, ?_, i3, rfl⟩
        simp only; omega
      · rw [if_neg h]
        refine ⟨rfl, ?_, i3, rfl⟩
        simp only; omega

/-- C74: the length changes exactly at every third improvement in a row, when it is doubled up to the
maximum, and at every fifteenth failure in a row, when it is halved down to the minimum. -/
theorem C74_schedule (dim : Nat) (outcomes : List Bool) :
    let t : TrustRegion K := (TrustRegion.start dim).run outcomes
    ((TrustRegion.start dim : TrustRegion K).run (outcomes ++ [true])).length =
      (if 3 ∣ streak true (outcomes ++ [true]) then min (2 * t.length) (1 / (dim : K))
        else t.length) ∧
    ((TrustRegion.start dim : TrustRegion K).run (outcomes ++ [false])).length =
      (if 15 ∣ streak false (outcomes ++ [false]) then max (t.length / 2) ((1 / 2) ^ 8 / (dim : K))
        else t.length) := by
  intro t
  obtain ⟨i1, i2, i3, i4⟩ := TrustRegion.run_counters (K := K) dim outcomes
  have lim : t.lengthMin = (1 / 2) ^ 8 * (1 / (dim : K)) ∧ t.lengthMax = 1 / (dim : K) := by
    have : ∀ (s : TrustRegion K) (l : List Bool),
        (s.run l).lengthMin = s.lengthMin ∧ (s.run l).lengthMax = s.lengthMax := by
      intro s l
      induction l generalizing s with
      | nil => exact ⟨rfl, rfl⟩
      | cons b l ih =>
        obtain ⟨h1, h2⟩ := ih (s.step b)
        obtain ⟨h3, h4⟩ := s.step_limits b
        exact ⟨h1.trans h3, h2.trans h4⟩
    exact this _ _
  rw [TrustRegion.run_append, TrustRegion.run_append, streak_same, streak_same]
  refine ⟨?_, ?_⟩
  · show (t.step true).length = _
    simp only [TrustRegion.step, if_true, TrustRegion.success]
    rw [show t.successCounter = _ from i1, show t.successTolerance = _ from i3]
    split_ifs with h1 h2 h3 h4 h5
    · simp only at h2 ⊢
      rw [lim.2, min_eq_right]
      rw [lim.2] at h2
      linarith
    · omega
    · simp only at h2 ⊢
      rw [min_eq_left]
      · ring
      · rw [lim.2] at h2
        linarith
    · omega
    · omega
    · rfl
  · show (t.step false).length = _
    simp only [TrustRegion.step, Bool.false_eq_true, if_false, TrustRegion.failure]
    rw [show t.failureCounter = _ from i2, show t.failureTolerance = _ from i4]
    have e : (1 / 2 : K) ^ 8 / (dim : K) = t.lengthMin := by rw [lim.1]; ring
    rw [e]
    split_ifs with h1 h2 h3 h4 h5
    · simp only at h2 ⊢
      rw [max_eq_right h2.le]
    · omega
    · simp only at h2 ⊢
      rw [max_eq_left (not_lt.1 h2)]
    · omega
    · omega
    · rfl

-- Two improvements, a failure and two more improvements change nothing; the next one enlarges.
example : ((TrustRegion.start 1 : TrustRegion ℚ).run [true, true, false, true, true]).length = 4 / 5 ∧
    ((TrustRegion.start 1 : TrustRegion ℚ).run [true, true, false, true, true, true]).length = 1 := by
  constructor <;> decide +kernel

/-- C24 in dimension 1. -/
theorem C24_dimension_one (outcomes : List Bool) :
    let t : TrustRegion K := (TrustRegion.start 1).run outcomes
    t.lengthMin ≤ t.length ∧ t.length ≤ t.lengthMax ∧
    t.length ≤ (t.step true).length ∧ (t.step false).length ≤ t.length := by
  intro t
  obtain ⟨-, h2, h3, h4, h5, h6⟩ := C24_partial (K := K) one_pos outcomes
  have hle : t.length ≤ t.lengthMax := by
    have : (max (8 / 10) t.lengthMax : K) = t.lengthMax := by
      rw [max_eq_right]; rw [show t.lengthMax = _ from h2]; norm_num
    rw [← this]; exact h4
  exact ⟨h3, hle, (h6 hle).1, h5⟩

-- Three improvements bring the length of a two-dimensional problem into the band, for ever.
example (later : List Bool) :
    ((TrustRegion.start 2 : TrustRegion ℚ).run ([true, true, true] ++ later)).length ≤ 1 / 2 := by
  rw [TrustRegion.run_append]
  obtain ⟨-, h2, -, -, -, h6⟩ := C24_partial (K := ℚ) (dim := 2) (by norm_num) [true, true, true]
  have h : ((TrustRegion.start 2 : TrustRegion ℚ).run [true, true, true]).lengthMax = 1 / 2 := by
    rw [h2]; norm_num
  have := ((h6 (by decide +kernel)).2 later).2
  rwa [h] at this

/-! ## C25: search boxes -/

/-- The bounds computed from a distance `delta ≥ 0`. -/
theorem window_ok {dim : Nat} (hd : 0 < dim) {x : List K} (hx : x.length = dim) {delta : K}
    (h0 : 0 ≤ delta) :
    OkP (do
      let lb ← trimVector dim (Vec.subScalar x delta)
      let ub ← trimVector dim (Vec.addScalar x delta)
      (.ok (lb, ub) : Res (List K × List K))) (GoodWindow dim x) := by
  have hpos : (0 : K) ≤ 1 / (dim : K) := by positivity
  refine (trimVector_ok hd (x := Vec.subScalar x delta) (by simp [Vec.subScalar, hx])).bind ?_
  rintro lb ⟨hl, hlb⟩
  refine (trimVector_ok hd (x := Vec.addScalar x delta) (by simp [Vec.addScalar, hx])).bind ?_
  rintro ub ⟨hu, hub⟩
  refine okP_ok ⟨hl, hu, ?_⟩
  intro i l u v h1 h2 h3
  have e1 := hlb i (v - delta) (by simp [Vec.subScalar, h3])
  have e2 := hub i (v + delta) (by simp [Vec.addScalar, h3])
  simp only at h1 h2
  rw [h1] at e1
  rw [h2] at e2
  obtain rfl := Option.some.inj e1
  obtain rfl := Option.some.inj e2
  refine ⟨clampTo_mono (by linarith), (clampTo_mem hpos _).1, (clampTo_mem hpos _).2, ?_⟩
  intro hv0 hv1
  have := clampTo_id hv0 hv1
  refine ⟨?_, ?_⟩
  · calc clampTo 0 (1 / (dim : K)) (v - delta) ≤ clampTo 0 (1 / (dim : K)) v :=
        clampTo_mono (by linarith)
      _ = v := this
  · calc v = clampTo 0 (1 / (dim : K)) v := this.symm
      _ ≤ clampTo 0 (1 / (dim : K)) (v + delta) := clampTo_mono (by linarith)

/-- C25 for the trust region: for every dimension, incumbent of that dimension and non-negative length
the call returns a good window. -/
theorem C25_trustRegion {dim : Nat} (hd : 0 < dim) {incumbent : List K}
    (hx : incumbent.length = dim) {trLength : K} (h : 0 ≤ trLength) :
    ∃ w, defineTrustRegion dim incumbent trLength = .ok w ∧ GoodWindow dim incumbent w := by
  have := window_ok hd hx (delta := (1 / (dim : K)) * trLength) (by positivity)
  unfold defineTrustRegion
  rw [if_neg (by omega), if_neg (by simpa using hx), if_neg (by omega)]
  exact this

/-- C25 for the gradient step: for every factor the optimizer accepts. -/
theorem C25_gradientStep {dim : Nat} (hd : 0 < dim) {incumbent : List K}
    (hx : incumbent.length = dim) {factor trFactor : K} (h1 : 0 < factor) (h2 : factor ≤ 1)
    (h : 0 ≤ trFactor) :
    ∃ w, gradientStepWindow dim incumbent factor trFactor = .ok w ∧ GoodWindow dim incumbent w := by
  have := window_ok hd hx (delta := (factor / (dim : K)) * trFactor) (by positivity)
  unfold gradientStepWindow
  rw [if_neg (by simp [h1, h2]), if_neg (by omega), if_neg (by simpa using hx)]
  exact this

/-- An incumbent of another dimension, dimension 0 and a factor outside `(0, 1]` are rejected. -/
theorem C25_rejects (dim : Nat) (incumbent : List K) (trLength factor trFactor : K) :
    (dim = 0 ∨ incumbent.length ≠ dim →
      defineTrustRegion dim incumbent trLength = .error .runtimeError ∧
      ∃ e, gradientStepWindow dim incumbent factor trFactor = .error e) ∧
    (factor ≤ 0 ∨ 1 < factor →
      gradientStepWindow dim incumbent factor trFactor = .error .invalidArgument) := by
  refine ⟨?_, ?_⟩
  · intro h
    unfold defineTrustRegion gradientStepWindow
    refine ⟨?_, ?_⟩
    · split_ifs with h1 h2 <;> first | rfl | (exfalso; tauto)
    · split_ifs with h1 h2 h3 <;> first | exact ⟨_, rfl⟩ | (exfalso; tauto)
  · intro h
    unfold gradientStepWindow
    rw [if_pos h]

/-- The trust region of a run: whatever the outcomes so far, the window is good. -/
theorem C25_run {dim : Nat} (hd : 0 < dim) {incumbent : List K} (hx : incumbent.length = dim)
    (outcomes : List Bool) :
    ∃ w, defineTrustRegion dim incumbent ((TrustRegion.start dim : TrustRegion K).run outcomes).length
      = .ok w ∧ GoodWindow dim incumbent w := by
  obtain ⟨s1, s2, s3⟩ := TrustRegion.start_limits (K := K) hd
  obtain ⟨r1, r2, r3, r4⟩ := TrustRegion.run_lower _ s1 s2 s3 outcomes
  exact C25_trustRegion hd hx (s1.trans r3)

-- A two-dimensional incumbent on the boundary and one outside.
example : defineTrustRegion 2 [(0 : ℚ), 1 / 4] (1 / 4) = .ok ([0, 1 / 8], [1 / 8, 3 / 8]) := by
  decide +kernel
example : defineTrustRegion 2 [(-1 : ℚ), 1] (1 / 4) = .ok ([0, 1 / 2], [0, 1 / 2]) := by
  decide +kernel
example : gradientStepWindow 2 [(0 : ℚ), 1 / 4] (1 / 100) 1 =
    .ok ([0, 49 / 200], [1 / 200, 51 / 200]) := by decide +kernel

end Rodeo
