import Verif.Lemmas.DblSearch
import Mathlib.Data.Rat.Floor

/-! # C112: the designs proposed in double arithmetic -/

set_option linter.unusedSectionVars false

namespace Rodeo

open Spec Dbl

variable {K : Type} [Field K] [LinearOrder K] [IsStrictOrderedRing K] [FloorRing K]

/-! ## The arithmetic -/

/-- The rounding of the model is the one of IEEE 754: the result is a double and no double is nearer, and
of two nearest doubles the one with the even last digit is taken. -/
theorem C112_rounding (x : K) :
    IsNearest x (fl x) ∧ (IsDouble x → fl x = x) ∧ (∀ y, x ≤ y → fl x ≤ fl y) ∧
    (∀ n : ℤ, x / 2 ^ ulpExp x = (n : K) + 1 / 2 → ∃ m : ℤ, m % 2 = 0 ∧ fl x = (m : K) * 2 ^ ulpExp x) := by
  refine ⟨fl_nearest x, fl_of_double, fun y h => fl_mono h, ?_⟩
  intro n hn
  have hf : ⌊(n : K) + 1 / 2⌋ = n := by
    rw [Int.floor_eq_iff]
    constructor
    · linarith
    · have : (1 : K) / 2 < 1 := by norm_num
      linarith
  by_cases hp : n % 2 = 0
  · refine ⟨n, hp, ?_⟩
    unfold fl roundEven
    rw [hn, hf]
    have e : (n : K) + 1 / 2 - (n : K) = 1 / 2 := by ring
    rw [e, if_neg (lt_irrefl _), if_neg (lt_irrefl _), if_pos hp]
  · refine ⟨n + 1, by omega, ?_⟩
    unfold fl roundEven
    rw [hn, hf]
    have e : (n : K) + 1 / 2 - (n : K) = 1 / 2 := by ring
    rw [e, if_neg (lt_irrefl _), if_neg (lt_irrefl _), if_neg hp]

-- the doubles nearest to 0.1 and 0.3, and the famous sum
example : fl (1 / 10 : ℚ) = 3602879701896397 / 2 ^ 55 := by decide +kernel
example : fl (fl (1 / 10) + fl (2 / 10) : ℚ) ≠ fl (3 / 10) := by decide +kernel

/-- A random number between two doubles is between them: the distribution of the standard library never
leaves the interval, whatever the rounding errors of its difference, product and sum. -/
theorem C112_draw {a b u r : K} (ha : IsDouble a) (hb : IsDouble b) (hab : a ≤ b) (hu : IsDouble u)
    (h0 : 0 ≤ u) (h1 : u < 1) (h : Dbl.uniformReal a b u = .ok r) : IsDouble r ∧ a ≤ r ∧ r ≤ b :=
  uniformReal_post ha hb hab hu h0 h1 r h

-- The upper end itself is drawn, although the interval is half open.
example : Dbl.uniformReal (2 ^ 52 : ℚ) (2 ^ 52 + 1) (3 / 4) = .ok (2 ^ 52 + 1) := by decide +kernel

/-! ## The designs -/

/-- The draws of the generators are doubles in [0,1). -/
def DoubleDraws (o : SearchOracle K) : Prop :=
  (∀ i j, IsDouble (o.complete i j) ∧ 0 ≤ o.complete i j ∧ o.complete i j < 1) ∧
  (∀ i j, IsDouble (o.around i j) ∧ 0 ≤ o.around i j ∧ o.around i j < 1)

/-- The bounds and increments are doubles, and the dimension is an `unsigned int`. -/
def DoubleSetup (s : SearchSetup K) : Prop :=
  Doubles s.problem.lb ∧ Doubles s.problem.ub ∧ Doubles s.increments ∧ s.problem.dimension < 2 ^ 32

/-- C112 in full: every design that the search proposes lies in the box. -/
def C112_full (K : Type) [Field K] [LinearOrder K] [IsStrictOrderedRing K] [FloorRing K] : Prop :=
  ∀ (E : Answers K) (s : SearchSetup K) (fuel : Nat) (incumbent : List K) (trLength : K)
    (o : SearchOracle K) (norm dv : List K),
    ValidBox s.problem.dimension s.problem.lb s.problem.ub → DoubleSetup s → DoubleDraws o →
    Dbl.findDesignToSimulate E s fuel incumbent trLength o = .ok (norm, dv) →
    InBox s.problem.lb s.problem.ub dv

theorem findDesignToSimulate_inv {E : Answers K} {s : SearchSetup K} {fuel : Nat} {incumbent : List K}
    {trLength : K} {o : SearchOracle K} {norm dv : List K} (ho : DoubleDraws o)
    (h : Dbl.findDesignToSimulate E s fuel incumbent trLength o = .ok (norm, dv)) :
    InUnit s.problem.dimension norm ∧ ∃ before, Dbl.denormalizeVector norm s.problem.lb s.problem.ub =
      .ok before ∧ Dbl.roundIfDiscrete s.discrete before = .ok dv := by
  unfold Dbl.findDesignToSimulate at h
  obtain ⟨m, e1, h⟩ := bind_ok_inv h
  obtain ⟨r, e2, h⟩ := bind_ok_inv h
  obtain ⟨u1, u2, u3⟩ := mostPromising_post E (fun i j => ho.1 i j) (fun i j => ho.2 i j) m e1
  have u4 := maximizeAcq_post E u1 u2 u3 r e2
  unfold Dbl.designToSimulate at h
  obtain ⟨before, e3, h⟩ := bind_ok_inv h
  obtain ⟨dv', e4, h⟩ := bind_ok_inv h
  obtain ⟨rfl, rfl⟩ := Prod.mk.inj (Except.ok.inj h)
  exact ⟨u4, before, e3, e4⟩

/-- C112, what holds of the code: for every surrogate, incumbent, trust region, draw and schedule, every
proposed design has one value for each parameter; no value is below its lower bound, and none is above its
upper bound by more than `2 ^ (-50)` of the size of the bounds.  Missing: values above the upper bound by
that little do occur (`C112_false`, `C112_false_discrete`). -/
theorem C112_partial {E : Answers K} {s : SearchSetup K} {fuel : Nat} {incumbent : List K}
    {trLength : K} {o : SearchOracle K} {norm dv : List K}
    (hb : ValidBox s.problem.dimension s.problem.lb s.problem.ub) (hs : DoubleSetup s)
    (ho : DoubleDraws o)
    (h : Dbl.findDesignToSimulate E s fuel incumbent trLength o = .ok (norm, dv)) :
    dv.length = s.problem.dimension ∧ Doubles dv ∧
    ∀ (i : Nat) (l u v : K), s.problem.lb[i]? = some l → s.problem.ub[i]? = some u →
      dv[i]? = some v → l ≤ v ∧ v ≤ u + (|l| + |u|) / 2 ^ 50 := by
  obtain ⟨hu, before, e1, e2⟩ := findDesignToSimulate_inv ho h
  obtain ⟨b0, b1, b2, b3⟩ := hb
  obtain ⟨d1, d2, d3, d4⟩ := hs
  obtain ⟨p1, -, -, p4⟩ := denormalizeVector_post b0 d4 hu d1 d2 (fun i l u a b => (b3 i l u a b).le) e1
  obtain ⟨r1, r2⟩ := roundIfDiscrete_post dv e2
  have key : ∀ (i : Nat) (l u v : K), s.problem.lb[i]? = some l → s.problem.ub[i]? = some u →
      dv[i]? = some v → IsDouble v ∧ l ≤ v ∧ v ≤ u + (|l| + |u|) / 2 ^ 50 := by
    intro i l u v hl hu' hv
    have hld := d1 l (List.mem_of_getElem? hl)
    have hud := d2 u (List.mem_of_getElem? hu')
    have hlu := (b3 i l u hl hu').le
    rcases r2 i v l u hv hl hu' with h | ⟨dx, -, hdx, hg⟩
    · have hi : i < norm.length := by
        have := (List.getElem?_eq_some_iff.1 h).1
        rw [p1] at this
        rw [hu.1]; exact this
      obtain ⟨q0, q1, q2, q3⟩ := p4 i l u v _ hl hu' (List.getElem?_eq_getElem hi) h
      refine ⟨q0, q1, ?_⟩
      rcases lt_or_ge (fl (norm[i] * (s.problem.dimension : K))) 1 with h1 | h1
      · have : 0 ≤ (|l| + |u|) / 2 ^ 50 := by positivity
        have := q2 h1
        linarith
      · rw [q3 h1]
        exact excess_closed hld hud hlu
    · refine ⟨?_, gridValue_bounds hld hud hlu (d3 dx hdx) hg⟩
      obtain ⟨k, rfl, -⟩ := hg
      exact fl_isDouble _
  refine ⟨r1.trans p1, ?_, fun i l u v a b c => (key i l u v a b c).2⟩
  intro v hv
  obtain ⟨i, hi, rfl⟩ := List.getElem_of_mem hv
  have hi' : i < s.problem.dimension := by omega
  exact (key i _ _ _ (List.getElem?_eq_getElem (by omega)) (List.getElem?_eq_getElem (by omega))
    (List.getElem?_eq_getElem hi)).1

/-- Which boxes are safe: a parameter that is not discrete stays within its bounds if the computed
`(upper - lower) + lower` does not exceed the upper bound; and whatever the bounds, it stays within them
unless its normalized value is the greatest one, in which case it is that number. -/
theorem C112_safe {E : Answers K} {s : SearchSetup K} {fuel : Nat} {incumbent : List K}
    {trLength : K} {o : SearchOracle K} {norm dv : List K}
    (hb : ValidBox s.problem.dimension s.problem.lb s.problem.ub) (hs : DoubleSetup s)
    (ho : DoubleDraws o)
    (h : Dbl.findDesignToSimulate E s fuel incumbent trLength o = .ok (norm, dv))
    {i : Nat} {l u v t : K} (hl : s.problem.lb[i]? = some l) (hu : s.problem.ub[i]? = some u)
    (ht : norm[i]? = some t) (hv : dv[i]? = some v) (hi : i ∉ s.indices) :
    (fl (fl (u - l) + l) ≤ u → l ≤ v ∧ v ≤ u) ∧
    (fl (t * (s.problem.dimension : K)) < 1 → l ≤ v ∧ v ≤ u) ∧
    (1 ≤ fl (t * (s.problem.dimension : K)) → v = fl (fl (u - l) + l)) := by
  obtain ⟨hn, before, e1, e2⟩ := findDesignToSimulate_inv ho h
  obtain ⟨b0, b1, b2, b3⟩ := hb
  obtain ⟨d1, d2, d3, d4⟩ := hs
  obtain ⟨-, -, -, p4⟩ := denormalizeVector_post b0 d4 hn d1 d2 (fun i l u a b => (b3 i l u a b).le) e1
  obtain ⟨-, r2⟩ := roundIfDiscrete_post dv e2
  have hbv : before[i]? = some v := by
    rcases r2 i v l u hv hl hu with h | ⟨dx, hm, -, -⟩
    · exact h
    · exact absurd hm hi
  obtain ⟨-, q1, q2, q3⟩ := p4 i l u v t hl hu ht hbv
  refine ⟨?_, fun h1 => ⟨q1, q2 h1⟩, q3⟩
  intro hc
  refine ⟨q1, ?_⟩
  rcases lt_or_ge (fl (t * (s.problem.dimension : K))) 1 with h1 | h1
  · exact q2 h1
  · rw [q3 h1]; exact hc

/-- So a problem without discrete parameters whose bounds pass that test never leaves the box. -/
theorem C112_box {E : Answers K} {s : SearchSetup K} {fuel : Nat} {incumbent : List K}
    {trLength : K} {o : SearchOracle K} {norm dv : List K}
    (hb : ValidBox s.problem.dimension s.problem.lb s.problem.ub) (hs : DoubleSetup s)
    (ho : DoubleDraws o) (hi : s.indices = [])
    (htest : ∀ (i : Nat) (l u : K), s.problem.lb[i]? = some l → s.problem.ub[i]? = some u →
      fl (fl (u - l) + l) ≤ u)
    (h : Dbl.findDesignToSimulate E s fuel incumbent trLength o = .ok (norm, dv)) :
    InBox s.problem.lb s.problem.ub dv := by
  have h1 := (C112_partial hb hs ho h).1
  have h2 := (findDesignToSimulate_inv ho h).1.1
  refine ⟨h1.trans hb.2.1.symm, h1.trans hb.2.2.1.symm, ?_⟩
  intro i l u v hl hu hv
  have hi' : i < norm.length := by
    have := (List.getElem?_eq_some_iff.1 hv).1; omega
  exact (C112_safe hb hs ho h hl hu (List.getElem?_eq_getElem hi') hv (by rw [hi]; simp)).1
    (htest i l u hl hu)

/-- The test is passed whenever the width of the interval is a double, in particular if the lower bound
is zero. -/
theorem C112_test {l u : K} (hu : IsDouble u) :
    (IsDouble (u - l) → fl (fl (u - l) + l) = u) ∧ (l = 0 → fl (fl (u - l) + l) = u) := by
  have h1 : IsDouble (u - l) → fl (fl (u - l) + l) = u := by
    intro h
    rw [fl_of_double h, sub_add_cancel, fl_of_double hu]
  refine ⟨h1, ?_⟩
  rintro rfl
  exact h1 (by rwa [sub_zero])

/-! ## Witnesses -/

namespace DblDemo

/-- A thread. -/
def exec : Execution := ⟨1, fun _ => 0, []⟩

/-- The oracle: no random candidates are needed. -/
def oracle : SearchOracle ℚ := ⟨fun _ _ => 0, fun _ _ => 0, exec, exec⟩

/-- An acquisition function that grows with the first parameter. -/
def growing : Answers ℚ := ⟨fun x => 2 ^ 20 * x.headD 0, fun x => 2 ^ 20 * x.headD 0⟩

/-- One parameter between -3 and 0.1. -/
def setup : SearchSetup ℚ := ⟨⟨1, [-3], [lit (1 / 10)], true, []⟩, [], [], 0, 1⟩

/-- One discrete parameter between 0 and 1.7 with step 0.1. -/
def setupDiscrete : SearchSetup ℚ := ⟨⟨1, [0], [lit (17 / 10)], true, []⟩, [lit (1 / 10)], [0], 0, 1⟩

/-- One parameter between -2 and 2. -/
def setupSafe : SearchSetup ℚ := ⟨⟨1, [-2], [2], true, []⟩, [], [], 0, 1⟩

theorem draws : DoubleDraws oracle := by
  refine ⟨fun i j => ⟨isDouble_zero, le_rfl, by norm_num [oracle]⟩,
    fun i j => ⟨isDouble_zero, le_rfl, by norm_num [oracle]⟩⟩

theorem one (a : ℚ) (h : IsDouble a) : Doubles [a] := by
  intro x hx
  rw [List.mem_singleton.1 hx]; exact h

theorem isDouble_int (n : ℤ) (h : |n| < 2 ^ 53) : IsDouble (n : ℚ) := ⟨n, 0, h, by norm_num, by simp⟩

theorem box {a b : ℚ} (h : a < b) : ValidBox 1 [a] [b] := by
  refine ⟨by norm_num, rfl, rfl, ?_⟩
  intro i l u hl hu
  cases i with
  | zero =>
    simp only [List.getElem?_cons_zero, Option.some.injEq] at hl hu
    rw [← hl, ← hu]; exact h
  | succ i => simp at hl

theorem setup_ok : ValidBox 1 setup.problem.lb setup.problem.ub ∧ DoubleSetup setup :=
  ⟨box (by decide +kernel), one _ (isDouble_int (-3) (by norm_num)), one _ (fl_isDouble _),
    fun x hx => (by cases hx), by norm_num [setup]⟩

theorem setupDiscrete_ok :
    ValidBox 1 setupDiscrete.problem.lb setupDiscrete.problem.ub ∧ DoubleSetup setupDiscrete :=
  ⟨box (by decide +kernel), one _ isDouble_zero, one _ (fl_isDouble _), one _ (fl_isDouble _),
    by norm_num [setupDiscrete]⟩

theorem setupSafe_ok : ValidBox 1 setupSafe.problem.lb setupSafe.problem.ub ∧ DoubleSetup setupSafe :=
  ⟨box (by norm_num), one _ (isDouble_int (-2) (by norm_num)), one _ (isDouble_int 2 (by norm_num)),
    fun x hx => (by cases hx), by norm_num [setupSafe]⟩

theorem run : Dbl.findDesignToSimulate growing setup 1 [0] 1 oracle =
    .ok ([1], [fl (fl (fl (1 / 10) - (-3)) + (-3))]) := by decide +kernel

theorem runDiscrete : Dbl.findDesignToSimulate growing setupDiscrete 1 [0] 1 oracle =
    .ok ([1], [fl (17 * fl (1 / 10))]) := by decide +kernel

theorem runSafe : Dbl.findDesignToSimulate growing setupSafe 1 [0] 1 oracle = .ok ([1], [2]) := by
  decide +kernel

end DblDemo

/-- C112 fails: with one parameter between -3 and 0.1 the search proposes 0.10000000000000009. -/
theorem C112_false : ¬ C112_full ℚ := by
  intro h
  have := h DblDemo.growing DblDemo.setup 1 [0] 1 DblDemo.oracle _ _ DblDemo.setup_ok.1 DblDemo.setup_ok.2
    DblDemo.draws DblDemo.run
  have h2 := (this.2.2 0 _ _ _ rfl rfl rfl).2
  exact absurd h2 (by decide +kernel)

/-- It fails for discrete parameters even if the lower bound is zero: with values between 0 and 1.7 in
steps of 0.1 the search proposes 1.7000000000000002. -/
theorem C112_false_discrete : ∃ norm v, Dbl.findDesignToSimulate DblDemo.growing DblDemo.setupDiscrete 1 [0]
    1 DblDemo.oracle = .ok (norm, [v]) ∧ DblDemo.setupDiscrete.problem.ub = [fl (17 / 10)] ∧
    fl (17 / 10) < v :=
  ⟨_, _, DblDemo.runDiscrete, rfl, by decide +kernel⟩

/-- What follows from it: a design exactly at the upper bound of 0.1 satisfies the box constraint, but once
normalized and denormalized it does not; when it is the best design, the search around it is skipped,
whatever the surrogates and the number of candidates. -/
theorem C112_skipped : ∃ (p : Problem ℚ) (ub : ℚ), p.lb = [-3] ∧ p.ub = [ub] ∧
    p.checkBox [ub] = .ok true ∧ Dbl.normalizeVector [ub] p.lb p.ub = .ok [1] ∧
    ∀ (E : Answers ℚ) (n : Nat) (lb' ub' : List ℚ) (x : Execution) (u : Nat → Nat → ℚ) (best : BODesign ℚ),
      Dbl.searchAround E p n [1] lb' ub' x u best = .ok best := by
  refine ⟨DblDemo.setup.problem, fl (1 / 10), rfl, rfl, by decide +kernel, by decide +kernel, ?_⟩
  intro E n lb' ub' x u best
  unfold Dbl.searchAround
  refine bind_eq (a := [fl (fl (fl (1 / 10) - (-3)) + (-3))]) (by decide +kernel) ?_
  refine bind_eq (a := false) (by decide +kernel) ?_
  rfl

-- The hypotheses of the positive theorems are met by the three runs.
example : (∀ (i : Nat) (l u v : ℚ), DblDemo.setup.problem.lb[i]? = some l → DblDemo.setup.problem.ub[i]? = some u →
    [fl (fl (fl (1 / 10 : ℚ) - (-3)) + (-3))][i]? = some v → l ≤ v ∧ v ≤ u + (|l| + |u|) / 2 ^ 50) :=
  (C112_partial DblDemo.setup_ok.1 DblDemo.setup_ok.2 DblDemo.draws DblDemo.run).2.2

example : InBox [(-2 : ℚ)] [2] [2] :=
  C112_box (s := DblDemo.setupSafe) DblDemo.setupSafe_ok.1 DblDemo.setupSafe_ok.2 DblDemo.draws rfl (by
    intro i l u hl hu
    cases i with
    | zero =>
      simp only [DblDemo.setupSafe, List.getElem?_cons_zero, Option.some.injEq] at hl hu
      rw [← hl, ← hu]; decide +kernel
    | succ i => simp [DblDemo.setupSafe] at hl) DblDemo.runSafe

example : fl (fl ((2 : ℚ) - (-2)) + (-2)) = 2 :=
  (C112_test (DblDemo.isDouble_int 2 (by norm_num))).1 ⟨4, 0, by norm_num, by norm_num, by norm_num⟩

example : (0 : ℚ) ≤ 3 ∧ (3 : ℚ) ≤ 8 :=
  (C112_draw (u := 3 / 8) isDouble_zero (DblDemo.isDouble_int 8 (by norm_num)) (by norm_num)
    ⟨3, -3, by norm_num, by norm_num, by norm_num⟩ (by norm_num) (by norm_num)
    (by decide +kernel)).2

end Rodeo
