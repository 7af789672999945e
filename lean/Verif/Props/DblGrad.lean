import Verif.Lemmas.DblGrad
import Verif.Lemmas.GradOpt
import Mathlib.Analysis.Calculus.MeanValue
import Mathlib.Analysis.Calculus.Deriv.MeanValue
import Mathlib.Data.Rat.Floor

/-! # C133: the gradient optimizer in double arithmetic -/

set_option linter.unusedSectionVars false

namespace Rodeo

open Finset Spec Dbl

variable {K : Type} [Field K] [LinearOrder K] [IsStrictOrderedRing K] [FloorRing K]

/-! ## Finite differences -/

/-- C133: with a relative step of at least `2 ^ -40` (the program's default is `1e-3`), central differences make
two evaluations per coordinate, leave the point as it was, and entry `i` of the gradient is the slope between the
two points evaluated, which differ and are near `(1 + e) x` and `(1 - e) x`, with relative error
`1 / (2 ^ 53 e)`. -/
theorem C133_central {E : GEnv K} {dim n : Nat} {e : K} {p : GPoint K} {s : GradOpt.FDState K}
    (hf : ∀ x, IsDouble (E.f x)) (hx : Doubles p.x) (hl : dim ≤ p.x.length)
    (hlow : ∀ i, i < dim → 2 ^ (-900 : ℤ) ≤ |vecFun p.x i|) (he1 : 1 / 2 ^ 40 ≤ e) (he : e ≤ 1 / 10)
    (h : Dbl.central E dim e n p = .ok s) :
    s.evals = n + 2 * dim ∧ s.point.x = p.x ∧ s.grad.length = dim ∧
    ∀ i, i < dim → ∃ a b : K, a ≠ b ∧ |a - (1 + e) * vecFun p.x i| ≤ |vecFun p.x i| / 2 ^ 52 ∧
      |b - (1 - e) * vecFun p.x i| ≤ |vecFun p.x i| / 2 ^ 51 ∧
      |vecFun s.grad i - (E.f (p.x.set i a) - E.f (p.x.set i b)) / (a - b)| ≤
        1 / (2 ^ 53 * e) * |(E.f (p.x.set i a) - E.f (p.x.set i b)) / (a - b)| + 1 / 2 ^ 1075 := by
  have hp : Post (Dbl.central E dim e n p) (fun (s : GradOpt.FDState K) => s.evals = n + 2 * dim ∧ s.point.x = p.x ∧ s.grad.length = dim ∧
      ∀ i, i < dim → ∃ a b : K, a ≠ b ∧ |a - (1 + e) * vecFun p.x i| ≤ |vecFun p.x i| / 2 ^ 52 ∧
        |b - (1 - e) * vecFun p.x i| ≤ |vecFun p.x i| / 2 ^ 51 ∧
        |vecFun s.grad i - (E.f (p.x.set i a) - E.f (p.x.set i b)) / (a - b)| ≤
          1 / (2 ^ 53 * e) * |(E.f (p.x.set i a) - E.f (p.x.set i b)) / (a - b)| + 1 / 2 ^ 1075) := by
    unfold Dbl.central
    refine forRange_post' (fun j (s : GradOpt.FDState K) => s.evals = n + 2 * j ∧ s.point.x = p.x ∧ s.grad.length = j ∧
      ∀ i, i < j → ∃ a b : K, a ≠ b ∧ |a - (1 + e) * vecFun p.x i| ≤ |vecFun p.x i| / 2 ^ 52 ∧
        |b - (1 - e) * vecFun p.x i| ≤ |vecFun p.x i| / 2 ^ 51 ∧
        |vecFun s.grad i - (E.f (p.x.set i a) - E.f (p.x.set i b)) / (a - b)| ≤
          1 / (2 ^ 53 * e) * |(E.f (p.x.set i a) - E.f (p.x.set i b)) / (a - b)| + 1 / 2 ^ 1075)
      ⟨rfl, rfl, rfl, fun i hi => absurd hi (Nat.not_lt_zero _)⟩ ?_
    rintro j s hj ⟨h1, h2, h3, h4⟩
    refine (centralBody_post (by rw [h2]; omega)).mono ?_
    rintro s' ⟨q1, q2, hh, a, b, q, e1, e2, e3, e4, e5⟩
    rw [h2] at e1 e2 e4
    refine ⟨by omega, q2.trans h2, by rw [e5, List.length_append, h3]; rfl, fun i hi => ?_⟩
    rcases Nat.lt_succ_iff_lt_or_eq.1 hi with hi | rfl
    · obtain ⟨a, b, r1, r2, r3, r4⟩ := h4 i hi
      refine ⟨a, b, r1, r2, r3, ?_⟩
      have : vecFun s'.grad i = vecFun s.grad i := by
        rw [e5]; unfold vecFun; rw [List.getD_eq_getElem?_getD, List.getD_eq_getElem?_getD, List.getElem?_append_left (by omega)]
      rwa [this]
    · have hxi : IsDouble (vecFun p.x i) := by
        have hi' : i < p.x.length := by omega
        rw [show vecFun p.x i = p.x[i] by simp [vecFun, hi']]
        exact hx _ (List.getElem_mem hi')
      obtain ⟨r0, r1, r2, r3, r4⟩ := entry_near hxi (hlow i hj) he1 he (hf (p.x.set i a)) (hf (p.x.set i b))
      have hq : vecFun s'.grad i = q := by
        rw [e5]; unfold vecFun
        rw [List.getD_eq_getElem?_getD, List.getElem?_append_right (by omega), h3]; simp
      subst e1
      rw [r0] at e3 e4
      subst e2
      subst e3
      refine ⟨_, _, r3, r1, r2, ?_⟩
      rw [hq, e4]
      exact r4
  exact hp s h

/-- C133: if the values are those of a differentiable function up to `d`, entry `i` is a derivative of this function
at a point at most a little farther than the relative step away, up to rounding and `2 d / (e |x|)`. -/
theorem C133_derivative {E : GEnv ℝ} {dim n i : Nat} {e d : ℝ} {p : GPoint ℝ} {s : GradOpt.FDState ℝ} {F F' : ℝ → ℝ}
    (hf : ∀ x, IsDouble (E.f x)) (hx : Doubles p.x) (hl : dim ≤ p.x.length)
    (hlow : ∀ i, i < dim → 2 ^ (-900 : ℤ) ≤ |vecFun p.x i|) (he1 : 1 / 2 ^ 40 ≤ e) (he : e ≤ 1 / 10)
    (h : Dbl.central E dim e n p = .ok s) (hi : i < dim) (hF : ∀ t, HasDerivAt F (F' t) t)
    (hd : ∀ t, |E.f (p.x.set i t) - F t| ≤ d) :
    ∃ z, |z - vecFun p.x i| ≤ (e + 1 / 2 ^ 51) * |vecFun p.x i| ∧
      |vecFun s.grad i - F' z| ≤ 1 / (2 ^ 53 * e) * |F' z| + 2 * d / (e * |vecFun p.x i|) + 1 / 2 ^ 1075 := by
  obtain ⟨-, -, -, H⟩ := C133_central hf hx hl hlow he1 he h
  obtain ⟨a, b, hab, ha, hb, hq⟩ := H i hi
  set x := vecFun p.x i with hxd
  have hx0 : 0 < |x| := (zp _).trans_le (hlow i hi)
  have hd0 : 0 ≤ d := (abs_nonneg _).trans (hd 0)
  have he0 : 0 < e := lt_of_lt_of_le (by positivity) he1
  -- mean value theorem
  have mvt : ∃ z, min a b ≤ z ∧ z ≤ max a b ∧ F' z = (F a - F b) / (a - b) := by
    have hc : Continuous F := continuous_iff_continuousAt.2 fun t => (hF t).continuousAt
    rcases lt_or_gt_of_ne hab with hlt | hlt
    · obtain ⟨z, hz, e1⟩ := exists_hasDerivAt_eq_slope F F' hlt hc.continuousOn (fun t _ => hF t)
      refine ⟨z, by rw [min_eq_left hlt.le]; exact hz.1.le, by rw [max_eq_right hlt.le]; exact hz.2.le, ?_⟩
      rw [e1, ← neg_sub (F a), ← neg_sub a, neg_div_neg_eq]
    · obtain ⟨z, hz, e1⟩ := exists_hasDerivAt_eq_slope F F' hlt hc.continuousOn (fun t _ => hF t)
      exact ⟨z, by rw [min_eq_right hlt.le]; exact hz.1.le, by rw [max_eq_left hlt.le]; exact hz.2.le, e1⟩
  obtain ⟨z, hz1, hz2, hz3⟩ := mvt
  have hax : |a - x| ≤ (e + 1 / 2 ^ 51) * |x| := by
    have h1 : a - x = (a - (1 + e) * x) + e * x := by ring
    rw [h1]
    refine (abs_add_le _ _).trans ?_
    rw [abs_mul, abs_of_pos he0]
    have : |x| / 2 ^ 52 ≤ 1 / 2 ^ 51 * |x| := by rw [div_eq_mul_one_div, mul_comm]; exact mul_le_mul_of_nonneg_right (by norm_num) hx0.le
    linarith
  have hbx : |b - x| ≤ (e + 1 / 2 ^ 51) * |x| := by
    have h1 : b - x = (b - (1 - e) * x) + -(e * x) := by ring
    rw [h1]
    refine (abs_add_le _ _).trans ?_
    rw [abs_neg, abs_mul, abs_of_pos he0]
    have : |x| / 2 ^ 51 = 1 / 2 ^ 51 * |x| := by ring
    linarith
  refine ⟨z, ?_, ?_⟩
  · rw [abs_le] at hax hbx ⊢
    constructor
    · have : min a b - x ≥ -((e + 1 / 2 ^ 51) * |x|) := by rcases min_choice a b with h1 | h1 <;> rw [h1] <;> linarith
      linarith
    · have : max a b - x ≤ (e + 1 / 2 ^ 51) * |x| := by rcases max_choice a b with h1 | h1 <;> rw [h1] <;> linarith
      linarith
  · -- the width
    have hw : 19 / 10 * (e * |x|) ≤ |a - b| := by
      have h1 : 2 * e * x = (a - b) - ((a - (1 + e) * x) - (b - (1 - e) * x)) := by ring
      have h2 : |2 * e * x| ≤ |a - b| + (|x| / 2 ^ 52 + |x| / 2 ^ 51) := by
        rw [h1]
        refine (abs_sub _ _).trans (add_le_add le_rfl ((abs_sub _ _).trans (add_le_add ha hb)))
      rw [abs_mul, abs_of_pos (by positivity : 0 < 2 * e)] at h2
      have h3 : 1 / 2 ^ 40 * |x| ≤ e * |x| := mul_le_mul_of_nonneg_right he1 hx0.le
      norm_num at h2 h3 ⊢
      linarith
    have hw0 : 0 < |a - b| := lt_of_lt_of_le (by positivity) hw
    set Q := (E.f (p.x.set i a) - E.f (p.x.set i b)) / (a - b) with hQ
    have hQF : |Q - F' z| ≤ 2 * d / (19 / 10 * (e * |x|)) := by
      have h1 : Q - F' z = ((E.f (p.x.set i a) - F a) - (E.f (p.x.set i b) - F b)) / (a - b) := by
        rw [hQ, hz3]; ring
      rw [h1, abs_div]
      refine div_le_div₀ (by positivity) ((abs_sub _ _).trans ?_) (by positivity) hw
      linarith [hd a, hd b]
    have hv : 1 / (2 ^ 53 * e) ≤ 1 / 2 ^ 12 := by
      rw [div_le_div_iff₀ (by positivity) (by positivity)]
      norm_num at he1 ⊢; linarith
    have hv0 : 0 < 1 / (2 ^ 53 * e) := by positivity
    set v := 1 / (2 ^ 53 * e) with hvd
    have hB : 2 * d / (19 / 10 * (e * |x|)) = 10 / 19 * (2 * d / (e * |x|)) := by field_simp
    rw [hB] at hQF
    set B := 2 * d / (e * |x|) with hBd
    have hB0 : 0 ≤ B := by positivity
    have h2 : |Q| ≤ |F' z| + 10 / 19 * B := by
      have := abs_sub_abs_le_abs_sub Q (F' z)
      linarith
    have h3 : v * |Q| ≤ v * |F' z| + 1 / 2 ^ 12 * (10 / 19 * B) := by
      have h4 := mul_le_mul_of_nonneg_left h2 hv0.le
      have h5 : v * (10 / 19 * B) ≤ 1 / 2 ^ 12 * (10 / 19 * B) := mul_le_mul_of_nonneg_right hv (by positivity)
      linarith
    have h6 : |vecFun s.grad i - F' z| ≤ |vecFun s.grad i - Q| + |Q - F' z| := abs_sub_le _ _ _
    norm_num at h3
    linarith

/-! ## Line search -/

/-- C133: a line search that returns does so after at most 2100 evaluations: the step size is zero from then on. -/
theorem C133_partial {E : GEnv K} {o o' : GradOpt K} {fuel : Nat} (hx : Doubles o.current.x)
    (hb : ∀ v ∈ o.current.x, |v| < 2 ^ 1024) (hs : |o.maxStep| ≤ 2 ^ 1024)
    (h : Dbl.lineSearch E fuel o = .ok o') : Dbl.lineSearch E 2100 o = .ok o' := by
  unfold Dbl.lineSearch at h ⊢
  split_ifs at h ⊢ with h0
  obtain ⟨r, hr, h1⟩ := bind_ok_inv h
  refine bind_eq (backtrack_early (k := 2098) hx hb le_rfl ?_ hr) h1
  refine hs.trans (le_of_eq ?_)
  rw [← zp_nat]
  norm_num

/-- C133: what a line search that returns has found: a point with a smaller value, which is the current point minus
the gradient times a step size, up to rounding. -/
theorem C133_descends {E : GEnv K} {o o' : GradOpt K} {fuel : Nat} (hsd : IsDouble o.maxStep)
    (h : Dbl.lineSearch E fuel o = .ok o') :
    ∃ y t, o'.accepted = o.accepted ++ [y] ∧ o'.next.x = y ∧ E.f y < o.current.obj ∧ Doubles y ∧
      y.length = o.current.x.length ∧ IsDouble t ∧ 0 ≤ t ∧ t ≤ o.maxStep ∧
      ∀ i, i < y.length → vecFun y i = fl (vecFun o.current.x i - fl (vecFun o.current.gradient i * t)) := by
  unfold Dbl.lineSearch at h
  split_ifs at h with h0
  obtain ⟨r, hr, h1⟩ := bind_ok_inv h
  obtain ⟨c, -, h2⟩ := bind_ok_inv h1
  obtain rfl := Except.ok.inj h2
  obtain ⟨-, q2, -, t, q3, q4, q5, q6⟩ := backtrack_post hr hsd (not_le.1 h0).le
  obtain ⟨-, m1, m2⟩ := moved_post q6
  exact ⟨r.2.x, t, rfl, rfl, q2, moved_doubles q6, m1, q3, q4, q5, fun i hi => m2 i (by omega)⟩

/-- C133: if no point of doubles is better than the current one, the line search does not return. -/
theorem C133_stuck {E : GEnv K} {o o' : GradOpt K} {fuel : Nat} (hsd : IsDouble o.maxStep)
    (hno : ∀ y, Doubles y → y.length = o.current.x.length → ¬ E.f y < o.current.obj) :
    Dbl.lineSearch E fuel o ≠ .ok o' := by
  intro h
  obtain ⟨y, t, -, -, h1, h2, h3, -⟩ := C133_descends hsd h
  exact hno y h2 h3 h1

/-- C133: neither does the optimization, if the norm of the first gradient is not below the tolerance. -/
theorem C133_stuck_optimize {sqrt : K → K} {E : GEnv K} {o o' : GradOpt K} {fuel rounds : Nat} {g : List K → Nat → K}
    (hsd : IsDouble o.maxStep) (hfd : o.fd = .off) (hg : E.g = some g)
    (hnorm : ∀ s, Dbl.sumSq ((List.range o.dim).map (g o.current.x)) = .ok s → ¬ fl (sqrt s) < o.tol)
    (hno : ∀ y, Doubles y → y.length = o.current.x.length → ¬ E.f y < E.f o.current.x) :
    Dbl.gradOptimize sqrt E fuel rounds o ≠ .ok o' := by
  intro h
  unfold Dbl.gradOptimize at h
  obtain ⟨-, -, h1⟩ := bind_ok_inv h
  obtain ⟨c, hc, h2⟩ := bind_ok_inv h1
  obtain ⟨r, hr, h3⟩ := bind_ok_inv hc
  unfold Dbl.gradientInto at hr
  rw [hfd] at hr
  dsimp only [GradOpt.evalObj] at hr
  rw [hg] at hr
  obtain rfl := Except.ok.inj hr
  obtain ⟨s, hs, h4⟩ := bind_ok_inv h3
  obtain rfl := Except.ok.inj h4
  rcases rounds with _ | rounds
  · cases h2
  · unfold Dbl.gradLoop at h2
    obtain ⟨nm, hn, h5⟩ := bind_ok_inv h2
    obtain rfl := dbl_ok hn
    rw [if_neg (hnorm s hs)] at h5
    obtain ⟨o1, ho1, -⟩ := bind_ok_inv h5
    refine absurd ho1 (C133_stuck ?_ ?_)
    · exact hsd
    · exact hno

/-! ## What is false -/

/-- A parabola `a (x - c) ^ 2` with correctly rounded values and derivatives. -/
def exParabola (a c : ℚ) : GEnv ℚ where
  f := fun x => fl (a * (vecFun x 0 - c) ^ 2)
  g := some fun x _ => fl (2 * a * (vecFun x 0 - c))

/-- An optimizer in one dimension that stands at `x`. -/
def exAt (a c x step : ℚ) : GradOpt ℚ :=
  { (GradOpt.new : GradOpt ℚ) with
    dim := 1, boundsSet := true, initialSet := true, maxStep := step, maxEvals := 100
    current := ⟨[x], [fl (2 * a * (x - c))], fl (a * (x - c) ^ 2), fl (fl (2 * a * (x - c)) ^ 2)⟩ }

/-- No double is better than the double nearest to `1/3`. -/
theorem exParabola_best (y : List ℚ) (hy : Doubles y) (hl : y.length = 1) :
    ¬ (exParabola (2 ^ 80) (1 / 3)).f y < (exParabola (2 ^ 80) (1 / 3)).f [fl (1 / 3)] := by
  rw [not_lt]
  refine fl_mono (mul_le_mul_of_nonneg_left ?_ (by norm_num))
  have hyd : IsDouble (vecFun y 0) := by
    have hl' : 0 < y.length := by rw [hl]; exact Nat.one_pos
    rw [show vecFun y 0 = y[0] by simp [vecFun, hl']]
    exact hy _ (List.getElem_mem hl')
  have := (fl_nearest (1 / 3 : ℚ)).2 _ hyd
  exact sq_le_sq.2 this

/-- The full claim: on every parabola, where the gradient is at least the tolerance, the line search returns. -/
def C133_full : Prop :=
  ∀ a c x step : ℚ, 0 < a → IsDouble x → IsDouble step → 0 < step → step ≤ 1 →
    (exAt a c x step).tol ≤ |fl (2 * a * (x - c))| →
    ∃ fuel o', Dbl.lineSearch (exParabola a c) fuel (exAt a c x step) = .ok o'

/-- C133: on `2 ^ 80 (x - 1/3) ^ 2` at the double nearest to `1/3` it does not: the gradient is larger than `2 ^ 24`,
but no double is better. -/
theorem C133_false : ¬ C133_full := by
  intro h
  obtain ⟨fuel, o', e⟩ := h (2 ^ 80) (1 / 3) (fl (1 / 3)) 1 (by norm_num) (fl_isDouble _) isDouble_one (by norm_num)
    le_rfl (by decide +kernel)
  refine C133_stuck (o := exAt (2 ^ 80) (1 / 3) (fl (1 / 3)) 1) isDouble_one ?_ e
  exact fun y hy hl => exParabola_best y hy hl

/-- C133: a relative step that is accepted can be so small that both points are the current one: then every gradient
is zero, whatever the function. -/
theorem C133_false_step {E : GEnv ℚ} : Dbl.central E 1 (1 / 2 ^ 60) 0 ⟨[1], [], 0, 0⟩ =
    .ok ⟨2, ⟨[1], [], E.f [1], 0⟩, [0]⟩ := by
  have e1 : Dbl.mul (1 / 2 ^ 60 : ℚ) 1 = .ok (1 / 2 ^ 60) := by decide +kernel
  have e2 : Dbl.add (1 : ℚ) (1 / 2 ^ 60) = .ok 1 := by decide +kernel
  have e3 : Dbl.mul (2 : ℚ) (1 / 2 ^ 60) = .ok (1 / 2 ^ 59) := by decide +kernel
  have e4 : Dbl.sub (1 : ℚ) (1 / 2 ^ 59) = .ok 1 := by decide +kernel
  have e5 : Dbl.sub (E.f [1]) (E.f [1]) = .ok 0 := by
    unfold Dbl.sub Dbl.dbl
    rw [sub_self, fl_zero, if_pos (by norm_num)]
  have e6 : Dbl.div (0 : ℚ) (1 / 2 ^ 59) = .ok 0 := by decide +kernel
  have e0 : vat ([1] : List ℚ) 0 = .ok 1 := rfl
  have hbody : Dbl.centralBody E (1 / 2 ^ 60) 0 ⟨0, ⟨[1], [], 0, 0⟩, []⟩ = .ok ⟨2, ⟨[1], [], E.f [1], 0⟩, [0]⟩ := by
    unfold Dbl.centralBody
    exact bind_eq e0 (bind_eq e1 (bind_eq e2 (bind_eq e3 (bind_eq e4 (bind_eq e5 (bind_eq e6 rfl))))))
  show forRange 1 (Dbl.centralBody E (1 / 2 ^ 60)) ⟨0, ⟨[1], [], 0, 0⟩, []⟩ = _
  simp only [forRange, loopFrom, hbody]

/-! ## Concrete cases -/

/-- The optimization that starts there never ends, whatever the root function is as long as roots of numbers above 1
are above 1. -/
example (sqrt : ℚ → ℚ) (hs : ∀ s, 1 ≤ s → 1 ≤ sqrt s) (fuel rounds : Nat) (o' : GradOpt ℚ) :
    Dbl.gradOptimize sqrt (exParabola (2 ^ 80) (1 / 3)) fuel rounds (exAt (2 ^ 80) (1 / 3) (fl (1 / 3)) 1) ≠ .ok o' := by
  refine C133_stuck_optimize (g := fun x _ => fl (2 * 2 ^ 80 * (vecFun x 0 - 1 / 3))) isDouble_one rfl rfl ?_
    (fun y hy hl => exParabola_best y hy hl)
  intro s h
  have h1 : (match Dbl.sumSq ((List.range 1).map (fun (_ : Nat) => (fl (2 * 2 ^ 80 * ((fl (1 / 3) : ℚ) - 1 / 3)) : ℚ))) with
    | .ok s => decide (1 ≤ s)
    | .error _ => true) = true := by decide +kernel
  have h2 : Dbl.sumSq ((List.range 1).map (fun (_ : Nat) => (fl (2 * 2 ^ 80 * ((fl (1 / 3) : ℚ) - 1 / 3)) : ℚ))) = .ok s := h
  rw [h2] at h1
  have h3 : (1 : ℚ) ≤ fl (sqrt s) := double_le_fl isDouble_one (hs s (of_decide_eq_true h1))
  rw [not_lt]
  refine le_trans ?_ h3
  show (1 : ℚ) / 10 ^ 5 ≤ 1
  norm_num

/-- A search that returns, on `x ^ 2` from 1 with step size 2: the third point is accepted. -/
example : (match Dbl.lineSearch (exParabola 1 0) 5 (exAt 1 0 1 2) with
    | .ok o => decide (o.accepted = [[0]] ∧ o.evals = 3)
    | .error _ => false) = true := by decide +kernel

/-- A gradient by central differences: `x ^ 2` at 3 and `lit 1e-3`. -/
example : (match Dbl.central (exParabola 1 0) 1 (lit (1 / 10 ^ 3)) 0 ⟨[3], [], 0, 0⟩ with
    | .ok s => decide (|vecFun s.grad 0 - 6| ≤ 1 / 10 ^ 10 ∧ vecFun s.grad 0 ≠ 6)
    | .error _ => false) = true := by decide +kernel

/-- The default step meets the bounds. -/
example : (1 : ℚ) / 2 ^ 40 ≤ lit (1 / 10 ^ 3) ∧ (lit (1 / 10 ^ 3) : ℚ) ≤ 1 / 10 := by
  constructor <;> decide +kernel

end Rodeo
