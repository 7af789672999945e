import Verif.Lemmas.GradOpt
import Mathlib.Tactic.NormNum

/-! # C19 - C21: the gradient optimizer -/

set_option linter.unusedSectionVars false

namespace Rodeo
open Spec

variable {K : Type} [Field K] [LinearOrder K] [IsStrictOrderedRing K]

/-! ## C19 -/

/-- C19: the accepted objective values are strictly decreasing, starting with the value at the initial
point, and the optimum reported by a new optimizer is not above the initial value. -/
def C19_full (K : Type) [Field K] [LinearOrder K] [IsStrictOrderedRing K] : Prop :=
  ∀ (E : GEnv K) (fuel rounds : Nat) (o o' : GradOpt K), o.accepted = [] → o.optimum = fltMax →
    0 < o.eps → o.eps < 1 / 10 → GradOpt.optimize E fuel rounds o = .ok o' →
    ((o.current.x :: o'.accepted).map E.f).Pairwise (fun a b => b < a) ∧
      o'.optimum ≤ E.f o.current.x

namespace GradDemo

/-- Objective `(x - 51/50)^2`. -/
def env : GEnv ℚ where
  f := fun x => (x.getD 0 0 - 51 / 50) ^ 2
  g := some (fun x _ => 2 * (x.getD 0 0 - 51 / 50))

/-- Start at `x`, step 2 at most, two evaluations. -/
def opt (fd : FDMethod) (x : ℚ) : GradOpt ℚ :=
  { (GradOpt.new : GradOpt ℚ) with
    dim := 1, boundsSet := true, initialSet := true, fd := fd, eps := 1 / 20
    current := { (GPoint.new : GPoint ℚ) with x := [x] }, maxStep := 2, maxEvals := 2 }

/-- The call returns and its value passes the test. -/
def test {α : Type} (r : Res α) (P : α → Bool) : Bool :=
  match r with
  | .ok a => P a
  | .error _ => false

theorem of_test {α : Type} {r : Res α} {P : α → Bool} (h : test r P = true) :
    ∃ a, r = .ok a ∧ P a = true := by
  cases r with
  | ok a => exact ⟨a, rfl, h⟩
  | error e => cases h

end GradDemo

open GradDemo in
/-- C19 is false: with a flat start nothing is accepted and the optimum stays at its initial value. -/
theorem C19_false : ¬ C19_full ℚ := by
  intro h
  have t : test (GradOpt.optimize env 5 5 (opt .off (51 / 50))) (fun o' =>
      decide (¬ o'.optimum ≤ env.f [51 / 50])) = true := by decide +kernel
  obtain ⟨o', h1, h2⟩ := of_test t
  exact of_decide_eq_true h2 (h env 5 5 (opt .off (51 / 50)) o' rfl rfl (by decide +kernel)
    (by decide +kernel) h1).2

open GradDemo in
/-- C19 is also false when a line search is made: with central differences the line search compares
with the value at a shifted point and accepts a worse point. -/
theorem C19_false_central : ∃ (E : GEnv ℚ) (fuel rounds : Nat) (o o' : GradOpt ℚ) (y : List ℚ),
    o.fd = .central ∧ GradOpt.optimize E fuel rounds o = .ok o' ∧ o.accepted = [] ∧
    o'.accepted = [y] ∧ E.f o.current.x < E.f y := by
  have t : test (GradOpt.optimize env 5 5 (opt .central 1)) (fun o' =>
      match o'.accepted with
      | [y] => decide (env.f [1] < env.f y)
      | _ => false) = true := by decide +kernel
  obtain ⟨o', h1, h2⟩ := of_test t
  match hacc : o'.accepted with
  | [] => rw [hacc] at h2; cases h2
  | [y] =>
    rw [hacc] at h2
    exact ⟨env, 5, 5, opt .central 1, o', y, rfl, h1, rfl, hacc, of_decide_eq_true h2⟩
  | _ :: _ :: _ => rw [hacc] at h2; cases h2


/-- The part of C19 that holds: with a user supplied gradient the accepted values are strictly
decreasing, the final point is the last accepted one, and if a line search was made the reported
optimum is the value at the final point and below the initial value.  Missing: finite differences and
runs that stop before the first line search, whose optimum is the old one. -/
theorem C19_partial {E : GEnv K} {fuel rounds : Nat} {o o' : GradOpt K} (hfd : o.fd = .off)
    (hacc : o.accepted = []) (h : GradOpt.optimize E fuel rounds o = .ok o') :
    ((o.current.x :: o'.accepted).map E.f).Pairwise (fun a b => b < a) ∧
    (o.current.x :: o'.accepted).getLast? = some o'.current.x ∧
    (o'.accepted ≠ [] → o'.optimum = E.f o'.current.x ∧ o'.optimum < E.f o.current.x) ∧
    (o'.accepted = [] → o'.optimum = o.optimum) := by
  unfold GradOpt.optimize at h
  obtain ⟨_, -, h⟩ := bind_ok_inv h
  dsimp only [GradOpt.evalObj] at h
  obtain ⟨c, hc, h⟩ := bind_ok_inv h
  obtain ⟨-, c2, c3, -⟩ := GradOpt.evalGrad_off (o := { o with evals := o.evals + 1 }) hfd hc
  dsimp only at c2 c3
  have hD := GradOpt.loop_descent (x0 := o.current.x) (opt0 := o.optimum) _ _ _ (by
    refine ⟨hfd, by dsimp only; rw [c3, c2], ?_, ?_, fun _ => rfl, fun hne => absurd hacc hne⟩
    · dsimp only
      rw [hacc, c2]
      rfl
    · dsimp only
      rw [hacc]
      simp) h
  obtain ⟨-, -, d3, d4, d5, d6⟩ := hD
  refine ⟨d4, d3, ?_, d5⟩
  intro hne
  refine ⟨d6 hne, ?_⟩
  rw [d6 hne]
  rw [List.map_cons, List.pairwise_cons] at d4
  apply d4.1
  apply List.mem_map_of_mem
  obtain ⟨a, l, hl⟩ := List.exists_cons_of_ne_nil hne
  rw [hl] at d3 ⊢
  rw [List.getLast?_cons_cons] at d3
  exact List.mem_of_getLast? d3

open GradDemo in
/-- A run with two accepted points meets the hypotheses. -/
example : ∃ o', GradOpt.optimize env 5 5 { opt .off 3 with maxStep := 3 / 4, maxEvals := 3 } = .ok o' ∧
    o'.accepted.length = 2 := by
  have t : test (GradOpt.optimize env 5 5 { opt .off 3 with maxStep := 3 / 4, maxEvals := 3 }) (fun o' =>
      decide (o'.accepted.length = 2)) = true := by decide +kernel
  obtain ⟨o', h1, h2⟩ := of_test t
  exact ⟨o', h1, of_decide_eq_true h2⟩

/-- What the reported optimum is with central differences: the value at a point shifted in the last
coordinate, not at the accepted point. -/
theorem C19_central_reports_shifted {E : GEnv K} {fuel : Nat} {o o' : GradOpt K}
    (hfd : o.fd = .central) (hd : 0 < o.dim) (heps : o.eps ≠ 0)
    (h : GradOpt.lineSearch E fuel o = .ok o') (hx : o'.current.x.length = o.dim)
    (hnz : ∀ a ∈ o'.current.x, a ≠ 0) :
    o'.optimum = E.f (bump o'.current.x (o.dim - 1) (-(o.eps * o'.current.x.getD (o.dim - 1) 0))) := by
  unfold GradOpt.lineSearch at h
  split_ifs at h
  obtain ⟨r, hr, h⟩ := bind_ok_inv h
  obtain ⟨c, hc, h⟩ := bind_ok_inv h
  cases h
  dsimp only at hx hnz ⊢
  unfold GradOpt.evalGrad at hc
  obtain ⟨q, hq, hc⟩ := bind_ok_inv hc
  cases hc
  unfold GradOpt.gradientInto at hq
  dsimp only at hq hx hnz ⊢
  rw [hfd] at hq
  dsimp only at hq
  rw [if_neg hd.ne'] at hq
  obtain ⟨s, hs, hq⟩ := bind_ok_inv hq
  cases hq
  dsimp only at hx hnz ⊢
  have hsx : s.point.x = r.2.x := GradOpt.central_x hs
  rw [hsx] at hx hnz ⊢
  rw [GradOpt.central_spec hx hd heps hnz] at hs
  cases hs
  rfl

/-! ## C20 -/

/-- C20: the line search returns after at most the configured number of objective evaluations. -/
def C20_full (K : Type) [Field K] [LinearOrder K] [IsStrictOrderedRing K] : Prop :=
  ∀ (E : GEnv K) (o : GradOpt K), o.fd = .off → E.g ≠ none → 0 < o.maxStep →
    o.current.x.length = o.dim → o.current.gradient.length = o.dim →
    o.current.obj = E.f o.current.x →
    ∃ (fuel : Nat) (o' : GradOpt K), GradOpt.lineSearch E fuel o = .ok o' ∧
      o'.evals ≤ o.evals + o.maxLineSearch

/-- The line search returns exactly when some step size `maxStep / 2^k` improves the objective; it then
stops at the first such `k`, after `k + 1` evaluations. -/
theorem C20_returns_iff {E : GEnv K} {o : GradOpt K} (hfd : o.fd = .off) (hg : E.g ≠ none)
    (hs : 0 < o.maxStep) (hlen : o.current.x.length = o.current.gradient.length) (n : Nat) :
    (∃ (fuel : Nat) (o' : GradOpt K), GradOpt.lineSearch E fuel o = .ok o' ∧ o'.evals = o.evals + n) ↔
    ∃ k, n = k + 1 ∧
      E.f (stepPoint o.current.x o.current.gradient (o.maxStep / 2 ^ k)) < o.current.obj ∧
      ∀ j < k, ¬ E.f (stepPoint o.current.x o.current.gradient (o.maxStep / 2 ^ j)) < o.current.obj := by
  obtain ⟨g, hg⟩ := Option.ne_none_iff_exists'.1 hg
  have run : ∀ k fuel, k < fuel →
      E.f (stepPoint o.current.x o.current.gradient (o.maxStep / 2 ^ k)) < o.current.obj →
      (∀ j < k, ¬ E.f (stepPoint o.current.x o.current.gradient (o.maxStep / 2 ^ j)) < o.current.obj) →
      ∃ o', GradOpt.lineSearch E fuel o = .ok o' ∧ o'.evals = o.evals + (k + 1) := by
    intro k fuel hk h1 h2
    unfold GradOpt.lineSearch
    rw [if_neg (not_le.2 hs)]
    refine bind_okP (GradOpt.backtrack_ok hlen k fuel _ _ _ hk h2 h1) ?_
    unfold GradOpt.evalGrad GradOpt.gradientInto
    dsimp only
    rw [hfd, hg]
    exact okP_ok rfl
  constructor
  · rintro ⟨fuel, o', h1, h2⟩
    by_cases hex : ∃ k < fuel,
        E.f (stepPoint o.current.x o.current.gradient (o.maxStep / 2 ^ k)) < o.current.obj
    · classical
      have hP := Nat.find_spec hex
      have hmin : ∀ j < Nat.find hex,
          ¬ E.f (stepPoint o.current.x o.current.gradient (o.maxStep / 2 ^ j)) < o.current.obj := by
        intro j hj hc
        exact Nat.find_min hex hj ⟨by omega, hc⟩
      obtain ⟨o2, h3, h4⟩ := run _ fuel hP.1 hP.2 hmin
      rw [h1] at h3
      cases h3
      exact ⟨Nat.find hex, by omega, hP.2, hmin⟩
    · exfalso
      unfold GradOpt.lineSearch at h1
      rw [if_neg (not_le.2 hs), GradOpt.backtrack_never hlen fuel _ _ _
        (fun j hj hc => hex ⟨j, hj, hc⟩)] at h1
      cases h1
  · rintro ⟨k, rfl, h1, h2⟩
    obtain ⟨o', h3, h4⟩ := run k (k + 1) (Nat.lt_succ_self k) h1 h2
    exact ⟨k + 1, o', h3, h4⟩

/-- C20 is false: on a constant objective with a non-zero gradient the line search never returns. -/
theorem C20_false : ¬ C20_full ℚ := by
  intro h
  let E : GEnv ℚ := ⟨fun _ => 0, some (fun _ _ => 1)⟩
  let o : GradOpt ℚ := { (GradOpt.new : GradOpt ℚ) with
    dim := 1, maxStep := 1, current := ⟨[1], [1], 0, 1⟩ }
  obtain ⟨fuel, o', h1, -⟩ := h E o rfl (by simp [E]) (by norm_num [o]) rfl rfl rfl
  unfold GradOpt.lineSearch at h1
  rw [if_neg (by norm_num [o]), GradOpt.backtrack_never (by rfl) fuel _ _ _
    (fun j _ => by simp [E, o])] at h1
  cases h1

/-- C20 is false also for searches that return: for every limit there is one that makes more
evaluations. -/
theorem C20_overrun (n : Nat) : ∃ (E : GEnv ℚ) (o : GradOpt ℚ) (fuel : Nat) (o' : GradOpt ℚ),
    o.maxLineSearch = n ∧ o.fd = .off ∧ E.g ≠ none ∧ o.current.obj = E.f o.current.x ∧
    GradOpt.lineSearch E fuel o = .ok o' ∧ o.evals + n < o'.evals := by
  let E : GEnv ℚ := ⟨fun x => (x.getD 0 0) ^ 2, some (fun x _ => 2 * x.getD 0 0)⟩
  let o : GradOpt ℚ := { (GradOpt.new : GradOpt ℚ) with
    dim := 1, maxStep := 2 ^ n, maxLineSearch := n, current := ⟨[1], [2], 1, 4⟩ }
  obtain ⟨fuel, o', h1, h2⟩ := (C20_returns_iff (E := E) (o := o) rfl (by simp [E])
    (by show (0 : ℚ) < 2 ^ n; positivity) rfl (n + 2)).2 ⟨n + 1, rfl, by
      show ((1 : ℚ) - 2 * (2 ^ n / 2 ^ (n + 1))) ^ 2 < 1
      have : (2 : ℚ) ^ n / 2 ^ (n + 1) = 1 / 2 := by rw [pow_succ]; field_simp
      rw [this]
      norm_num, by
      intro j hj
      show ¬ ((1 : ℚ) - 2 * (2 ^ n / 2 ^ j)) ^ 2 < 1
      have : (1 : ℚ) ≤ 2 ^ n / 2 ^ j := by
        rw [le_div_iff₀ (by positivity), one_mul]
        exact pow_le_pow_right₀ (by norm_num) (by omega)
      nlinarith⟩
  exact ⟨E, o, fuel, o', rfl, rfl, by simp [E], by norm_num [E, o], h1, by omega⟩

/-- The part of C20 that holds: if at every point whose gradient is not below the tolerance one of the
first `m` step sizes improves the objective, `optimize` returns, and it exceeds the configured number of
evaluations by less than `m` (the first evaluation and one line search are always made).
Missing: no bound holds without such a condition. -/
theorem C20_partial {E : GEnv K} {o : GradOpt K} {g : List K → Nat → K} {m : Nat} (hfd : o.fd = .off)
    (hg : E.g = some g) (hs : 0 < o.maxStep) (hset : o.dim ≠ 0 ∧ o.initialSet ∧ o.maxEvals ≠ 0 ∧ o.boundsSet)
    (hx : o.current.x.length = o.dim)
    (hdec : ∀ x : List K, x.length = o.dim →
      ¬ (0 < o.tol ∧ Vec.sumSq ((List.range o.dim).map (g x)) < o.tol ^ 2) →
      ∃ k < m, E.f (stepPoint x ((List.range o.dim).map (g x)) (o.maxStep / 2 ^ k)) < E.f x) :
    ∃ (fuel rounds : Nat) (o' : GradOpt K), GradOpt.optimize E fuel rounds o = .ok o' ∧
      o'.evals ≤ max (o.evals + 1) (o.maxEvals - 1) + m := by
  suffices H : ∀ (rounds : Nat) (p : GradOpt K), p.dim = o.dim → p.fd = .off → p.maxStep = o.maxStep →
      p.tol = o.tol → p.maxEvals = o.maxEvals → p.current.x.length = o.dim →
      p.current.gradient = (List.range o.dim).map (g p.current.x) →
      p.current.normSq = Vec.sumSq p.current.gradient → p.current.obj = E.f p.current.x →
      p.evals ≤ max (o.evals + 1) (o.maxEvals - 1) → o.maxEvals < p.evals + rounds →
      0 < rounds →
      ∃ o', GradOpt.loop E m rounds p = .ok o' ∧ o'.evals ≤ max (o.evals + 1) (o.maxEvals - 1) + m by
    refine ⟨m, o.maxEvals + 1, ?_⟩
    unfold GradOpt.optimize
    have hc : GradOpt.checkSettings o = .ok () := by
      unfold GradOpt.checkSettings
      rw [if_neg (by simp [hset.1, hset.2.1, hset.2.2.1, hset.2.2.2])]
    refine bind_okP hc ?_
    dsimp only [GradOpt.evalObj]
    have hgr : GradOpt.evalGrad E { o with evals := o.evals + 1 } { o.current with obj := E.f o.current.x } =
        .ok (o.evals + 1, ⟨o.current.x, (List.range o.dim).map (g o.current.x), E.f o.current.x,
          Vec.sumSq ((List.range o.dim).map (g o.current.x))⟩) := by
      unfold GradOpt.evalGrad GradOpt.gradientInto
      dsimp only
      rw [hfd, hg]
      rfl
    refine bind_okP hgr ?_
    refine H _ _ rfl hfd rfl rfl rfl hx rfl rfl rfl ?_ ?_ (Nat.succ_pos _) <;> dsimp only <;> omega
  intro rounds
  induction rounds with
  | zero => intros; omega
  | succ rounds ih =>
    intro p p1 p2 p3 p4 p5 p6 p7 p8 p9 p10 p11 _
    unfold GradOpt.loop
    split_ifs with hstop
    · exact ⟨p, rfl, by omega⟩
    · rw [p4, p8, p7] at hstop
      obtain ⟨k, hk, hlt⟩ := hdec p.current.x p6 hstop
      have hlen : p.current.x.length = p.current.gradient.length := by rw [p7, p6]; simp
      classical
      have hex : ∃ k, E.f (stepPoint p.current.x p.current.gradient (p.maxStep / 2 ^ k)) < p.current.obj :=
        ⟨k, by rw [p7, p3, p9]; exact hlt⟩
      set k0 := Nat.find hex with hk0
      have hk0m : k0 < m := lt_of_le_of_lt (Nat.find_min' hex (by rw [p7, p3, p9]; exact hlt)) hk
      have hb := GradOpt.backtrack_ok hlen k0 m p.evals p.next p.maxStep hk0m
        (fun j hj => Nat.find_min hex hj) (Nat.find_spec hex)
      set y := stepPoint p.current.x p.current.gradient (p.maxStep / 2 ^ k0) with hy
      have hyl : y.length = o.dim := by
        rw [hy]; unfold stepPoint; rw [List.length_zipWith, ← hlen, p6]; simp
      have hls : ∃ q, GradOpt.lineSearch E m p = .ok q ∧ q.dim = o.dim ∧ q.fd = .off ∧
          q.maxStep = o.maxStep ∧ q.tol = o.tol ∧ q.maxEvals = o.maxEvals ∧ q.current.x = y ∧
          q.current.gradient = (List.range o.dim).map (g y) ∧
          q.current.normSq = Vec.sumSq q.current.gradient ∧ q.current.obj = E.f y ∧
          q.evals = p.evals + k0 + 1 := by
        unfold GradOpt.lineSearch
        rw [if_neg (by rw [p3]; exact not_le.2 hs)]
        refine bind_okP hb ?_
        unfold GradOpt.evalGrad GradOpt.gradientInto
        dsimp only
        rw [p2, hg]
        refine okP_ok ?_
        rw [p1]
        exact ⟨rfl, rfl, p3, p4, p5, rfl, rfl, rfl, rfl, rfl⟩
      obtain ⟨q, hq, q1, q2, q3, q4, q5, q6, q7, q8, q9, q10⟩ := hls
      refine bind_okP hq ?_
      rw [q5]
      split_ifs with hev
      · refine okP_ok ?_
        omega
      · refine ih q q1 q2 q3 q4 q5 (by rw [q6]; exact hyl) (by rw [q6]; exact q7) q8 (by rw [q6]; exact q9)
          ?_ ?_ ?_ <;> omega

/-- Minimising `x^2` with gradient `2x` and step 1/2 meets the hypotheses with `m = 2`. -/
example : ∀ x : List ℚ, x.length = 1 →
    ¬ ((0 : ℚ) < 1 / 10 ∧ Vec.sumSq ((List.range 1).map (fun _ => 2 * x.getD 0 0)) < (1 / 10) ^ 2) →
    ∃ k < 2, (fun y : List ℚ => (y.getD 0 0) ^ 2)
      (stepPoint x ((List.range 1).map (fun _ => 2 * x.getD 0 0)) (1 / 2 / 2 ^ k)) < (x.getD 0 0) ^ 2 := by
  intro x hx h
  match x, hx with
  | [a], _ =>
    refine ⟨0, by norm_num, ?_⟩
    have ha : a ≠ 0 := by
      rintro rfl
      apply h
      norm_num [Vec.sumSq]
    simp only [stepPoint, List.range_one, List.map_cons, List.map_nil, List.zipWith_cons_cons,
      List.zipWith_nil_left, List.getD_cons_zero]
    have : 0 < a ^ 2 := by positivity
    nlinarith

/-! ## C21 -/

/-- C21: with finite differences, `evaluateGradientFunction` stores the difference quotients in the point
and changes neither the point nor its objective value. -/
def C21_full (K : Type) [Field K] [LinearOrder K] [IsStrictOrderedRing K] : Prop :=
  ∀ (E : GEnv K) (o : GradOpt K) (p : GPoint K), p.x.length = o.dim → 0 < o.dim → 0 < o.eps →
    p.obj = E.f p.x → (∀ a ∈ p.x, a ≠ 0) → o.fd ≠ .off →
    ∃ r, GradOpt.evalGrad E o p = .ok r ∧ r.2.x = p.x ∧ r.2.obj = p.obj ∧
      (o.fd = .central → r.2.gradient =
        (List.range o.dim).map (fun i => centralQuotient E.f p.x i (o.eps * p.x.getD i 0))) ∧
      (o.fd = .forward → r.2.gradient =
        (List.range o.dim).map (fun i => forwardQuotient E.f p.x i (o.eps * p.x.getD i 0)))

/-- Central differences: the quotients are stored and the point is unchanged; its objective value is
replaced by the value at the last shifted point. -/
theorem C21_partial {E : GEnv K} {o : GradOpt K} {p : GPoint K} (hfd : o.fd = .central)
    (hx : p.x.length = o.dim) (hd : 0 < o.dim) (heps : o.eps ≠ 0) (hnz : ∀ a ∈ p.x, a ≠ 0) :
    ∃ r, GradOpt.evalGrad E o p = .ok r ∧ r.2.x = p.x ∧
      r.2.gradient =
        (List.range o.dim).map (fun i => centralQuotient E.f p.x i (o.eps * p.x.getD i 0)) ∧
      r.2.obj = E.f (bump p.x (o.dim - 1) (-(o.eps * p.x.getD (o.dim - 1) 0))) ∧
      r.1 = o.evals + 2 * o.dim := by
  unfold GradOpt.evalGrad GradOpt.gradientInto
  rw [hfd]
  dsimp only
  rw [if_neg hd.ne', GradOpt.central_spec hx hd heps hnz]
  exact ⟨_, rfl, rfl, rfl, rfl, rfl⟩

/-- Forward differences never reach the point: whatever the objective, its gradient stays what it was,
and its objective value is replaced. -/
theorem C21_forward_lost {E : GEnv K} {o : GradOpt K} {p : GPoint K} (hfd : o.fd = .forward)
    (hx : p.x.length = o.dim) (hd : 0 < o.dim) (heps : o.eps ≠ 0) (hnz : ∀ a ∈ p.x, a ≠ 0) :
    ∃ r, GradOpt.evalGrad E o p = .ok r ∧ r.2.x = p.x ∧ r.2.gradient = p.gradient ∧
      r.2.obj = E.f (bump p.x (o.dim - 1) (o.eps * p.x.getD (o.dim - 1) 0)) ∧
      r.1 = o.evals + 1 + o.dim := by
  unfold GradOpt.evalGrad GradOpt.gradientInto
  rw [hfd]
  dsimp only
  rw [if_neg hd.ne', GradOpt.forward_spec hx hd heps hnz]
  exact ⟨_, rfl, rfl, rfl, rfl, rfl⟩

/-- Central differences at a point with a zero coordinate divide zero by zero, for every objective. -/
theorem C21_zero_coordinate {E : GEnv K} {o : GradOpt K} {p : GPoint K} (hfd : o.fd = .central)
    (hx : p.x.length = o.dim) (hz : (0 : K) ∈ p.x) :
    GradOpt.evalGrad E o p = .error .nonFinite := by
  have hd : o.dim ≠ 0 := by
    rintro h0
    rw [h0] at hx
    rw [List.length_eq_zero_iff.1 hx] at hz
    cases hz
  unfold GradOpt.evalGrad GradOpt.gradientInto
  rw [hfd]
  dsimp only
  rw [if_neg hd, GradOpt.central_zero hx hz]
  rfl

/-- C21 is false for both methods. -/
theorem C21_false : ¬ C21_full ℚ := by
  intro h
  let E : GEnv ℚ := ⟨fun x => x.getD 0 0, none⟩
  let o : GradOpt ℚ := { (GradOpt.new : GradOpt ℚ) with dim := 1, fd := .forward }
  let p : GPoint ℚ := ⟨[1], [], 1, 0⟩
  obtain ⟨r, h1, -, -, -, h2⟩ := h E o p rfl (by decide) (by norm_num [o, GradOpt.new]) rfl (by simp [p])
    (by simp [o])
  obtain ⟨r', h3, -, h4, -⟩ := C21_forward_lost (E := E) (o := o) (p := p) rfl rfl (by decide)
    (by norm_num [o, GradOpt.new]) (by simp [p])
  rw [h1] at h3
  cases h3
  have := h2 rfl
  rw [h4] at this
  simp [o, p] at this

/-- The objective value is lost with central differences: `f x = x` at `x = 1`. -/
theorem C21_false_central : ∃ (E : GEnv ℚ) (o : GradOpt ℚ) (p : GPoint ℚ) (r : Nat × GPoint ℚ),
    o.fd = .central ∧ p.obj = E.f p.x ∧ GradOpt.evalGrad E o p = .ok r ∧ r.2.obj ≠ p.obj := by
  let E : GEnv ℚ := ⟨fun x => x.getD 0 0, none⟩
  let o : GradOpt ℚ := { (GradOpt.new : GradOpt ℚ) with dim := 1, fd := .central }
  let p : GPoint ℚ := ⟨[1], [], 1, 0⟩
  obtain ⟨r, h1, -, -, h2, -⟩ := C21_partial (E := E) (o := o) (p := p) rfl rfl (by decide)
    (by norm_num [o, GradOpt.new]) (by simp [p])
  refine ⟨E, o, p, r, rfl, rfl, h1, ?_⟩
  rw [h2]
  norm_num [E, o, p, bump, GradOpt.new]

end Rodeo
