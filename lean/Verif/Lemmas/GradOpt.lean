import Verif.Model.GradOpt
import Verif.Spec.Grad
import Verif.Lemmas.Basic
import Verif.Lemmas.Post
import Mathlib.Tactic.Ring
import Mathlib.Tactic.Linarith
import Mathlib.Tactic.FieldSimp

set_option linter.unusedSectionVars false

/-! # Lemmas on the gradient optimizer -/

namespace Rodeo

open Spec

variable {K : Type} [Field K] [LinearOrder K] [IsStrictOrderedRing K]

theorem Vec.sub_eq {v w : List K} (h : v.length = w.length) :
    Vec.sub v w = .ok (List.zipWith (fun a b => a - b) v w) := by
  unfold Vec.sub
  rw [if_neg (by simpa using h)]
  apply tab_ok_list (by simp [h])
  intro j hj
  have hj' : j < v.length := by simp at hj; omega
  rw [rawAt_ok_of_lt hj', rawAt_ok_of_lt (h ▸ hj')]
  simp

theorem Vec.sub_scale {x g : List K} (h : x.length = g.length) (t : K) :
    Vec.sub x (Vec.scale g t) = .ok (stepPoint x g t) := by
  rw [Vec.sub_eq (by simp [Vec.scale, h])]
  simp [Vec.scale, stepPoint, List.zipWith_map_right]

namespace GradOpt

theorem backtrack_ok {E : GEnv K} {cur : GPoint K} (hlen : cur.x.length = cur.gradient.length) :
    ∀ (k fuel n : Nat) (next : GPoint K) (s : K), k < fuel →
    (∀ j < k, ¬ E.f (stepPoint cur.x cur.gradient (s / 2 ^ j)) < cur.obj) →
    E.f (stepPoint cur.x cur.gradient (s / 2 ^ k)) < cur.obj →
    backtrack E cur fuel n next s = .ok (n + k + 1, { next with
      x := stepPoint cur.x cur.gradient (s / 2 ^ k)
      obj := E.f (stepPoint cur.x cur.gradient (s / 2 ^ k)) }) := by
  intro k
  induction k with
  | zero =>
    intro fuel n next s hk _ h
    obtain ⟨m, rfl⟩ : ∃ m, fuel = m + 1 := ⟨fuel - 1, by omega⟩
    simp only [pow_zero, div_one] at h ⊢
    unfold backtrack
    refine bind_eq (Vec.sub_scale hlen s) ?_
    dsimp only [evalObj]
    rw [if_pos h]
  | succ k ih =>
    intro fuel n next s hk hno h
    obtain ⟨m, rfl⟩ : ∃ m, fuel = m + 1 := ⟨fuel - 1, by omega⟩
    have e : ∀ j : Nat, s * (1 / 2) / 2 ^ j = s / 2 ^ (j + 1) := by
      intro j
      rw [pow_succ]
      field_simp
    unfold backtrack
    refine bind_eq (Vec.sub_scale hlen s) ?_
    dsimp only [evalObj]
    have h0 := hno 0 (by omega)
    simp only [pow_zero, div_one] at h0
    rw [if_neg h0, ih m _ _ _ (by omega)]
    · rw [e]
      congr 2
      omega
    · intro j hj
      rw [e]
      exact hno (j + 1) (by omega)
    · rw [e]
      exact h

theorem backtrack_never {E : GEnv K} {cur : GPoint K} (hlen : cur.x.length = cur.gradient.length) :
    ∀ (fuel n : Nat) (next : GPoint K) (s : K),
    (∀ j < fuel, ¬ E.f (stepPoint cur.x cur.gradient (s / 2 ^ j)) < cur.obj) →
    backtrack E cur fuel n next s = .error .outOfFuel := by
  intro fuel
  induction fuel with
  | zero => intros; rfl
  | succ fuel ih =>
    intro n next s hno
    have e : ∀ j : Nat, s * (1 / 2) / 2 ^ j = s / 2 ^ (j + 1) := by
      intro j
      rw [pow_succ]
      field_simp
    unfold backtrack
    refine bind_eq (Vec.sub_scale hlen s) ?_
    dsimp only [evalObj]
    have h0 := hno 0 (by omega)
    simp only [pow_zero, div_one] at h0
    rw [if_neg h0]
    apply ih
    intro j hj
    rw [e]
    exact hno (j + 1) (by omega)

theorem backtrack_inv {E : GEnv K} {cur : GPoint K} :
    ∀ (fuel n : Nat) (next : GPoint K) (s : K) (r : Nat × GPoint K),
    backtrack E cur fuel n next s = .ok r →
    r.2.obj = E.f r.2.x ∧ r.2.obj < cur.obj ∧ n < r.1 ∧ r.2.x.length = cur.x.length := by
  intro fuel
  induction fuel with
  | zero => intro n next s r h; cases h
  | succ fuel ih =>
    intro n next s r h
    unfold backtrack at h
    obtain ⟨x, hx, h⟩ := bind_ok_inv h
    dsimp only [evalObj] at h
    have hl : x.length = cur.x.length := by
      unfold Vec.sub at hx
      split_ifs at hx
      exact (tab_inv hx).1
    split_ifs at h with hc
    · cases h
      exact ⟨rfl, hc, Nat.lt_succ_self n, hl⟩
    · obtain ⟨h1, h2, h3, h4⟩ := ih _ _ _ _ h
      exact ⟨h1, h2, by omega, h4⟩

theorem bump_set {x : List K} {i : Nat} (hi : i < x.length) (h : K) :
    x.set i (x[i] + h) = bump x i h := by
  unfold bump
  rw [List.modify_eq_set_getElem?]
  simp [List.getElem?_eq_getElem hi]

theorem central_spec {E : GEnv K} {d : Nat} {eps : K} {n : Nat} {p : GPoint K}
    (hx : p.x.length = d) (hd : 0 < d) (heps : eps ≠ 0) (hnz : ∀ a ∈ p.x, a ≠ 0) :
    central E d eps n p = .ok ⟨n + 2 * d,
      { p with obj := E.f (bump p.x (d - 1) (-(eps * p.x.getD (d - 1) 0))) },
      (List.range d).map (fun i => centralQuotient E.f p.x i (eps * p.x.getD i 0))⟩ := by
  suffices h : OkP (central E d eps n p) (fun s => s = ⟨n + 2 * d,
      { p with obj := E.f (bump p.x (d - 1) (-(eps * p.x.getD (d - 1) 0))) },
      (List.range d).map (fun i => centralQuotient E.f p.x i (eps * p.x.getD i 0))⟩) by
    obtain ⟨a, h1, rfl⟩ := h
    exact h1
  have := forRange_inv (body := centralBody E eps) (n := d) (s := ⟨n, p, []⟩)
    (fun k s => s = ⟨n + 2 * k, { p with
        obj := if k = 0 then p.obj else E.f (bump p.x (k - 1) (-(eps * p.x.getD (k - 1) 0))) },
      (List.range k).map (fun i => centralQuotient E.f p.x i (eps * p.x.getD i 0))⟩)
    (by simp) (by
      rintro k s hk rfl
      have hk' : k < p.x.length := by omega
      have hv : p.x.getD k 0 = p.x[k] := by
        rw [List.getD_eq_getElem?_getD, List.getElem?_eq_getElem hk']; rfl
      have hz : p.x[k] ≠ 0 := hnz _ (List.getElem_mem hk')
      refine bind_okP (a := p.x[k]) (vat_ok_of_lt hk') ?_
      dsimp only [evalObj]
      unfold fdiv
      rw [if_neg (by
        apply mul_ne_zero two_ne_zero (mul_ne_zero heps hz))]
      refine bind_okP rfl ?_
      refine okP_ok ?_
      simp only [List.set_set, Nat.add_eq_zero_iff, one_ne_zero, and_false, if_false,
        Nat.add_sub_cancel, FDState.mk.injEq, List.range_succ, List.map_append, List.map_cons,
        List.map_nil, hv, List.append_cancel_left_eq]
      have e1 : p.x[k] + eps * p.x[k] - 2 * (eps * p.x[k]) = p.x[k] + -(eps * p.x[k]) := by ring
      refine ⟨by omega, ?_, ?_⟩
      · rw [e1, bump_set hk', List.set_getElem_self]
      · unfold centralQuotient
        rw [e1, bump_set hk', bump_set hk'])
  refine OkP.mono this ?_
  rintro s rfl
  rw [if_neg hd.ne']

/-- A zero coordinate makes the first difference quotient over it `0/0`. -/
theorem central_zero {E : GEnv K} {d : Nat} {eps : K} {n : Nat} {p : GPoint K}
    (hx : p.x.length = d) (hz : (0 : K) ∈ p.x) : central E d eps n p = .error .nonFinite := by
  obtain ⟨i, hi, hxi⟩ := List.getElem_of_mem hz
  have key : ∀ (k j : Nat) (s : FDState K), j ≤ i → i < j + k → j + k = d → s.point.x = p.x →
      loopFrom (centralBody E eps) j k s = .error .nonFinite := by
    intro k
    induction k with
    | zero => intros; omega
    | succ k ih =>
      intro j s h1 h2 h3 h4
      have hj : j < s.point.x.length := by rw [h4]; omega
      unfold loopFrom
      by_cases hb : eps * s.point.x[j] = 0
      · have : centralBody E eps j s = .error .nonFinite := by
          refine bind_eq (vat_ok_of_lt hj) ?_
          dsimp only [evalObj]
          unfold fdiv
          rw [if_pos (by rw [hb, mul_zero])]
          rfl
        rw [this]
      · have hij : j ≠ i := by
          rintro rfl
          apply hb
          have : s.point.x[j] = 0 := by
            simp only [h4]
            exact hxi
          rw [this, mul_zero]
        have : ∃ s', centralBody E eps j s = .ok s' ∧ s'.point.x = p.x := by
          refine bind_okP (vat_ok_of_lt hj) ?_
          dsimp only [evalObj]
          unfold fdiv
          rw [if_neg (mul_ne_zero two_ne_zero hb)]
          refine bind_okP rfl ?_
          refine okP_ok ?_
          simp only [List.set_set]
          rw [List.set_getElem_self, h4]
        obtain ⟨s', hs, hs'⟩ := this
        rw [hs]
        exact ih (j + 1) s' (by omega) (by omega) (by omega) hs'
  exact key d 0 _ (Nat.zero_le _) (by omega) (by omega) rfl

theorem central_x {E : GEnv K} {d : Nat} {eps : K} {n : Nat} {p : GPoint K} {s : FDState K}
    (h : central E d eps n p = .ok s) : s.point.x = p.x := by
  have key : ∀ (k j : Nat) (s s' : FDState K), s.point.x = p.x →
      loopFrom (centralBody E eps) j k s = .ok s' → s'.point.x = p.x := by
    intro k
    induction k with
    | zero => intro j s s' h1 h2; cases h2; exact h1
    | succ k ih =>
      intro j s s' h1 h2
      unfold loopFrom at h2
      split at h2
      · next s1 hs1 =>
        refine ih _ s1 s' ?_ h2
        unfold centralBody at hs1
        obtain ⟨a, ha, hs1⟩ := bind_ok_inv hs1
        dsimp only [evalObj] at hs1
        obtain ⟨q, -, hs1⟩ := bind_ok_inv hs1
        cases hs1
        dsimp only
        simp only [List.set_set]
        rw [vat_eq_ok] at ha
        rw [← h1]
        obtain ⟨hj, hj2⟩ := List.getElem?_eq_some_iff.1 ha
        rw [← hj2, List.set_getElem_self]
      · cases h2
  exact key d 0 _ s rfl h

/-- Forward differences: the point comes back with another objective value. -/
theorem forward_spec {E : GEnv K} {d : Nat} {eps : K} {n : Nat} {p : GPoint K}
    (hx : p.x.length = d) (hd : 0 < d) (heps : eps ≠ 0) (hnz : ∀ a ∈ p.x, a ≠ 0) :
    forward E d eps n p = .ok ⟨n + 1 + d,
      { p with obj := E.f (bump p.x (d - 1) (eps * p.x.getD (d - 1) 0)) },
      (List.range d).map (fun i => forwardQuotient E.f p.x i (eps * p.x.getD i 0))⟩ := by
  suffices h : OkP (forward E d eps n p) (fun s => s = ⟨n + 1 + d,
      { p with obj := E.f (bump p.x (d - 1) (eps * p.x.getD (d - 1) 0)) },
      (List.range d).map (fun i => forwardQuotient E.f p.x i (eps * p.x.getD i 0))⟩) by
    obtain ⟨a, h1, rfl⟩ := h
    exact h1
  have := forRange_inv (body := forwardBody E eps (E.f p.x)) (n := d)
    (s := ⟨n + 1, { p with obj := E.f p.x }, []⟩)
    (fun k s => s = ⟨n + 1 + k, { p with
        obj := if k = 0 then E.f p.x else E.f (bump p.x (k - 1) (eps * p.x.getD (k - 1) 0)) },
      (List.range k).map (fun i => forwardQuotient E.f p.x i (eps * p.x.getD i 0))⟩)
    (by simp) (by
      rintro k s hk rfl
      have hk' : k < p.x.length := by omega
      have hv : p.x.getD k 0 = p.x[k] := by
        rw [List.getD_eq_getElem?_getD, List.getElem?_eq_getElem hk']; rfl
      have hz : p.x[k] ≠ 0 := hnz _ (List.getElem_mem hk')
      refine bind_okP (a := p.x[k]) (vat_ok_of_lt hk') ?_
      dsimp only [evalObj]
      unfold fdiv
      rw [if_neg (mul_ne_zero heps hz)]
      refine bind_okP rfl ?_
      refine okP_ok ?_
      simp only [List.set_set, Nat.add_eq_zero_iff, one_ne_zero, and_false, if_false,
        Nat.add_sub_cancel, FDState.mk.injEq, List.range_succ, List.map_append, List.map_cons,
        List.map_nil, hv, List.append_cancel_left_eq]
      refine ⟨by omega, ?_, ?_⟩
      · rw [bump_set hk', List.set_getElem_self]
      · unfold forwardQuotient
        rw [bump_set hk'])
  refine OkP.mono this ?_
  rintro s rfl
  rw [if_neg hd.ne']

theorem evalGrad_off {E : GEnv K} {o : GradOpt K} {p : GPoint K} {r : Nat × GPoint K}
    (hfd : o.fd = .off) (h : evalGrad E o p = .ok r) :
    r.1 = o.evals ∧ r.2.x = p.x ∧ r.2.obj = p.obj ∧ r.2.gradient.length = o.dim ∧
      ∃ g, E.g = some g ∧ r.2.gradient = (List.range o.dim).map (g p.x) ∧
        r.2.normSq = Vec.sumSq r.2.gradient := by
  unfold evalGrad at h
  obtain ⟨q, hq, h⟩ := bind_ok_inv h
  cases h
  unfold gradientInto at hq
  rw [hfd] at hq
  cases hg : E.g with
  | none => rw [hg] at hq; cases hq
  | some g =>
    rw [hg] at hq
    cases hq
    exact ⟨rfl, rfl, rfl, by simp, g, rfl, rfl, rfl⟩

/-- The accepted values of a run that started at `x0`. -/
def Descent (E : GEnv K) (x0 : List K) (opt0 : K) (o : GradOpt K) : Prop :=
  o.fd = .off ∧ o.current.obj = E.f o.current.x ∧
  (x0 :: o.accepted).getLast? = some o.current.x ∧
  ((x0 :: o.accepted).map E.f).Pairwise (fun a b => b < a) ∧
  (o.accepted = [] → o.optimum = opt0) ∧ (o.accepted ≠ [] → o.optimum = E.f o.current.x)

theorem lineSearch_descent {E : GEnv K} {fuel : Nat} {x0 : List K} {opt0 : K} {o o' : GradOpt K}
    (h : Descent E x0 opt0 o) (hl : lineSearch E fuel o = .ok o') :
    Descent E x0 opt0 o' ∧ o'.accepted ≠ [] ∧ o'.maxEvals = o.maxEvals ∧ o.evals < o'.evals := by
  obtain ⟨h1, h2, h3, h4, -, -⟩ := h
  unfold lineSearch at hl
  split_ifs at hl
  obtain ⟨r, hr, hl⟩ := bind_ok_inv hl
  obtain ⟨c, hc, hl⟩ := bind_ok_inv hl
  cases hl
  obtain ⟨b1, b2, b3, -⟩ := backtrack_inv _ _ _ _ _ hr
  obtain ⟨c1, c2, c3, -, -⟩ := evalGrad_off (o := { o with evals := r.1 }) h1 hc
  dsimp only at c1 c2 c3
  refine ⟨⟨h1, ?_, ?_, ?_, ?_, ?_⟩, by simp, rfl, by dsimp only; omega⟩
  · dsimp only
    rw [c3, c2, b1]
  · dsimp only
    rw [c2, ← List.cons_append, List.getLast?_append]
    rfl
  · dsimp only
    rw [← List.cons_append, List.map_append, List.pairwise_append]
    refine ⟨h4, by simp, ?_⟩
    intro a ha b hb
    simp only [List.map_cons, List.map_nil, List.mem_singleton] at hb
    subst hb
    have hlast : E.f r.2.x < E.f o.current.x := by rw [← b1, ← h2]; exact b2
    have hmin : E.f o.current.x ≤ a := by
      have hl' : ((x0 :: o.accepted).map E.f).getLast? = some (E.f o.current.x) := by
        rw [List.getLast?_map, h3]; rfl
      obtain ⟨ini, hini⟩ := List.getLast?_eq_some_iff.1 hl'
      rw [hini] at ha h4
      rcases List.mem_append.1 ha with ha | ha
      · exact ((List.pairwise_append.1 h4).2.2 a ha _ (by simp)).le
      · rw [List.mem_singleton] at ha
        exact ha.ge
    exact lt_of_lt_of_le hlast hmin
  · intro hcon
    simp at hcon
  · intro _
    dsimp only
    rw [c3, c2, b1]

theorem loop_descent {E : GEnv K} {fuel : Nat} {x0 : List K} {opt0 : K} :
    ∀ (rounds : Nat) (o o' : GradOpt K), Descent E x0 opt0 o → loop E fuel rounds o = .ok o' →
    Descent E x0 opt0 o' := by
  intro rounds
  induction rounds with
  | zero => intro o o' _ h; cases h
  | succ rounds ih =>
    intro o o' hD h
    unfold loop at h
    split_ifs at h
    · cases h; exact hD
    · obtain ⟨o1, h1, h⟩ := bind_ok_inv h
      have hD1 := (lineSearch_descent hD h1).1
      split_ifs at h
      · cases h; exact hD1
      · exact ih o1 o' hD1 h

end GradOpt
end Rodeo
