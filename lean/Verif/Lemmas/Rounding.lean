import Verif.Lemmas.History
import Verif.Spec.Optimizer

set_option linter.unusedSectionVars false

namespace Rodeo

open Spec

variable {K : Type} [Field K] [LinearOrder K] [IsStrictOrderedRing K] [FloorRing K]

theorem findClosest_ok (v : K) (values : List K) (hne : 0 < values.length) :
    OkP (findClosestDiscreteValue v values) (fun k => ∃ w, values[k]? = some w ∧
      ∀ i w', values[i]? = some w' → |v - w| ≤ |v - w'| ∧ (i < k → |v - w| < |v - w'|)) := by
  unfold findClosestDiscreteValue
  refine bind_okP (vat_ok_of_lt hne) ?_
  obtain ⟨s, h1, w, -, h2, h3, h4⟩ := loopFrom_inv
    (body := fun i (s : K × Nat) => do
      let v' ← vat values i
      .ok (if |v - v'| < s.1 then (|v - v'|, i) else s))
    (fun n s => ∃ w, s.2 < n ∧ values[s.2]? = some w ∧ s.1 = |v - w| ∧
      ∀ i w', i < n → values[i]? = some w' → |v - w| ≤ |v - w'| ∧ (i < s.2 → |v - w| < |v - w'|))
    (values.length - 1) 1 (|v - values[0]|, 0)
    ⟨values[0], by simp, by simp, rfl, by
      intro i w' hi hw
      obtain rfl : i = 0 := by omega
      rw [List.getElem?_eq_getElem hne] at hw
      obtain rfl := Option.some.inj hw
      exact ⟨le_refl _, fun h => absurd h (lt_irrefl _)⟩⟩
    (by
      rintro j s hj1 hj2 ⟨w, e0, e1, e2, e3⟩
      have hj : j < values.length := by omega
      refine ⟨_, bind_eq (vat_ok_of_lt hj) rfl, ?_⟩
      by_cases hlt : |v - values[j]| < s.1
      · rw [if_pos hlt]
        refine ⟨values[j], by simp, by simp, rfl, ?_⟩
        intro i w' hi hw'
        by_cases hij : i = j
        · subst hij
          rw [List.getElem?_eq_getElem hj] at hw'
          obtain rfl := Option.some.inj hw'
          exact ⟨le_refl _, fun h => absurd h (lt_irrefl _)⟩
        · have := (e3 i w' (by omega) hw').1
          rw [e2] at hlt
          exact ⟨(hlt.trans_le this).le, fun _ => hlt.trans_le this⟩
      · rw [if_neg hlt]
        refine ⟨w, by omega, e1, e2, ?_⟩
        intro i w' hi hw'
        by_cases hij : i = j
        · subst hij
          rw [List.getElem?_eq_getElem hj] at hw'
          obtain rfl := Option.some.inj hw'
          exact ⟨by rw [← e2]; exact not_lt.1 hlt, fun h => absurd h (by omega)⟩
        · exact e3 i w' (by omega) hw')
  refine bind_okP h1 (okP_ok ⟨w, h2, ?_⟩)
  intro i w' hw'
  exact h4 i w' (by have := (List.getElem?_eq_some_iff.1 hw').1; omega) hw'

theorem generate_ok {s : DiscreteSetup K} {i : Nat} {dx l u : K} (hdx : 0 < dx)
    (hl : s.lb[i]? = some l) (hu : s.ub[i]? = some u) (hlu : l ≤ u) (hfew : (u - l) / dx < 2 ^ 32 - 1) :
    OkP (generateDiscreteValues s i dx) (fun values => 0 < values.length ∧
      (∀ (k : Nat) w, values[k]? = some w → w = l + (k : K) * dx ∧ w ≤ u) ∧
      ∀ k : Nat, l + (k : K) * dx ≤ u → values[k]? = some (l + (k : K) * dx)) := by
  unfold generateDiscreteValues
  refine bind_okP (vat_eq_ok.2 hu) (bind_okP (vat_eq_ok.2 hl) ?_)
  rw [if_neg hdx.ne']
  have hq : 0 ≤ (u - l) / dx := div_nonneg (by linarith) hdx.le
  have hto : toU32 ((u - l) / dx) = .ok (Int.floor ((u - l) / dx)).toNat := by
    unfold toU32
    rw [if_neg]
    rintro (h | h)
    · linarith
    · linarith
  refine bind_okP hto ?_
  set q := (u - l) / dx with hqdef
  have hfl : 0 ≤ Int.floor q := Int.floor_nonneg.2 hq
  obtain ⟨n, hn⟩ : ∃ n : Nat, Int.floor q = (n : Int) := ⟨_, (Int.toNat_of_nonneg hfl).symm⟩
  have hn1 : (n : K) ≤ q := by have := Int.floor_le q; rw [hn] at this; exact_mod_cast this
  have hn2 : q < (n : K) + 1 := by have := Int.lt_floor_add_one q; rw [hn] at this; exact_mod_cast this
  have hn3 : n + 1 < 2 ^ 32 := by
    have : (n : K) + 1 < 2 ^ 32 := by linarith
    exact_mod_cast this
  rw [hn, Int.toNat_natCast, Nat.mod_eq_of_lt hn3]
  have key : ∀ k : Nat, l + (k : K) * dx ≤ u ↔ k < n + 1 := by
    intro k
    have h1 : l + (k : K) * dx ≤ u ↔ (k : K) ≤ q := by
      rw [hqdef, le_div_iff₀ hdx]; constructor <;> intro h <;> linarith
    rw [h1]
    constructor
    · intro h
      have : (k : K) < (n : K) + 1 := lt_of_le_of_lt h hn2
      exact_mod_cast this
    · intro h
      have : (k : K) ≤ n := by exact_mod_cast Nat.lt_succ_iff.1 h
      exact this.trans hn1
  refine ⟨_, tab_ok (g := fun k => l + (k : K) * dx) (fun k _ => bind_eq (vat_eq_ok.2 hl) rfl),
    by simp, ?_, ?_⟩
  · intro k w hw
    obtain ⟨h1, h2⟩ := List.getElem?_eq_some_iff.1 hw
    simp only [List.getElem_map, List.getElem_range] at h2
    simp only [List.length_map, List.length_range] at h1
    exact ⟨h2.symm, by rw [← h2]; exact (key k).2 h1⟩
  · intro k hk
    have := (key k).1 hk
    simp [this]

/-- There is only one closest grid value. -/
theorem closest_unique {lb ub dx v r r' : K} (h : ClosestOnGrid lb ub dx v r)
    (h' : ClosestOnGrid lb ub dx v r') : r = r' := by
  have e : |v - r| = |v - r'| := le_antisymm (h.2 r' h'.1).1 (h'.2 r h.1).1
  exact le_antisymm ((h.2 r' h'.1).2 e) ((h'.2 r h.1).2 e.symm)

/-- A grid value is its own closest grid value. -/
theorem closest_self {lb ub dx r : K} (h : OnGrid lb ub dx r) : ClosestOnGrid lb ub dx r r := by
  refine ⟨h, ?_⟩
  intro r' _
  rw [sub_self, abs_zero]
  refine ⟨abs_nonneg _, ?_⟩
  intro e
  have := abs_eq_zero.1 e.symm
  linarith

theorem roundOne_ok {s : DiscreteSetup K} {j i : Nat} {dx l u v : K} {x : List K}
    (hj : s.indices[j]? = some i) (hdx : s.increments[j]? = some dx) (hpos : 0 < dx)
    (hl : s.lb[i]? = some l) (hu : s.ub[i]? = some u) (hlu : l ≤ u)
    (hfew : (u - l) / dx < 2 ^ 32 - 1) (hx : x[i]? = some v) :
    ∃ w, roundOne s j x = .ok (x.set i w) ∧ ClosestOnGrid l u dx v w := by
  obtain ⟨values, e1, h1, h2, h3⟩ := generate_ok hpos hl hu hlu hfew
  obtain ⟨k, e2, w, hw, h4⟩ := findClosest_ok v values h1
  refine ⟨w, ?_, ?_⟩
  · unfold roundOne
    have r1 : rawAt s.indices j = .ok i := by simp [rawAt, hj]
    have r2 : rawAt s.increments j = .ok dx := by simp [rawAt, hdx]
    refine bind_eq r1 (bind_eq (vat_eq_ok.2 hx) (bind_eq r2 (bind_eq e1 (bind_eq e2
      (bind_eq (vat_eq_ok.2 hw) ?_)))))
    exact Vec.put_eq (List.getElem?_eq_some_iff.1 hx).1
  · obtain ⟨g1, g2⟩ := h2 k w hw
    refine ⟨⟨⟨k, g1⟩, g2⟩, ?_⟩
    rintro r' ⟨⟨k', rfl⟩, hk'⟩
    obtain ⟨a1, a2⟩ := h4 k' _ (h3 k' hk')
    refine ⟨a1, fun e => ?_⟩
    by_contra hlt
    rw [g1] at hlt
    have hkk : k' < k := by
      by_contra hge
      have : (k : K) ≤ k' := by exact_mod_cast not_lt.1 hge
      have := mul_le_mul_of_nonneg_right this hpos.le
      exact hlt (by linarith)
    exact absurd e (a2 hkk).ne

/-- Rounding, for every design. -/
theorem round_ok {d : Nat} {s : DiscreteSetup K} (hs : DiscreteBox d s) (hfew : FewValues s)
    {x : List K} (hx : x.length = d) :
    OkP (roundDiscreteParameters s x) (RoundedTo s x) := by
  obtain ⟨s1, s2, s3, s4, s5⟩ := hs
  unfold roundDiscreteParameters
  have hloop : OkP (forRange s.indices.length (roundOne s) x) (RoundedTo s x) := by
    obtain ⟨r, h1, h2, h3, h4⟩ := forRange_inv (body := roundOne s) (n := s.indices.length) (s := x)
      (fun n r => r.length = x.length ∧
        (∀ (j i : Nat) (dx l u v w : K), j < n → s.indices[j]? = some i → s.increments[j]? = some dx →
          s.lb[i]? = some l → s.ub[i]? = some u → x[i]? = some v → r[i]? = some w →
          ClosestOnGrid l u dx v w) ∧
        ∀ i : Nat, i ∉ s.indices.take n → r[i]? = x[i]?)
      ⟨rfl, fun j i dx l u v w hj => absurd hj (Nat.not_lt_zero _), fun i _ => rfl⟩ (by
        rintro j r hj ⟨e1, e2, e3⟩
        have hdxl : j < s.increments.length := by omega
        have hji : s.indices[j]? = some s.indices[j] := List.getElem?_eq_getElem hj
        have hjd : s.increments[j]? = some s.increments[j] := List.getElem?_eq_getElem hdxl
        set i := s.indices[j] with hi
        obtain ⟨q1, q2, q3⟩ := s5 j i _ hji hjd
        have hli : s.lb[i]? = some s.lb[i] := List.getElem?_eq_getElem (by omega)
        have hui : s.ub[i]? = some s.ub[i] := List.getElem?_eq_getElem (by omega)
        have hxi : x[i]? = some x[i] := List.getElem?_eq_getElem (by omega)
        have hnot : i ∉ s.indices.take j := by
          intro hmem
          obtain ⟨k, hk, hk'⟩ := List.getElem_of_mem hmem
          simp only [List.length_take] at hk
          rw [List.getElem_take] at hk'
          have := (List.nodup_iff_injective_get.1 s4) (a₁ := ⟨k, by omega⟩) (a₂ := ⟨j, hj⟩)
            (by simpa [hi] using hk')
          have := congrArg Fin.val this
          simp only at this
          omega
        have hri : r[i]? = some x[i] := (e3 i hnot).trans hxi
        obtain ⟨w, f1, f2⟩ := roundOne_ok hji hjd q2 hli hui (q3 _ _ hli hui)
          (hfew j i _ _ _ hji hjd hli hui) hri
        refine ⟨_, f1, by simpa using e1, ?_, ?_⟩
        · intro j' i' dx' l' u' v' w' hj' h1 h2 h3 h4 h5 h6
          by_cases hjj : j' = j
          · subst hjj
            rw [hji] at h1; obtain rfl := Option.some.inj h1
            rw [hjd] at h2; obtain rfl := Option.some.inj h2
            rw [hli] at h3; obtain rfl := Option.some.inj h3
            rw [hui] at h4; obtain rfl := Option.some.inj h4
            rw [hxi] at h5; obtain rfl := Option.some.inj h5
            rw [List.getElem?_set_self (by omega)] at h6
            obtain rfl := Option.some.inj h6
            exact f2
          · have hii : i ≠ i' := by
              intro e
              have h7 := (List.getElem?_eq_some_iff.1 h1)
              obtain ⟨h8, h9⟩ := h7
              have := (List.nodup_iff_injective_get.1 s4) (a₁ := ⟨j', h8⟩) (a₂ := ⟨j, hj⟩)
                (by simp [h9, ← e, hi])
              exact hjj (congrArg Fin.val this)
            rw [List.getElem?_set_ne hii] at h6
            exact e2 j' i' dx' l' u' v' w' (by omega) h1 h2 h3 h4 h5 h6
        · intro i' hi'
          rw [List.take_add_one] at hi'
          rw [hji] at hi'
          simp only [Option.toList_some, List.mem_append, List.mem_singleton, not_or] at hi'
          rw [List.getElem?_set_ne (Ne.symm hi'.2)]
          exact e3 i' hi'.1)
    refine ⟨r, h1, h2, ?_, ?_⟩
    · intro j i dx l u v w hj
      exact h3 j i dx l u v w (List.getElem?_eq_some_iff.1 hj).1 hj
    · intro i hi
      exact h4 i (by rwa [List.take_length])
  split_ifs with h
  · exact hloop
  · have : s.indices.length = 0 := by omega
    rw [this] at hloop
    exact hloop

/-- The rounded design is determined by the specification. -/
theorem roundedTo_unique {d : Nat} {s : DiscreteSetup K} (hs : DiscreteBox d s) {x r r' : List K}
    (hx : x.length = d) (h : RoundedTo s x r) (h' : RoundedTo s x r') : r = r' := by
  obtain ⟨s1, s2, s3, s4, s5⟩ := hs
  apply List.ext_getElem?
  intro i
  by_cases hi : i ∈ s.indices
  · obtain ⟨j, hj, hj'⟩ := List.getElem_of_mem hi
    have hji : s.indices[j]? = some i := by rw [List.getElem?_eq_getElem hj, hj']
    have hjd : s.increments[j]? = some (s.increments[j]'(by omega)) :=
      List.getElem?_eq_getElem (by omega)
    obtain ⟨q1, -, -⟩ := s5 j i _ hji hjd
    have g : ∀ (l : List K), l.length = d → l[i]? = some (l.getD i 0) := by
      intro l hl
      have : i < l.length := by omega
      simp [List.getD, this]
    have a := h.2.1 j i _ _ _ _ _ hji hjd (g _ s1) (g _ s2) (g _ hx) (g r (h.1.trans hx))
    have b := h'.2.1 j i _ _ _ _ _ hji hjd (g _ s1) (g _ s2) (g _ hx) (g r' (h'.1.trans hx))
    rw [g r (h.1.trans hx), g r' (h'.1.trans hx), closest_unique a b]
  · rw [h.2.2 i hi, h'.2.2 i hi]

end Rodeo
