import Verif.Lemmas.DblTrip
import Verif.Spec.Box
import Mathlib.Data.Rat.Floor

/-! # C114: normalizing a design and back, in double arithmetic -/

set_option linter.unusedSectionVars false

namespace Rodeo

open Spec Dbl

variable {K : Type} [Field K] [LinearOrder K] [IsStrictOrderedRing K] [FloorRing K]

/-- C114 in full: a design of the box that is normalized and denormalized is the same design. -/
def C114_full (K : Type) [Field K] [LinearOrder K] [IsStrictOrderedRing K] [FloorRing K] : Prop :=
  ∀ (n : Nat) (lb ub x z y : List K), ValidBox n lb ub → Doubles lb → Doubles ub → Doubles x →
    InBox lb ub x → Dbl.normalizeVector x lb ub = .ok z → Dbl.denormalizeVector z lb ub = .ok y → y = x

/-- Between -3 and 0.1 the value 0.1 comes back as 0.10000000000000009. -/
theorem C114_false : ¬ C114_full ℚ := by
  intro h
  have h1 := h 1 [-3] [fl (1 / 10)] [fl (1 / 10)] [1] [fl (fl (fl (1 / 10) + 3) - 3)]
    (by
      refine ⟨by norm_num, rfl, rfl, ?_⟩
      intro i l u hl hu
      cases i with
      | zero =>
        simp only [List.getElem?_cons_zero, Option.some.injEq] at hl hu
        rw [← hl, ← hu]; decide +kernel
      | succ i => simp at hl)
    (by
      intro x hx
      rw [List.mem_singleton.1 hx]; exact ⟨-3, 0, by norm_num, by norm_num, by norm_num⟩)
    (by intro x hx; rw [List.mem_singleton.1 hx]; exact fl_isDouble _)
    (by intro x hx; rw [List.mem_singleton.1 hx]; exact fl_isDouble _)
    (by
      refine ⟨rfl, rfl, ?_⟩
      intro i l u v hl hu hv
      cases i with
      | zero =>
        simp only [List.getElem?_cons_zero, Option.some.injEq] at hl hu hv
        rw [← hl, ← hu, ← hv]
        exact ⟨by decide +kernel, le_rfl⟩
      | succ i => simp at hl)
    (by decide +kernel) (by decide +kernel)
  exact absurd h1 (by decide +kernel)

theorem rawAt_some {v : List K} {i : Nat} {a : K} (h : v[i]? = some a) : rawAt v i = .ok a := by
  obtain ⟨h1, rfl⟩ := List.getElem?_eq_some_iff.1 h
  exact rawAt_ok_of_lt h1

/-- C114, what holds of the code: for every number of parameters and every box that is neither extremely
narrow nor extremely large, both calls return, each value comes back up to `14 * 2 ^ (-53)` of the size of
its bounds, and lower bounds come back exactly.  Missing: other values need not come back exactly
(`C114_false`). -/
theorem C114_partial {n : Nat} {lb ub x : List K} (hb : ValidBox n lb ub) (hn : n < 2 ^ 32)
    (hlb : Doubles lb) (hub : Doubles ub) (hx : InBox lb ub x)
    (hw : ∀ (i : Nat) (l u : K), lb[i]? = some l → ub[i]? = some u →
      2 ^ (-900 : ℤ) ≤ u - l ∧ |l| + |u| ≤ 2 ^ (1000 : ℤ)) :
    ∃ z y, Dbl.normalizeVector x lb ub = .ok z ∧ Dbl.denormalizeVector z lb ub = .ok y ∧ y.length = n ∧
      ∀ (i : Nat) (l u v w : K), lb[i]? = some l → ub[i]? = some u → x[i]? = some v → y[i]? = some w →
        |w - v| ≤ 14 / 2 ^ 53 * (|l| + |u|) ∧ (v = l → w = l) := by
  obtain ⟨b0, b1, b2, b3⟩ := hb
  obtain ⟨x1, x2, x3⟩ := hx
  have hxn : x.length = n := x1.trans b1
  have key : ∀ i, i < n → ∃ l u v f a p d z t m r, lb[i]? = some l ∧ ub[i]? = some u ∧ x[i]? = some v ∧
      Dbl.div 1 (n : K) = .ok f ∧ Dbl.sub v l = .ok a ∧ Dbl.mul f a = .ok p ∧ Dbl.sub u l = .ok d ∧
      Dbl.div p d = .ok z ∧ Dbl.mul z (n : K) = .ok t ∧ Dbl.mul t d = .ok m ∧ Dbl.add m l = .ok r ∧
      |r - v| ≤ 14 * eps * (|l| + |u|) ∧ (v = l → r = l) := by
    intro i hi
    have h1 : lb[i]? = some (lb[i]'(by omega)) := List.getElem?_eq_getElem (by omega)
    have h2 : ub[i]? = some (ub[i]'(by omega)) := List.getElem?_eq_getElem (by omega)
    have h3 : x[i]? = some (x[i]'(by omega)) := List.getElem?_eq_getElem (by omega)
    obtain ⟨w1, w2⟩ := hw i _ _ h1 h2
    obtain ⟨i1, i2⟩ := x3 i _ _ _ h1 h2 h3
    obtain ⟨f, a, p, d, z, t, m, r, e⟩ := trip (hlb _ (List.mem_of_getElem? h1))
      (hub _ (List.mem_of_getElem? h2)) i1 i2 b0 hn w1 w2
    exact ⟨_, _, _, f, a, p, d, z, t, m, r, h1, h2, h3, e⟩
  have hz : ∃ z : List K, Dbl.normalizeVector x lb ub = .ok z ∧ z.length = n ∧
      ∀ i, i < n → ∃ l u v a d zi t m r : K, lb[i]? = some l ∧ ub[i]? = some u ∧ x[i]? = some v ∧
        z[i]? = some zi ∧ Dbl.sub u l = .ok d ∧ Dbl.mul zi (n : K) = .ok t ∧ Dbl.mul t d = .ok m ∧
        Dbl.add m l = .ok r ∧ |r - v| ≤ 14 * eps * (|l| + |u|) ∧ (v = l → r = l) ∧ a = v := by
    choose! L U V F A P D Z T M R hk using key
    refine ⟨(List.range n).map Z, ?_, by simp, ?_⟩
    · unfold Dbl.normalizeVector
      rw [hxn]
      obtain ⟨-, -, -, e, -⟩ := hk 0 b0
      refine bind_eq e ?_
      refine tab_ok fun i hi => ?_
      obtain ⟨h1, h2, h3, h4, h5, h6, h7, h8, -⟩ := hk i hi
      have e4 : F i = F 0 := Except.ok.inj (h4.symm.trans e)
      rw [e4] at h6
      refine bind_eq (rawAt_some h3) (bind_eq (vat_eq_ok.2 h1) (bind_eq (vat_eq_ok.2 h2) ?_))
      exact bind_eq h5 (bind_eq h6 (bind_eq h7 h8))
    · intro i hi
      obtain ⟨h1, h2, h3, h4, h5, h6, h7, h8, h9, h10, h11, h12, h13⟩ := hk i hi
      exact ⟨L i, U i, V i, V i, D i, Z i, T i, M i, R i, h1, h2, h3, by
        rw [List.getElem?_map, List.getElem?_range hi, Option.map_some], h7, h9, h10, h11, h12, h13, rfl⟩
  obtain ⟨z, hz1, hz2, hz3⟩ := hz
  choose! L U V A D Z T M R hk using hz3
  refine ⟨z, (List.range n).map R, hz1, ?_, by simp, ?_⟩
  · unfold Dbl.denormalizeVector
    rw [hz2]
    refine tab_ok fun i hi => ?_
    obtain ⟨h1, h2, h3, h4, h5, h6, h7, h8, -⟩ := hk i hi
    refine bind_eq (rawAt_some h4) (bind_eq (vat_eq_ok.2 h2) (bind_eq (vat_eq_ok.2 h1) ?_))
    exact bind_eq h6 (bind_eq h5 (bind_eq h7 h8))
  · intro i l u v w hl hu hv hw'
    have hi : i < n := by
      have := (List.getElem?_eq_some_iff.1 hw').1
      simpa using this
    obtain ⟨h1, h2, h3, h4, h5, h6, h7, h8, h9, h10, -⟩ := hk i hi
    rw [hl] at h1; rw [hu] at h2; rw [hv] at h3
    rw [List.getElem?_map, List.getElem?_range hi, Option.map_some] at hw'
    obtain rfl := Option.some.inj h1
    obtain rfl := Option.some.inj h2
    obtain rfl := Option.some.inj h3
    obtain rfl := Option.some.inj hw'
    refine ⟨h9.trans (le_of_eq ?_), h10⟩
    unfold eps
    ring

/-- A normalized value can exceed the upper end 1 / n of the normalized interval: with five parameters
between 0 and 0.1 the upper bound 0.1 is normalized to 0.20000000000000004. -/
theorem C114_above : ∃ z0 z1 z2 z3 z4 : ℚ, Dbl.normalizeVector (K := ℚ) (List.replicate 5 (fl (1 / 10)))
    (List.replicate 5 0) (List.replicate 5 (fl (1 / 10))) = .ok [z0, z1, z2, z3, z4] ∧
    Dbl.div (1 : ℚ) 5 = .ok (fl (1 / 5)) ∧ fl (1 / 5 : ℚ) < z0 :=
  let z : ℚ := fl (fl (fl (1 / 5) * fl (1 / 10)) / fl (1 / 10))
  ⟨z, z, z, z, z, by decide +kernel, by decide +kernel, by decide +kernel⟩

/-- The box [-3, 0.1] x [0, 8] meets the hypotheses. -/
example : ∃ z y : List ℚ, Dbl.normalizeVector [fl (1 / 10), 3] [-3, 0] [fl (1 / 10), 8] = .ok z ∧
    Dbl.denormalizeVector z [-3, 0] [fl (1 / 10), 8] = .ok y ∧ y.length = 2 ∧
    ∀ (i : Nat) (l u v w : ℚ), [-3, 0][i]? = some l → [fl (1 / 10), 8][i]? = some u →
      [fl (1 / 10), 3][i]? = some v → y[i]? = some w →
      |w - v| ≤ 14 / 2 ^ 53 * (|l| + |u|) ∧ (v = l → w = l) := by
  have two : ∀ {P : Nat → Prop}, P 0 → P 1 → (∀ i, P (i + 2)) → ∀ i, P i := by
    intro P h0 h1 h2 i
    match i with
    | 0 => exact h0
    | 1 => exact h1
    | i + 2 => exact h2 i
  refine C114_partial ⟨by norm_num, rfl, rfl, ?_⟩ (by norm_num) ?_ ?_ ⟨rfl, rfl, ?_⟩ ?_
  · refine two ?_ ?_ ?_
    · intro l u hl hu; cases hl; cases hu; decide +kernel
    · intro l u hl hu; cases hl; cases hu; decide +kernel
    · intro i l u hl; simp at hl
  · intro x hx
    simp only [List.mem_cons, List.not_mem_nil, or_false] at hx
    rcases hx with rfl | rfl
    · exact ⟨-3, 0, by norm_num, by norm_num, by norm_num⟩
    · exact isDouble_zero
  · intro x hx
    simp only [List.mem_cons, List.not_mem_nil, or_false] at hx
    rcases hx with rfl | rfl
    · exact fl_isDouble _
    · exact ⟨8, 0, by norm_num, by norm_num, by norm_num⟩
  · refine two ?_ ?_ ?_
    · intro l u v hl hu hv; cases hl; cases hu; cases hv; decide +kernel
    · intro l u v hl hu hv; cases hl; cases hu; cases hv; decide +kernel
    · intro i l u v hl; simp at hl
  · refine two ?_ ?_ ?_
    · intro l u hl hu; cases hl; cases hu; decide +kernel
    · intro l u hl hu; cases hl; cases hu; decide +kernel
    · intro i l u hl; simp at hl

end Rodeo
