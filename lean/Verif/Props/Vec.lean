import Verif.Lemmas.Vec
import Verif.Props.Bounds
import Mathlib.Tactic.FieldSimp
import Mathlib.Data.List.Sort
import Mathlib.Algebra.Order.Floor.Ring
import Mathlib.Data.Rat.Floor

/-! # C05 - C08: vectors -/

set_option linter.unusedSectionVars false

namespace Rodeo
open Spec

variable {K : Type} [Field K] [LinearOrder K] [IsStrictOrderedRing K]

/-- C05, round trips: in a valid box, normalizing then denormalizing gives the vector back, and the
other way round; and a vector is in the box exactly when its normalized entries are in
`[0, 1/d]`. -/
theorem C05_normalize_roundtrip {d : Nat} {lb ub : List K} (hb : ValidBox d lb ub) (x : List K)
    (hx : x.length = d) :
    (∃ n, Vec.normalizeVector x lb ub = .ok n ∧ n.length = d ∧
      Vec.denormalizeVector n lb ub = .ok x ∧
      (InBox lb ub x ↔ InBox (List.replicate d 0) (List.replicate d (1 / (d : K))) n)) ∧
    (∃ y, Vec.denormalizeVector x lb ub = .ok y ∧ y.length = d ∧
      Vec.normalizeVector y lb ub = .ok x ∧
      (InBox lb ub y ↔ InBox (List.replicate d 0) (List.replicate d (1 / (d : K))) x)) := by
  obtain ⟨h0, hl, hu, hlt⟩ := hb
  have hd : (0 : K) < (d : K) := by exact_mod_cast h0
  have hpos : ∀ i (hi : i < d), 0 < ub[i] - lb[i] := by
    intro i hi
    have := hlt i lb[i] ub[i] (by simp) (by simp)
    linarith
  have hbox : ∀ (y n : List K) (hy : y.length = d) (hn : n.length = d),
      (∀ i (hi : i < d), n[i] = (1 / (d : K)) * (y[i] - lb[i]) / (ub[i] - lb[i])) →
      (InBox lb ub y ↔ InBox (List.replicate d 0) (List.replicate d (1 / (d : K))) n) := by
    intro y n hy hn h
    have key : ∀ i (hi : i < d), (lb[i] ≤ y[i] ∧ y[i] ≤ ub[i]) ↔ (0 ≤ n[i] ∧ n[i] ≤ 1 / (d : K)) := by
      intro i hi
      have hp := hpos i hi
      rw [h i hi]
      have e : (1 / (d : K)) * (y[i] - lb[i]) / (ub[i] - lb[i]) =
          (y[i] - lb[i]) / ((d : K) * (ub[i] - lb[i])) := by
        field_simp
      have hp2 : 0 < (d : K) * (ub[i] - lb[i]) := mul_pos hd hp
      rw [e, le_div_iff₀ hp2, div_le_div_iff₀ hp2 hd]
      constructor
      · rintro ⟨h1, h2⟩; constructor <;> nlinarith
      · rintro ⟨h1, h2⟩
        refine ⟨by linarith, ?_⟩
        have : (y[i] - lb[i]) * (d : K) ≤ (ub[i] - lb[i]) * (d : K) := by nlinarith
        have := le_of_mul_le_mul_right this hd
        linarith
    constructor
    · rintro ⟨_, _, h3⟩
      refine ⟨by simp [hn], by simp [hn], ?_⟩
      intro i l u v h4 h5 h6
      rw [List.getElem?_eq_some_iff] at h4 h5 h6
      obtain ⟨hi, rfl⟩ := h4
      obtain ⟨hi', rfl⟩ := h5
      obtain ⟨hi'', rfl⟩ := h6
      simp at hi
      have := (key i hi).1 (h3 i lb[i] ub[i] y[i] (by simp) (by simp) (by simp))
      simpa using this
    · rintro ⟨_, _, h3⟩
      refine ⟨by omega, by omega, ?_⟩
      intro i l u v h4 h5 h6
      rw [List.getElem?_eq_some_iff] at h4 h5 h6
      obtain ⟨hi, rfl⟩ := h4
      obtain ⟨hi', rfl⟩ := h5
      obtain ⟨hi'', rfl⟩ := h6
      have hid : i < d := by omega
      exact (key i hid).2 (h3 i 0 (1 / (d : K)) n[i] (by simp [hid]) (by simp [hid]) (by simp))
  constructor
  · refine ⟨Vec.nrm d x lb ub hx hl hu, ?_, by simp [Vec.nrm], ?_, ?_⟩
    · exact Vec.normalizeVector_eq hx hl hu (by simp [Vec.nrm]) (by intro i hi; simp [Vec.nrm])
    · apply Vec.denormalizeVector_eq hx hl hu (by simp [Vec.nrm])
      intro i hi
      have hp := hpos i hi
      simp only [Vec.nrm, List.getElem_ofFn, Fin.getElem_fin]
      field_simp
      ring
    · exact hbox _ _ hx (by simp [Vec.nrm]) (by intro i hi; simp [Vec.nrm])
  · have hn : ∀ i (hi : i < d),
        x[i] = (1 / (d : K)) * ((Vec.dnrm d x lb ub hx hl hu)[i]'(by simp [Vec.dnrm, hi]) - lb[i]) /
          (ub[i] - lb[i]) := by
      intro i hi
      have hp := hpos i hi
      simp only [Vec.dnrm, List.getElem_ofFn, Fin.getElem_fin]
      field_simp
      ring
    refine ⟨Vec.dnrm d x lb ub hx hl hu, ?_, by simp [Vec.dnrm], ?_, ?_⟩
    · exact Vec.denormalizeVector_eq (by simp [Vec.dnrm]) hl hu hx (by intro i hi; simp [Vec.dnrm])
    · exact Vec.normalizeVector_eq (by simp [Vec.dnrm]) hl hu hx hn
    · exact hbox _ _ (by simp [Vec.dnrm]) hx hn

/-- C05, the three normalization variants agree: precomputed ranges and scalar limits give the same
result as the vector variant. -/
theorem C05_variants_agree {d : Nat} {lb ub diff : List K} (hl : lb.length = d) (hu : ub.length = d)
    (hd : Vec.sub ub lb = .ok diff) (x : List K) (hx : x.length = d) (a b : K) :
    Vec.normalizeVectorFast x lb diff = Vec.normalizeVector x lb ub ∧
    Vec.denormalizeVectorFast x lb diff = Vec.denormalizeVector x lb ub ∧
    Vec.normalizeVectorScalar x a b =
      Vec.normalizeVector x (List.replicate d a) (List.replicate d b) := by
  unfold Vec.sub at hd
  rw [if_neg (by omega)] at hd
  obtain ⟨hdl, hde⟩ := tab_inv hd
  have hdi : ∀ i (hi : i < d), diff[i] = ub[i] - lb[i] := by
    intro i hi
    have h1 : i < ub.length := by omega
    have h2 : i < lb.length := by omega
    obtain ⟨a, ha, ha'⟩ := hde i h1
    simp only [rawAt_ok_of_lt h1, rawAt_ok_of_lt h2, Except.ok.injEq] at ha
    have h3 : i < diff.length := by omega
    rw [List.getElem?_eq_getElem h3] at ha'
    simp only [Option.some.injEq] at ha'
    rw [ha', ← ha]
  refine ⟨?_, ?_, ?_⟩
  · rw [Vec.normalizeVector_eq (n := Vec.nrm d x lb ub hx hl hu) hx hl hu (by simp [Vec.nrm])
      (by intro i hi; simp [Vec.nrm])]
    unfold Vec.normalizeVectorFast
    apply tab_ok_list (by simp [Vec.nrm, hx])
    intro j hj
    simp only [Vec.nrm, List.length_ofFn] at hj
    have h1 : j < x.length := by omega
    have h2 : j < lb.length := by omega
    have h3 : j < diff.length := by omega
    simp [rawAt_ok_of_lt h1, vat_ok_of_lt h2, vat_ok_of_lt h3, hdi j hj, hx, Vec.nrm]
  · rw [Vec.denormalizeVector_eq (x := Vec.dnrm d x lb ub hx hl hu) (by simp [Vec.dnrm]) hl hu hx
      (by intro i hi; simp [Vec.dnrm])]
    unfold Vec.denormalizeVectorFast
    apply tab_ok_list (by simp [Vec.dnrm, hx])
    intro j hj
    simp only [Vec.dnrm, List.length_ofFn] at hj
    have h1 : j < x.length := by omega
    have h2 : j < lb.length := by omega
    have h3 : j < diff.length := by omega
    simp [rawAt_ok_of_lt h1, vat_ok_of_lt h2, vat_ok_of_lt h3, hdi j hj, hx, Vec.dnrm]
  · have e1 : (List.replicate d a).length = d := by simp
    have e2 : (List.replicate d b).length = d := by simp
    rw [Vec.normalizeVector_eq (n := Vec.nrm d x _ _ hx e1 e2) hx e1 e2 (by simp [Vec.nrm])
      (by intro i hi; simp [Vec.nrm])]
    unfold Vec.normalizeVectorScalar
    apply tab_ok_list (by simp [Vec.nrm, hx])
    intro j hj
    simp only [Vec.nrm, List.length_ofFn] at hj
    have h1 : j < x.length := by omega
    simp [rawAt_ok_of_lt h1, hx, Vec.nrm]

/-- Non-vacuity of C05: a two-dimensional box. -/
example : ValidBox 2 [(0 : ℚ), -1] [4, 1] ∧
    Vec.normalizeVector [(1 : ℚ), 1] [0, -1] [4, 1] = .ok [1/8, 1/2] ∧
    Vec.denormalizeVector [(1/8 : ℚ), 1/2] [0, -1] [4, 1] = .ok [1, 1] := by
  refine ⟨?_, by decide +kernel, by decide +kernel⟩
  rw [validBox_iff]
  refine ⟨by decide, rfl, rfl, ?_⟩
  intro i hi
  match i, hi with
  | 0, _ => norm_num
  | 1, _ => norm_num

/-- C06 in full. -/
def C06_full (K : Type) [Field K] [LinearOrder K] [IsStrictOrderedRing K] : Prop :=
  ∀ (x : List K), x.Pairwise (· ≤ ·) → ∀ (h : x ≠ []) (v : K),
    (v < x.head h → Vec.findInterval x v = .ok (-1)) ∧
    (x.getLast h ≤ v → Vec.findInterval x v = .ok ((x.length : Int) - 1)) ∧
    (∀ (i : Nat) (a b : K), x[i]? = some a → x[i + 1]? = some b → a ≤ v → v < b →
      Vec.findInterval x v = .ok (i : Int))

/-- C06 is false at the last entry: for every sorted vector, looking up its own last entry answers
"not found". -/
theorem C06_gap (x : List K) (hs : x.Pairwise (· ≤ ·)) (h : x ≠ []) :
    Vec.findInterval x (x.getLast h) = .ok (-1) := by
  have hlen : 0 < x.length := List.length_pos_iff.2 h
  unfold Vec.findInterval
  rw [if_neg (by omega)]
  obtain ⟨r, hr, hr'⟩ := Vec.isSortedAsc_eq x
  rw [hr, hr'.2 hs]
  have hmono : ∀ i j (hi : i < x.length) (hj : j < x.length), i ≤ j → x[i] ≤ x[j] := by
    intro i j hi hj hij
    rcases Nat.lt_or_eq_of_le hij with h' | h'
    · exact List.pairwise_iff_getElem.1 hs i j hi hj h'
    · subst h'; exact le_refl _
  rcases Vec.findIntervalLoop_spec x (x.getLast h) (x.length - 1) 0 (by omega) with
    ⟨j, _, hj1, hj2, h3, h4, h5⟩ | ⟨h3, h4⟩
  · exfalso
    rw [List.getLast_eq_getElem] at h5
    exact absurd h5 (not_lt.2 (hmono _ _ _ _ (by omega)))
  · simp only [h3]
    have : x.length - 1 < x.length := by omega
    simp only [rawAt_ok_of_lt this]
    rw [List.getLast_eq_getElem, if_neg (lt_irrefl _)]

theorem C06_false : ¬ C06_full ℚ := by
  intro h
  have := (h [0, 1] (by decide) (by simp) 1).2.1 (by simp)
  have h2 : Vec.findInterval [(0 : ℚ), 1] 1 = .ok (-1) := by
    simpa using C06_gap [(0 : ℚ), 1] (by decide) (by simp)
  rw [h2] at this
  simp at this

/-- C06 for all values except the last entry itself (which `C06_gap` shows to be missed); unsorted
vectors are rejected and the empty vector gives -1. -/
theorem C06_partial (x : List K) (v : K) :
    (x = [] → Vec.findInterval x v = .ok (-1)) ∧
    (¬ x.Pairwise (· ≤ ·) → Vec.findInterval x v = .error .logicError) ∧
    (x.Pairwise (· ≤ ·) → ∀ (h : x ≠ []),
      (v < x.head h → Vec.findInterval x v = .ok (-1)) ∧
      (x.getLast h < v → Vec.findInterval x v = .ok ((x.length : Int) - 1)) ∧
      (∀ (i : Nat) (a b : K), x[i]? = some a → x[i + 1]? = some b → a ≤ v → v < b →
        Vec.findInterval x v = .ok (i : Int))) := by
  obtain ⟨r, hr, hr'⟩ := Vec.isSortedAsc_eq x
  refine ⟨?_, ?_, ?_⟩
  · rintro rfl; rfl
  · intro hns
    have hlen : x.length ≠ 0 := by
      intro hc
      have : x = [] := List.length_eq_zero_iff.1 hc
      subst this; simp at hns
    have hrf : r = false := by
      by_contra hc
      exact hns (hr'.1 (by simpa using hc))
    unfold Vec.findInterval
    rw [if_neg hlen, hr, hrf]
  · intro hs h
    have hlen : 0 < x.length := List.length_pos_iff.2 h
    have hmono : ∀ i j (hi : i < x.length) (hj : j < x.length), i ≤ j → x[i] ≤ x[j] := by
      intro i j hi hj hij
      rcases Nat.lt_or_eq_of_le hij with h' | h'
      · exact List.pairwise_iff_getElem.1 hs i j hi hj h'
      · subst h'; exact le_refl _
    have hlast : x.length - 1 < x.length := by omega
    have hbody : Vec.findInterval x v =
        (match Vec.findIntervalLoop x v 0 (x.length - 1) with
        | .error e => .error e
        | .ok (some i) => .ok (i : Int)
        | .ok none =>
          match rawAt x (x.length - 1) with
          | .error e => .error e
          | .ok last => if v > last then .ok ((x.length : Int) - 1) else .ok (-1)) := by
      unfold Vec.findInterval
      rw [if_neg (by omega)]
      simp only [hr, hr'.2 hs]
      all_goals rfl
    rw [hbody]
    rcases Vec.findIntervalLoop_spec x v (x.length - 1) 0 (by omega) with
      ⟨j, _, hj1, hj2, h3, h4, h5⟩ | ⟨h3, h4⟩
    · rw [h3]
      refine ⟨?_, ?_, ?_⟩
      · intro hv
        rw [List.head_eq_getElem] at hv
        have := hmono 0 j (by omega) (by omega) (by omega)
        exact absurd (lt_of_lt_of_le hv this) (not_lt.2 h4)
      · intro hv
        rw [List.getLast_eq_getElem] at hv
        have := hmono (j + 1) (x.length - 1) (by omega) (by omega) (by omega)
        exact absurd (lt_of_lt_of_le h5 this) (not_lt.2 hv.le)
      · intro i a b ha hb h6 h7
        rw [List.getElem?_eq_some_iff] at ha hb
        obtain ⟨hi, rfl⟩ := ha
        obtain ⟨hi', rfl⟩ := hb
        have : i = j := by
          rcases Nat.lt_trichotomy i j with hc | hc | hc
          · have := hmono (i + 1) j (by omega) (by omega) (by omega)
            exact absurd (lt_of_lt_of_le h7 this) (not_lt.2 h4)
          · exact hc
          · have := hmono (j + 1) i (by omega) (by omega) (by omega)
            exact absurd (lt_of_lt_of_le h5 this) (not_lt.2 h6)
        rw [this]
    · simp only [h3, rawAt_ok_of_lt hlast]
      refine ⟨?_, ?_, ?_⟩
      · intro hv
        rw [List.head_eq_getElem] at hv
        have := hmono 0 (x.length - 1) (by omega) (by omega) (by omega)
        rw [if_neg (not_lt.2 (hv.le.trans this))]
      · intro hv
        rw [List.getLast_eq_getElem] at hv
        rw [if_pos hv]
      · intro i a b ha hb h6 h7
        rw [List.getElem?_eq_some_iff] at ha hb
        obtain ⟨hi, rfl⟩ := ha
        obtain ⟨hi', rfl⟩ := hb
        exact absurd ⟨h6, h7⟩ (h4 i (by omega) (by omega) hi')

example : Vec.findInterval [(0 : ℚ), 1, 1, 3] 2 = .ok 2 ∧
    Vec.findInterval [(0 : ℚ), 1, 1, 3] 1 = .ok 2 ∧
    Vec.findInterval [(0 : ℚ), 1, 1, 3] 4 = .ok 3 ∧
    Vec.findInterval [(0 : ℚ), 1, 1, 3] (-1) = .ok (-1) ∧
    Vec.findInterval [(1 : ℚ), 0] 0 = .error .logicError := by
  decide +kernel

/-- C07: the quantile, in terms of any sorted arrangement `s` of the entries: it interpolates
linearly between the entries of rank `⌊p(n-1)⌋` and `⌈p(n-1)⌉`, hence lies between them. -/
theorem C07_quantile [FloorRing K] (x s : List K) (hperm : s.Perm x) (hs : s.Pairwise (· ≤ ·))
    (hx : x ≠ []) (p : K) (h0 : 0 ≤ p) (h1 : p ≤ 1) :
    ∃ q a b, Vec.quantile x p = .ok q ∧
      s[⌊p * ((x.length : K) - 1)⌋₊]? = some a ∧ s[⌈p * ((x.length : K) - 1)⌉₊]? = some b ∧
      q = a + (p * ((x.length : K) - 1) - (⌊p * ((x.length : K) - 1)⌋₊ : K)) * (b - a) ∧
      a ≤ q ∧ q ≤ b := by
  have hlen : 0 < x.length := List.length_pos_iff.2 hx
  have hsort : x.insertionSort (fun a b => a ≤ b) = s := by
    apply List.Perm.eq_of_pairwise (le := (· ≤ ·))
    · intro a b _ _ h1 h2; exact le_antisymm h1 h2
    · exact List.pairwise_insertionSort (r := fun a b : K => a ≤ b) x
    · exact hs
    · exact (List.perm_insertionSort _ x).trans hperm.symm
  have hcast : ((x.length - 1 : Nat) : K) = (x.length : K) - 1 := by
    rw [Nat.cast_sub (by omega)]; simp
  set idx : K := p * ((x.length : K) - 1) with hidx
  have hn1 : (0 : K) ≤ (x.length : K) - 1 := by
    rw [← hcast]; exact Nat.cast_nonneg _
  have hidx0 : 0 ≤ idx := mul_nonneg h0 hn1
  have hidx1 : idx ≤ ((x.length - 1 : Nat) : K) := by
    rw [hcast, hidx]; nlinarith
  have hfl : (Int.floor idx).toNat = ⌊idx⌋₊ := Int.floor_toNat idx
  have hce : (Int.ceil idx).toNat = ⌈idx⌉₊ := Int.ceil_toNat idx
  have hcl : ⌈idx⌉₊ ≤ x.length - 1 := Nat.ceil_le.2 hidx1
  have hfc : ⌊idx⌋₊ ≤ ⌈idx⌉₊ := Nat.floor_le_ceil idx
  have hsl : s.length = x.length := hperm.length_eq
  have ha : ⌊idx⌋₊ < s.length := by omega
  have hb : ⌈idx⌉₊ < s.length := by omega
  have hab : s[⌊idx⌋₊] ≤ s[⌈idx⌉₊] := by
    rcases Nat.lt_or_eq_of_le hfc with h' | h'
    · exact List.pairwise_iff_getElem.1 hs _ _ ha hb h'
    · simp [h']
  have hw0 : 0 ≤ idx - (⌊idx⌋₊ : K) := by
    have := Nat.floor_le hidx0; linarith
  have hw1 : idx - (⌊idx⌋₊ : K) ≤ 1 := by
    have := (Nat.lt_floor_add_one idx).le; linarith
  refine ⟨s[⌊idx⌋₊] + (idx - (⌊idx⌋₊ : K)) * (s[⌈idx⌉₊] - s[⌊idx⌋₊]), s[⌊idx⌋₊], s[⌈idx⌉₊], ?_,
    by simp, by simp, rfl, ?_, ?_⟩
  · unfold Vec.quantile
    rw [if_neg (by rintro (h | h) <;> linarith), if_neg (by omega)]
    simp only [hsort, hcast, ← hidx, hfl, hce]
    by_cases he : ⌊idx⌋₊ = ⌈idx⌉₊
    · rw [if_pos he, rawAt_ok_of_lt ha]
      congr 1
      have : s[⌈idx⌉₊] = s[⌊idx⌋₊] := by simp [he]
      rw [this]; ring
    · rw [if_neg he, rawAt_ok_of_lt ha, rawAt_ok_of_lt hb]
      simp only [Except.ok.injEq]
      ring
  · nlinarith
  · nlinarith

/-- C07: the quantile depends only on the multiset of entries. -/
theorem C07_perm [FloorRing K] (x y : List K) (h : x.Perm y) (p : K) :
    Vec.quantile x p = Vec.quantile y p := by
  have hsort : x.insertionSort (fun a b => a ≤ b) = y.insertionSort (fun a b => a ≤ b) := by
    have hp : ∀ z : List K, (z.insertionSort (fun a b => a ≤ b)).Pairwise (· ≤ ·) := by
      intro z
      exact List.pairwise_insertionSort (r := fun a b : K => a ≤ b) z
    apply List.Perm.eq_of_pairwise (le := (· ≤ ·))
    · intro a b _ _ h1 h2; exact le_antisymm h1 h2
    · exact hp x
    · exact hp y
    · exact (List.perm_insertionSort _ x).trans (h.trans (List.perm_insertionSort _ y).symm)
  unfold Vec.quantile
  rw [hsort, h.length_eq]

/-- C07: the ends. `quantile(0)` is the least entry and `quantile(1)` the greatest. -/
theorem C07_extremes [FloorRing K] (x : List K) (hx : x ≠ []) :
    (∃ m, Vec.quantile x 0 = .ok m ∧ m ∈ x ∧ ∀ a ∈ x, m ≤ a) ∧
    (∃ m, Vec.quantile x 1 = .ok m ∧ m ∈ x ∧ ∀ a ∈ x, a ≤ m) := by
  set s := x.insertionSort (fun a b => a ≤ b) with hsdef
  have hp : s.Perm x := List.perm_insertionSort _ x
  have hs : s.Pairwise (· ≤ ·) := by
    exact List.pairwise_insertionSort (r := fun a b : K => a ≤ b) x
  have hlen : 0 < x.length := List.length_pos_iff.2 hx
  have hsl : s.length = x.length := hp.length_eq
  have hmono : ∀ i j (hi : i < s.length) (hj : j < s.length), i ≤ j → s[i] ≤ s[j] := by
    intro i j hi hj hij
    rcases Nat.lt_or_eq_of_le hij with h' | h'
    · exact List.pairwise_iff_getElem.1 hs i j hi hj h'
    · subst h'; exact le_refl _
  constructor
  · obtain ⟨q, a, b, hq, ha, hb, hqe, _, _⟩ := C07_quantile x s hp hs hx 0 (le_refl _) zero_le_one
    simp only [zero_mul, Nat.floor_zero, Nat.ceil_zero] at ha hb hqe
    rw [ha] at hb
    simp only [Option.some.injEq] at hb
    subst hb
    have : q = a := by rw [hqe]; simp
    subst this
    obtain ⟨h0, hget⟩ := List.getElem?_eq_some_iff.1 ha
    refine ⟨q, hq, ?_, ?_⟩
    · rw [← hp.mem_iff, ← hget]; exact List.getElem_mem _
    · intro c hc
      rw [← hp.mem_iff] at hc
      obtain ⟨j, hj, rfl⟩ := List.getElem_of_mem hc
      rw [← hget]; exact hmono 0 j h0 hj (by omega)
  · obtain ⟨q, a, b, hq, ha, hb, hqe, _, _⟩ := C07_quantile x s hp hs hx 1 zero_le_one (le_refl _)
    have hcast : (x.length : K) - 1 = ((x.length - 1 : Nat) : K) := by
      rw [Nat.cast_sub (by omega)]; simp
    rw [one_mul, hcast] at ha hb hqe
    rw [Nat.floor_natCast] at ha
    rw [Nat.ceil_natCast] at hb
    rw [ha] at hb
    simp only [Option.some.injEq] at hb
    subst hb
    have : q = a := by rw [hqe]; simp
    subst this
    obtain ⟨h0, hget⟩ := List.getElem?_eq_some_iff.1 ha
    refine ⟨q, hq, ?_, ?_⟩
    · rw [← hp.mem_iff, ← hget]; exact List.getElem_mem _
    · intro c hc
      rw [← hp.mem_iff] at hc
      obtain ⟨j, hj, rfl⟩ := List.getElem_of_mem hc
      rw [← hget]; exact hmono j (x.length - 1) hj h0 (by omega)

/-- C07: the quantile is monotone in the probability. -/
theorem C07_monotone [FloorRing K] (x : List K) (hx : x ≠ []) (p p' : K) (h0 : 0 ≤ p)
    (hpp : p ≤ p') (h1 : p' ≤ 1) :
    ∃ q q', Vec.quantile x p = .ok q ∧ Vec.quantile x p' = .ok q' ∧ q ≤ q' := by
  set s := x.insertionSort (fun a b => a ≤ b) with hsdef
  have hp : s.Perm x := List.perm_insertionSort _ x
  have hs : s.Pairwise (· ≤ ·) := by
    exact List.pairwise_insertionSort (r := fun a b : K => a ≤ b) x
  have hlen : 0 < x.length := List.length_pos_iff.2 hx
  have hmono : ∀ i j (hi : i < s.length) (hj : j < s.length), i ≤ j → s[i] ≤ s[j] := by
    intro i j hi hj hij
    rcases Nat.lt_or_eq_of_le hij with h' | h'
    · exact List.pairwise_iff_getElem.1 hs i j hi hj h'
    · subst h'; exact le_refl _
  obtain ⟨q, a, b, hq, ha, hb, hqe, haq, hqb⟩ := C07_quantile x s hp hs hx p h0 (hpp.trans h1)
  obtain ⟨q', a', b', hq', ha', hb', hqe', haq', hqb'⟩ :=
    C07_quantile x s hp hs hx p' (h0.trans hpp) h1
  refine ⟨q, q', hq, hq', ?_⟩
  have hn1 : (0 : K) ≤ (x.length : K) - 1 := by
    have : (1 : K) ≤ (x.length : K) := by exact_mod_cast hlen
    linarith
  have hii : p * ((x.length : K) - 1) ≤ p' * ((x.length : K) - 1) := by nlinarith
  have hi0 : 0 ≤ p * ((x.length : K) - 1) := mul_nonneg h0 hn1
  set i := p * ((x.length : K) - 1)
  set i' := p' * ((x.length : K) - 1)
  have hff : ⌊i⌋₊ ≤ ⌊i'⌋₊ := Nat.floor_mono hii
  rcases Nat.lt_or_eq_of_le hff with hlt | heq
  · have hcf : ⌈i⌉₊ ≤ ⌊i'⌋₊ := (Nat.ceil_le_floor_add_one i).trans hlt
    obtain ⟨hb1, hb2⟩ := List.getElem?_eq_some_iff.1 hb
    obtain ⟨ha1, ha2⟩ := List.getElem?_eq_some_iff.1 ha'
    have := hmono _ _ hb1 ha1 hcf
    rw [hb2, ha2] at this
    exact hqb.trans (this.trans haq')
  · rw [← heq] at ha' hqe'
    rw [ha] at ha'
    simp only [Option.some.injEq] at ha'
    subst ha'
    have hbb : b ≤ b' := by
      obtain ⟨hb1, hb2⟩ := List.getElem?_eq_some_iff.1 hb
      obtain ⟨hb3, hb4⟩ := List.getElem?_eq_some_iff.1 hb'
      have := hmono _ _ hb1 hb3 (Nat.ceil_mono hii)
      rwa [hb2, hb4] at this
    have hw0 : 0 ≤ i - (⌊i⌋₊ : K) := by
      have := Nat.floor_le hi0; linarith
    have hab : a ≤ b := haq.trans hqb
    rw [hqe, hqe']
    have h2 : (i - (⌊i⌋₊ : K)) * (b - a) ≤ (i' - (⌊i⌋₊ : K)) * (b' - a) := by
      apply mul_le_mul <;> linarith
    linarith

/-- C07: probabilities outside `[0,1]` and empty vectors are rejected. -/
theorem C07_rejects [FloorRing K] (x : List K) (p : K) :
    ((p < 0 ∨ p > 1) → Vec.quantile x p = .error .invalidArgument) ∧
    (0 ≤ p → p ≤ 1 → Vec.quantile ([] : List K) p = .error .runtimeError) := by
  refine ⟨fun h => by unfold Vec.quantile; rw [if_pos h], fun h h' => ?_⟩
  unfold Vec.quantile
  rw [if_neg (by rintro (hc | hc) <;> linarith)]
  rfl

example : ([1, 2, 3] : List ℚ).Perm [3, 1, 2] ∧ ([1, 2, 3] : List ℚ).Pairwise (· ≤ ·) ∧
    (0 : ℚ) ≤ 3 / 4 ∧ (3 / 4 : ℚ) ≤ 1 := by
  decide +kernel

/-- C08: splicing. Positions outside `-1 .. size` are rejected; otherwise the result is the prefix,
the other vector and the rest (`-1` means "at the end"), and no copy leaves its block. -/
theorem C08_appendVector (v other : List K) (position : Int) :
    ((position < -1 ∨ position > v.length) → Vec.appendVector v other position = .error .outOfRange) ∧
    (position = -1 → Vec.appendVector v other position = .ok (v ++ other)) ∧
    (∀ pos : Nat, position = pos → pos ≤ v.length →
      Vec.appendVector v other position = .ok (v.take pos ++ other ++ v.drop pos)) := by
  refine ⟨?_, ?_, ?_⟩
  · intro h; unfold Vec.appendVector; rw [if_pos h]
  · intro h
    rw [Vec.appendVector_eq v other v.length (le_refl _) (Or.inr ⟨h, rfl⟩)]
    simp
  · intro pos h h'
    exact Vec.appendVector_eq v other pos h' (Or.inl h)

/-- C08: `push_back`, `head`, `tail` agree with the list operations, and too long heads and tails
are rejected. -/
theorem C08_head_tail_push (v : List K) (n : Nat) (a : K) :
    Vec.pushBack v a = .ok (v ++ [a]) ∧
    (n ≤ v.length → Vec.head v n = .ok (v.take n) ∧ Vec.tail v n = .ok (v.drop (v.length - n))) ∧
    (v.length < n → Vec.head v n = .error .outOfRange ∧ Vec.tail v n = .error .outOfRange) :=
  ⟨Vec.pushBack_eq v a, fun h => ⟨Vec.head_eq v h, Vec.tail_eq v h⟩,
    fun h => by simp [Vec.head, Vec.tail, h]⟩

/-- C08: `copyVector` overwrites exactly the entries from `position` on that the source covers,
keeps the size and rejects positions outside the vector. -/
theorem C08_copyVector (v source : List K) (position : Int) :
    ((position < 0 ∨ position ≥ v.length) → Vec.copyVector v source position = .error .outOfRange) ∧
    (∀ pos : Nat, position = pos → pos < v.length → ∃ w,
      Vec.copyVector v source position = .ok w ∧ w.length = v.length ∧
      ∀ i, i < v.length → w[i]? = if pos ≤ i ∧ i < pos + source.length then source[i - pos]? else v[i]?) := by
  refine ⟨?_, ?_⟩
  · intro h; unfold Vec.copyVector; rw [if_pos h]
  · intro pos h h'
    refine ⟨_, Vec.copyVector_eq v source pos h' h, by simp; omega, ?_⟩
    intro i hi
    by_cases c1 : i < pos
    · rw [if_neg (by omega), List.append_assoc, List.getElem?_append_left (by simp; omega)]
      simp [c1]
    · by_cases c2 : i < pos + source.length
      · rw [if_pos (by omega), List.append_assoc, List.getElem?_append_right (by simp; omega),
          List.getElem?_append_left (by simp; omega)]
        simp only [List.getElem?_take, List.length_take, Nat.min_eq_left h'.le]
        rw [if_pos (by omega)]
      · rw [if_neg (by omega), List.getElem?_append_right (by simp; omega)]
        simp only [List.length_append, List.length_take, List.getElem?_drop]
        congr 1
        omega

example : Vec.appendVector [(1 : ℚ), 2] [5] 1 = .ok [1, 5, 2] ∧
    Vec.appendVector [(1 : ℚ), 2] [5] (-1) = .ok [1, 2, 5] ∧
    Vec.appendVector [(1 : ℚ), 2] [5] (-2) = .error .outOfRange ∧
    Vec.copyVector [(1 : ℚ), 2, 3] [7, 8, 9] 1 = .ok [1, 7, 8] ∧
    Vec.tail [(1 : ℚ), 2, 3] 2 = .ok [2, 3] := by decide +kernel

end Rodeo
