import Verif.Model.VecStat
import Verif.Lemmas.Kriging
import Verif.Lemmas.History

set_option linter.unusedSectionVars false

/-! # Numerical functions of vectors (C104) -/

namespace Rodeo
open Rodeo.Spec Rodeo.Corr Finset

variable {K : Type} [Field K] [LinearOrder K] [IsStrictOrderedRing K]

/-- The number `r` is the norm of `v` of the given type. -/
def Spec.IsNormOf (v : List K) (r : K) : Vec.NormType → Prop
  | .L2 => 0 ≤ r ∧ r ^ 2 = ∑ i ∈ range v.length, vecFun v i ^ 2
  | .L1 => r = ∑ i ∈ range v.length, |vecFun v i|
  | .LINF => (∀ i, i < v.length → |vecFun v i| ≤ r) ∧
      ((r = 0 ∧ v = []) ∨ ∃ i, i < v.length ∧ r = |vecFun v i|)

theorem Spec.IsNormOf.unique {v : List K} {r r' : K} {t : Vec.NormType} (h : IsNormOf v r t)
    (h' : IsNormOf v r' t) : r = r' := by
  cases t with
  | L2 => exact (pow_left_inj₀ h.1 h'.1 two_ne_zero).1 (h.2.trans h'.2.symm)
  | L1 => exact Eq.trans h (Eq.symm h')
  | LINF =>
    rcases h.2 with ⟨h1, h2⟩ | ⟨i, hi, h1⟩ <;> rcases h'.2 with ⟨h3, h4⟩ | ⟨j, hj, h3⟩
    · rw [h1, h3]
    · subst h2; simp at hj
    · subst h4; simp at hi
    · refine le_antisymm ?_ ?_
      · rw [h1]; exact h'.1 i hi
      · rw [h3]; exact h.1 j hj

/-- The norms are computed. -/
theorem C104_norm {sqrt : K → K} (hs : IsSqrt sqrt) (t : Vec.NormType) (v : List K) :
    ∃ r, Vec.norm sqrt t v = .ok r ∧ IsNormOf v r t := by
  cases t with
  | L2 =>
    have h0 : 0 ≤ ∑ i ∈ range v.length, vecFun v i ^ 2 := sum_nonneg (fun i _ => sq_nonneg _)
    refine ⟨sqrt (∑ i ∈ range v.length, vecFun v i ^ 2), ?_, (hs _ h0).1, ?_⟩
    · exact bind_eq (Mat.sumLoop_ok (g := fun i => vecFun v i ^ 2) (fun i hi =>
        bind_eq (rawAt_vecFun hi) (congrArg _ (sq _).symm))) rfl
    · rw [sq, (hs _ h0).2]
  | L1 =>
    exact ⟨_, Mat.sumLoop_ok (g := fun i => |vecFun v i|) (fun i hi => bind_eq (rawAt_vecFun hi) rfl), rfl⟩
  | LINF =>
    obtain ⟨r, h1, h2, h3⟩ := forRange_inv (n := v.length) (s := (0 : K)) (body := fun i r => do
        let a ← rawAt v i
        .ok (max r |a|)) (fun k r => (∀ i, i < k → |vecFun v i| ≤ r) ∧
          ((r = 0 ∧ k = 0) ∨ ∃ i, i < k ∧ r = |vecFun v i|)) ⟨by intro i hi; omega, Or.inl ⟨rfl, rfl⟩⟩ (by
        intro k r hk hr
        refine ⟨max r |vecFun v k|, bind_eq (rawAt_vecFun hk) rfl, ?_, Or.inr ?_⟩
        · intro i hi
          rcases Nat.lt_succ_iff_lt_or_eq.1 hi with h | rfl
          · exact le_trans (hr.1 i h) (le_max_left _ _)
          · exact le_max_right _ _
        · rcases le_total r |vecFun v k| with h | h
          · exact ⟨k, by omega, max_eq_right h⟩
          · rcases hr.2 with ⟨h1, h2⟩ | ⟨i, hi, h1⟩
            · refine ⟨k, by omega, ?_⟩
              rw [h1] at h ⊢
              rw [le_antisymm h (abs_nonneg _)]
              simp
            · exact ⟨i, by omega, by rw [max_eq_left h, h1]⟩)
    refine ⟨r, h1, h2, ?_⟩
    rcases h3 with ⟨h3, h4⟩ | h3
    · exact Or.inl ⟨h3, List.length_eq_zero_iff.1 h4⟩
    · exact Or.inr h3

theorem Spec.IsNormOf.nonneg {v : List K} {r : K} {t : Vec.NormType} (h : IsNormOf v r t) : 0 ≤ r := by
  cases t with
  | L2 => exact h.1
  | L1 => rw [show r = _ from h]; exact sum_nonneg (fun i _ => abs_nonneg _)
  | LINF => rcases h.2 with ⟨h1, -⟩ | ⟨i, -, h1⟩
            · rw [h1]
            · rw [h1]; exact abs_nonneg _

theorem Spec.IsNormOf.zero_iff {v : List K} {r : K} {t : Vec.NormType} (h : IsNormOf v r t) :
    r = 0 ↔ ∀ i, i < v.length → vecFun v i = 0 := by
  cases t with
  | L2 =>
    rw [← sq_eq_zero_iff, h.2, sum_eq_zero_iff_of_nonneg (fun i _ => sq_nonneg _)]
    simp
  | L1 =>
    rw [show r = _ from h, sum_eq_zero_iff_of_nonneg (fun i _ => abs_nonneg _)]
    simp
  | LINF =>
    constructor
    · intro h0 i hi
      have := h.1 i hi
      rw [h0] at this
      exact abs_eq_zero.1 (le_antisymm this (abs_nonneg _))
    · intro h0
      rcases h.2 with ⟨h1, -⟩ | ⟨i, hi, h1⟩
      · exact h1
      · rw [h1, h0 i hi, abs_zero]

/-- A vector with an entry that is not zero has a unit vector: the same direction, norm one.  For the
zero vector (and the empty one) the request is refused. -/
theorem C104_unit {sqrt : K → K} (hs : IsSqrt sqrt) (t : Vec.NormType) (v : List K) :
    ((∃ i, i < v.length ∧ vecFun v i ≠ 0) → ∃ w r, Vec.unitVector sqrt t v = .ok w ∧
      w.length = v.length ∧ 0 < r ∧ (∀ i, i < v.length → vecFun v i = r * vecFun w i) ∧
      Vec.norm sqrt t w = .ok 1) ∧
    ((∀ i, i < v.length → vecFun v i = 0) → Vec.unitVector sqrt t v = .error .runtimeError) := by
  obtain ⟨r, hr, hn⟩ := C104_norm hs t v
  constructor
  · rintro ⟨i, hi, hne⟩
    have hr0 : r ≠ 0 := fun h => hne (hn.zero_iff.1 h i hi)
    have hpos : 0 < r := lt_of_le_of_ne hn.nonneg hr0.symm
    refine ⟨(List.range v.length).map (fun i => vecFun v i / r), r, ?_, by simp, hpos, ?_, ?_⟩
    · refine bind_eq hr ?_
      rw [if_neg hr0]
      exact tab_ok (fun i hi => bind_eq (rawAt_vecFun hi) rfl)
    · intro i hi
      rw [vecFun_map _ hi]
      field_simp
    · obtain ⟨q, hq, hqn⟩ := C104_norm hs t ((List.range v.length).map (fun i => vecFun v i / r))
      rw [hq]
      have h1 : IsNormOf ((List.range v.length).map (fun i => vecFun v i / r)) 1 t := by
        cases t with
        | L2 =>
          refine ⟨zero_le_one, ?_⟩
          rw [List.length_map, List.length_range, sum_congr rfl (g := fun i => vecFun v i ^ 2 / r ^ 2)
            (fun i hi => by rw [vecFun_map _ (mem_range.1 hi), div_pow]), ← sum_div, ← hn.2]
          field_simp
        | L1 =>
          show 1 = _
          rw [List.length_map, List.length_range, sum_congr rfl (g := fun i => |vecFun v i| / r)
            (fun i hi => by rw [vecFun_map _ (mem_range.1 hi), abs_div, abs_of_pos hpos]),
            ← sum_div, ← show r = _ from hn]
          field_simp
        | LINF =>
          refine ⟨fun i hi => ?_, Or.inr ?_⟩
          · rw [List.length_map, List.length_range] at hi
            rw [vecFun_map _ hi, abs_div, abs_of_pos hpos, div_le_one hpos]
            exact hn.1 i hi
          · rcases hn.2 with ⟨h1, -⟩ | ⟨i, hi, h1⟩
            · exact absurd h1 hr0
            · refine ⟨i, by simpa using hi, ?_⟩
              rw [vecFun_map _ hi, abs_div, abs_of_pos hpos, ← h1]
              field_simp
      rw [hqn.unique h1]
  · intro h0
    refine bind_eq hr ?_
    rw [if_pos (hn.zero_iff.2 h0)]

/-- The random direction of differentiation has length one, for every draw except the one that hits
the middle of the interval in all components. -/
theorem C104_direction {sqrt : K → K} (hs : IsSqrt sqrt) (d : Nat) (u : Nat → K) :
    ((∃ i, i < d ∧ u i ≠ 1 / 2) → ∃ w, Vec.randomDirection sqrt d u = .ok w ∧ w.length = d ∧
      ∑ i ∈ range d, vecFun w i ^ 2 = 1) ∧
    ((∀ i, i < d → u i = 1 / 2) → Vec.randomDirection sqrt d u = .error .runtimeError) := by
  have ht : tab d (fun i => (.ok (uniformReal (-1) 1 (u i)) : Res K)) =
      .ok ((List.range d).map (fun i => uniformReal (-1) 1 (u i))) := tab_ok (fun _ _ => rfl)
  obtain ⟨h1, h2⟩ := C104_unit hs .L2 ((List.range d).map (fun i => uniformReal (-1) 1 (u i)))
  constructor
  · rintro ⟨i, hi, hne⟩
    obtain ⟨w, r, hw, hl, -, -, hn⟩ := h1 ⟨i, by simpa using hi, by
      rw [vecFun_map _ hi]
      unfold uniformReal
      intro h
      apply hne
      linarith⟩
    obtain ⟨q, hq, hqn⟩ := C104_norm hs .L2 w
    rw [hn] at hq
    cases hq
    rw [List.length_map, List.length_range] at hl
    refine ⟨w, bind_eq ht hw, hl, ?_⟩
    rw [← hl, ← hqn.2]
    norm_num
  · intro h0
    refine bind_eq ht (h2 (fun i hi => ?_))
    rw [List.length_map, List.length_range] at hi
    rw [vecFun_map _ hi, h0 i hi]
    unfold uniformReal
    ring

theorem Vec.maxIndexLoop_eq : ∀ (l : List K) (i : Nat) (m : K) (b : Nat),
    Vec.maxIndexLoop l i m b = Vec.minIndexLoop (l.map (fun a => -a)) i (-m) b
  | [], _, _, _ => rfl
  | a :: l, i, m, b => by
    unfold Vec.maxIndexLoop
    rw [List.map_cons, Vec.minIndexLoop]
    simp only [neg_lt_neg_iff]
    rw [maxIndexLoop_eq l (i + 1) a i, maxIndexLoop_eq l (i + 1) m b]

theorem Vec.findMaxIndex_eq (v : List K) :
    Vec.findMaxIndex v = Vec.findMinIndex (v.map (fun a => -a)) := by
  cases v with
  | nil => rfl
  | cons a l => simp [Vec.findMaxIndex, Vec.findMinIndex, Vec.maxIndexLoop_eq]

theorem Vec.eq_map_range (v : List K) : (List.range v.length).map (vecFun v) = v := by
  apply List.ext_getElem (by simp)
  intro i h1 h2
  simp [vecFun, h2]

/-- Minimum and maximum: they are entries of the vector that bound all others, and the index is the
first one where they occur; an empty vector is refused. -/
theorem C104_minmax (v : List K) :
    (v ≠ [] → ∃ k l, Vec.findMinIndex v = .ok k ∧ Vec.findMin v = .ok (vecFun v k) ∧ k < v.length ∧
      (∀ i, i < v.length → vecFun v k ≤ vecFun v i) ∧ (∀ i, i < k → vecFun v k < vecFun v i) ∧
      Vec.findMaxIndex v = .ok l ∧ Vec.findMax v = .ok (vecFun v l) ∧ l < v.length ∧
      (∀ i, i < v.length → vecFun v i ≤ vecFun v l) ∧ (∀ i, i < l → vecFun v i < vecFun v l)) ∧
    (v = [] → Vec.findMinIndex v = .error .runtimeError ∧ Vec.findMin v = .error .runtimeError ∧
      Vec.findMaxIndex v = .error .runtimeError ∧ Vec.findMax v = .error .runtimeError) := by
  constructor
  · intro hv
    have hn : v.length ≠ 0 := fun h => hv (List.length_eq_zero_iff.1 h)
    obtain ⟨k, h1, h2, h3, h4⟩ := GlobalDesign.findMinIndex_ok v.length hn (vecFun v)
    obtain ⟨l, h5, h6, h7, h8⟩ := GlobalDesign.findMinIndex_ok v.length hn (fun i => -vecFun v i)
    rw [Vec.eq_map_range] at h1
    have e : (List.range v.length).map (fun i => -vecFun v i) = v.map (fun a => -a) := by
      conv_rhs => rw [← Vec.eq_map_range v]
      simp
    rw [e, ← Vec.findMaxIndex_eq] at h5
    exact ⟨k, l, h1, bind_eq h1 (rawAt_vecFun h2), h2, h3, h4, h5, bind_eq h5 (rawAt_vecFun h6), h6,
      fun i hi => neg_le_neg_iff.1 (h7 i hi), fun i hi => neg_lt_neg_iff.1 (h8 i hi)⟩
  · rintro rfl
    exact ⟨rfl, rfl, rfl, rfl⟩

/-- The mean lies between the smallest and the largest entry, and the deviations from it cancel. -/
theorem C104_mean (v : List K) :
    (v ≠ [] → ∃ m, Vec.mean v = .ok m ∧ ∑ i ∈ range v.length, (vecFun v i - m) = 0 ∧
      (∃ i, i < v.length ∧ vecFun v i ≤ m) ∧ ∃ i, i < v.length ∧ m ≤ vecFun v i) ∧
    (v = [] → Vec.mean v = .error .runtimeError) := by
  constructor
  · intro hv
    have hn : 0 < v.length := List.length_pos_iff.2 hv
    have hK : (0 : K) < (v.length : K) := by exact_mod_cast hn
    refine ⟨_, Vec.mean_ok hn, ?_, ?_, ?_⟩
    · rw [sum_sub_distrib, sum_const, card_range, nsmul_eq_mul]
      field_simp
      ring
    · by_contra hc
      push Not at hc
      have := sum_lt_sum_of_nonempty (s := range v.length) (nonempty_range_iff.2 hn.ne')
        (fun i hi => hc i (mem_range.1 hi))
      rw [sum_const, card_range, nsmul_eq_mul, mul_div_cancel₀ _ hK.ne'] at this
      exact lt_irrefl _ this
    · by_contra hc
      push Not at hc
      have := sum_lt_sum_of_nonempty (s := range v.length) (nonempty_range_iff.2 hn.ne')
        (fun i hi => hc i (mem_range.1 hi))
      rw [sum_const, card_range, nsmul_eq_mul, mul_div_cancel₀ _ hK.ne'] at this
      exact lt_irrefl _ this
  · rintro rfl
    rfl

/-- The standard deviation: its square is the mean squared deviation from the mean, and it is zero
exactly for constant vectors. -/
theorem C104_deviation {sqrt : K → K} (hs : IsSqrt sqrt) (v : List K) :
    (v ≠ [] → ∃ m s, Vec.mean v = .ok m ∧ Vec.standardDeviation sqrt v = .ok s ∧ 0 ≤ s ∧
      s ^ 2 * (v.length : K) = ∑ i ∈ range v.length, (vecFun v i - m) ^ 2 ∧
      (s = 0 ↔ ∀ i j, i < v.length → j < v.length → vecFun v i = vecFun v j)) ∧
    (v = [] → Vec.standardDeviation sqrt v = .error .runtimeError) := by
  constructor
  · intro hv
    have hn : 0 < v.length := List.length_pos_iff.2 hv
    have hK : (0 : K) < (v.length : K) := by exact_mod_cast hn
    obtain ⟨m, hm, hm0, -, -⟩ := (C104_mean v).1 hv
    have h0 : 0 ≤ (∑ i ∈ range v.length, (vecFun v i - m) ^ 2) / (v.length : K) :=
      div_nonneg (sum_nonneg (fun i _ => sq_nonneg _)) hK.le
    have hsq : sqrt ((∑ i ∈ range v.length, (vecFun v i - m) ^ 2) / (v.length : K)) ^ 2 *
        (v.length : K) = ∑ i ∈ range v.length, (vecFun v i - m) ^ 2 := by
      rw [sq, (hs _ h0).2]
      field_simp
    refine ⟨m, sqrt ((∑ i ∈ range v.length, (vecFun v i - m) ^ 2) / (v.length : K)), hm, ?_,
      (hs _ h0).1, hsq, ?_⟩
    · unfold Vec.standardDeviation
      rw [if_neg (by omega)]
      refine bind_eq hm (bind_eq (Mat.sumLoop_ok (g := fun i => (vecFun v i - m) ^ 2) (fun i hi =>
        bind_eq (rawAt_vecFun hi) (congrArg _ (sq _).symm))) rfl)
    · constructor
      · intro hz
        rw [hz] at hsq
        have hz' := (sum_eq_zero_iff_of_nonneg (fun i _ => sq_nonneg _)).1
          (hsq.symm.trans (by ring))
        have hall : ∀ i, i < v.length → vecFun v i = m := fun i hi =>
          sub_eq_zero.1 (sq_eq_zero_iff.1 (hz' i (mem_range.2 hi)))
        intro i j hi hj
        rw [hall i hi, hall j hj]
      · intro hc
        have hall : ∀ i, i < v.length → vecFun v i = m := by
          intro i hi
          have : ∑ j ∈ range v.length, (vecFun v j - m) = ∑ j ∈ range v.length, (vecFun v i - m) :=
            sum_congr rfl (fun j hj => by rw [hc j i (mem_range.1 hj) hi])
          rw [hm0, sum_const, card_range, nsmul_eq_mul] at this
          rcases mul_eq_zero.1 this.symm with h | h
          · exact absurd h hK.ne'
          · exact sub_eq_zero.1 h
        have : ∑ i ∈ range v.length, (vecFun v i - m) ^ 2 = 0 :=
          sum_eq_zero (fun i hi => by rw [hall i (mem_range.1 hi)]; ring)
        rw [this] at hsq ⊢
        rcases mul_eq_zero.1 hsq with h | h
        · exact sq_eq_zero_iff.1 h
        · exact absurd h hK.ne'
  · rintro rfl
    rfl

/-- Sorting gives a permutation in the requested order, and the test for sortedness is exact. -/
theorem C104_sort (v : List K) :
    ((Vec.sort v true).Perm v ∧ (Vec.sort v true).Pairwise (· ≤ ·)) ∧
    ((Vec.sort v false).Perm v ∧ (Vec.sort v false).Pairwise (· ≥ ·)) ∧
    (∃ b, Vec.isSorted v true = .ok b ∧ (b = true ↔ v.Pairwise (· ≤ ·))) ∧
    ∃ b, Vec.isSorted v false = .ok b ∧ (b = true ↔ v.Pairwise (· ≥ ·)) := by
  have short : v.length ≤ 1 → v.Pairwise (· ≤ ·) ∧ v.Pairwise (· ≥ ·) := by
    intro h
    match v, h with
    | [], _ => simp
    | [a], _ => simp
  refine ⟨?_, ?_, ?_, ?_⟩
  · unfold Vec.sort
    by_cases h : v.length ≤ 1
    · rw [if_pos h]
      exact ⟨List.Perm.refl _, (short h).1⟩
    · rw [if_neg h]
      exact ⟨List.perm_insertionSort _ _, List.pairwise_insertionSort _ _⟩
  · unfold Vec.sort
    by_cases h : v.length ≤ 1
    · rw [if_pos h]
      exact ⟨List.Perm.refl _, (short h).2⟩
    · rw [if_neg h]
      exact ⟨List.perm_insertionSort _ _, List.pairwise_insertionSort _ _⟩
  · unfold Vec.isSorted
    by_cases h : v.length ≤ 1
    · rw [if_pos h]
      exact ⟨true, rfl, by simp [(short h).1]⟩
    · rw [if_neg h]
      obtain ⟨r, hr, hr'⟩ := noneOf_ok (n := v.length - 1) (test := fun i => do
          let a ← rawAt v i
          let b ← rawAt v (i + 1)
          .ok (if true then decide (a > b) else decide (a < b)))
        (b := fun i => decide (vecFun v i > vecFun v (i + 1)))
        (fun i hi => bind_eq (rawAt_vecFun (by omega)) (bind_eq (rawAt_vecFun (by omega)) rfl))
      refine ⟨r, hr, hr'.trans ?_⟩
      rw [← List.isChain_iff_pairwise, List.isChain_iff_getElem]
      refine ⟨fun h i hi => ?_, fun h i hi => ?_⟩
      · simpa [vecFun, hi, show i < v.length by omega] using h i (by omega)
      · have := h i (by omega)
        simpa [vecFun, show i + 1 < v.length by omega, show i < v.length by omega] using this
  · unfold Vec.isSorted
    by_cases h : v.length ≤ 1
    · rw [if_pos h]
      exact ⟨true, rfl, by simp [(short h).2]⟩
    · rw [if_neg h]
      obtain ⟨r, hr, hr'⟩ := noneOf_ok (n := v.length - 1) (test := fun i => do
          let a ← rawAt v i
          let b ← rawAt v (i + 1)
          .ok (if false then decide (a > b) else decide (a < b)))
        (b := fun i => decide (vecFun v i < vecFun v (i + 1)))
        (fun i hi => bind_eq (rawAt_vecFun (by omega)) (bind_eq (rawAt_vecFun (by omega)) rfl))
      refine ⟨r, hr, hr'.trans ?_⟩
      rw [← List.isChain_iff_pairwise, List.isChain_iff_getElem]
      refine ⟨fun h i hi => ?_, fun h i hi => ?_⟩
      · simpa [vecFun, hi, show i < v.length by omega] using h i (by omega)
      · have := h i (by omega)
        simpa [vecFun, show i + 1 < v.length by omega, show i < v.length by omega] using this

/-- The comparisons with a tolerance are exact. -/
theorem C104_tests (v w : List K) (tol : K) :
    (∃ b, Vec.isEqual v w tol = .ok b ∧
      (b = true ↔ v.length = w.length ∧ ∀ i, i < v.length → |vecFun v i - vecFun w i| ≤ tol)) ∧
    (∃ b, Vec.isZero v tol = .ok b ∧ (b = true ↔ ∀ i, i < v.length → |vecFun v i| ≤ tol)) ∧
    ∃ b, Vec.hasZeros v tol = .ok b ∧ (b = true ↔ ∃ i, i < v.length ∧ |vecFun v i| ≤ tol) := by
  refine ⟨?_, ?_, ?_⟩
  · unfold Vec.isEqual
    by_cases hl : v.length = w.length
    · rw [if_neg (by omega)]
      obtain ⟨b, hb, hb'⟩ := noneOf_ok (n := v.length) (test := fun i => do
          let a ← rawAt v i
          let b ← rawAt w i
          .ok (decide (|a - b| > tol))) (b := fun i => decide (|vecFun v i - vecFun w i| > tol))
        (fun i hi => bind_eq (rawAt_vecFun hi) (bind_eq (rawAt_vecFun (by omega)) rfl))
      exact ⟨b, hb, hb'.trans (by simp [hl])⟩
    · rw [if_pos hl]
      exact ⟨false, rfl, by simp [hl]⟩
  · obtain ⟨b, hb, hb'⟩ := noneOf_ok (n := v.length) (test := fun i => do
        let a ← rawAt v i
        .ok (decide (|a| > tol))) (b := fun i => decide (|vecFun v i| > tol))
      (fun i hi => bind_eq (rawAt_vecFun hi) rfl)
    exact ⟨b, hb, hb'.trans (by simp)⟩
  · obtain ⟨b, hb, hb'⟩ := noneOf_ok (n := v.length) (test := fun i => do
        let a ← rawAt v i
        .ok (decide (|a| ≤ tol))) (b := fun i => decide (|vecFun v i| ≤ tol))
      (fun i hi => bind_eq (rawAt_vecFun hi) rfl)
    refine ⟨!b, bind_eq hb rfl, ?_⟩
    rw [Bool.not_eq_true', ← Bool.not_eq_true, hb']
    simp

/-- The arithmetic with numbers, the sum and the product. -/
theorem C104_arithmetic (v : List K) (a b : K) :
    Vec.timesNum v a = .ok (v.map (· * a)) ∧ Vec.shift v a = .ok (v.map (· + a)) ∧
    Vec.shiftDown v a = .ok (v.map (· - a)) ∧ Vec.scaleAndAdd v a b = .ok (v.map (a * · + b)) ∧
    Vec.sum v = .ok v.sum ∧ Vec.product v = .ok v.prod ∧
    (∀ w : List K, w.length = v.length →
      Vec.scaleAndAddVec v a w = .ok (List.zipWith (fun x y => x * a + y) v w)) ∧
    ∀ w : List K, w.length ≠ v.length → Vec.scaleAndAddVec v a w = .error .invalidArgument := by
  have hsum : ∀ f : Nat → K, ∑ i ∈ range v.length, f i = ((List.range v.length).map f).sum := by
    intro f
    rw [← List.sum_toFinset _ List.nodup_range, List.toFinset_range]
  have hscale : Vec.timesNum v a = .ok (v.map (· * a)) :=
    tab_ok_list (by simp) (fun i hi => bind_eq (rawAt_ok_of_lt (by simpa using hi)) (by simp))
  refine ⟨hscale, ?_, ?_, ?_, ?_, ?_, ?_, ?_⟩
  · exact tab_ok_list (by simp) (fun i hi => bind_eq (rawAt_ok_of_lt (by simpa using hi)) (by simp))
  · exact tab_ok_list (by simp) (fun i hi => bind_eq (rawAt_ok_of_lt (by simpa using hi)) (by simp))
  · exact tab_ok_list (by simp) (fun i hi => bind_eq (rawAt_ok_of_lt (by simpa using hi)) (by simp))
  · refine (Mat.sumLoop_ok (g := vecFun v) (fun i hi => rawAt_vecFun hi)).trans ?_
    rw [hsum, Vec.eq_map_range]
  · unfold Vec.product
    split_ifs with h
    · rw [List.length_eq_zero_iff.1 h]
      rfl
    · obtain ⟨r, h1, h2⟩ := forRange_inv (n := v.length) (s := (1 : K)) (body := fun i t => do
          let x ← rawAt v i
          .ok (t * x)) (fun k t => t = (v.take k).prod) (by simp) (fun k t hk ht =>
            ⟨_, bind_eq (rawAt_ok_of_lt hk) rfl, by
              rw [ht, List.prod_take_succ _ _ hk]⟩)
      rw [h1, h2, List.take_length]
  · intro w hw
    unfold Vec.scaleAndAddVec
    rw [if_neg (by omega)]
    refine bind_eq hscale ?_
    rw [if_neg (by simp [hw])]
    refine tab_ok_list (by simp [hw]) (fun i hi => ?_)
    have hv : i < v.length := by
      rw [List.length_zipWith] at hi; omega
    exact bind_eq (rawAt_ok_of_lt (by simpa using hv)) (bind_eq (rawAt_ok_of_lt (by omega)) (by simp))
  · intro w hw
    unfold Vec.scaleAndAddVec
    rw [if_pos (by omega)]

/-- Non-trivial cases: the hypotheses are met and the functions distinguish. -/
example : Vec.norm (fun x : ℚ => x) .L1 [3, -4] = .ok 7 ∧
    Vec.norm (fun x : ℚ => x) .LINF [3, -4] = .ok 4 ∧
    Vec.unitVector (fun x : ℚ => x) .L1 [3, -1] = .ok [3 / 4, -1 / 4] ∧
    Vec.findMaxIndex ([1, 5, 5, 2] : List ℚ) = .ok 1 ∧ Vec.sort ([1, 5, 2] : List ℚ) false = [5, 2, 1] ∧
    Vec.hasZeros ([1, 0] : List ℚ) 0 = .ok true ∧ Vec.isSorted ([1, 3, 2] : List ℚ) true = .ok false := by
  decide +kernel

example : IsSqrt Real.sqrt := fun t ht => ⟨Real.sqrt_nonneg t, Real.mul_self_sqrt ht⟩

end Rodeo
