import Verif.Lemmas.History
import Verif.Lemmas.GradOpt
import Mathlib.Algebra.BigOperators.Ring.Finset
import Mathlib.Data.Nat.Prime.Basic

set_option linter.unusedSectionVars false

namespace Rodeo
open Spec

variable {K : Type} [Field K] [LinearOrder K] [IsStrictOrderedRing K]

theorem rowDist_comm (dim : Nat) (F : Nat → Nat → K) (i j : Nat) :
    rowDist dim F i j = rowDist dim F j i := by
  unfold rowDist
  exact Finset.sum_congr rfl (fun k _ => abs_sub_comm _ _)

theorem rowDist_nonneg (dim : Nat) (F : Nat → Nat → K) (i j : Nat) : 0 ≤ rowDist dim F i j :=
  Finset.sum_nonneg (fun _ _ => abs_nonneg _)

theorem rowDist_self (dim : Nat) (F : Nat → Nat → K) (i : Nat) : rowDist dim F i i = 0 := by
  simp [rowDist]

theorem normL1_eq (n : Nat) (f : Nat → K) :
    Vec.normL1 ((List.range n).map f) = ∑ k ∈ Finset.range n, |f k| := by
  unfold Vec.normL1
  rw [foldl_add_eq, zero_add, List.map_map]
  rfl

/-- Twice the distances over the pairs `i < j`. -/
def pairSum (dim : Nat) (F : Nat → Nat → K) (n : Nat) : K :=
  ∑ i ∈ Finset.range n, ∑ j ∈ Finset.Ico (i + 1) n, rowDist dim F i j * 2

theorem crowdingSum_ok {A : Mat K} {n dim : Nat} {F : Nat → Nat → K} (hA : IsMat A n dim F) :
    History.crowdingSum A = .ok (pairSum dim F n) := by
  obtain ⟨hr, hc, -, -⟩ := id hA
  suffices h : OkP (History.crowdingSum A) (fun s => s = pairSum dim F n) by
    obtain ⟨a, e, rfl⟩ := h; exact e
  unfold History.crowdingSum
  rw [hr]
  refine forRange_inv (fun k s =>
    s = ∑ i ∈ Finset.range k, ∑ j ∈ Finset.Ico (i + 1) n, rowDist dim F i j * 2) (by simp) ?_
  rintro i s hi rfl
  refine bind_okP (Mat.getRow_ok hA hi (Or.inl rfl)) ?_
  refine (loopFrom_inv' (fun k s => s = (∑ i ∈ Finset.range i, ∑ j ∈ Finset.Ico (i + 1) n,
    rowDist dim F i j * 2) + ∑ j ∈ Finset.Ico (i + 1) k, rowDist dim F i j * 2) (by omega)
    (by simp) ?_).mono ?_
  · rintro j s h1 h2 rfl
    refine ⟨_, bind_eq (Mat.getRow_ok hA h2 (Or.inl rfl)) (bind_eq (Vec.sub_eq (by simp)) rfl), ?_⟩
    rw [Finset.sum_Ico_succ_top (by omega), add_assoc]
    congr 3
    have : List.zipWith (fun a b => a - b) ((List.range dim).map (fun j => F i j))
        ((List.range dim).map (fun k => F j k)) = (List.range dim).map (fun k => F i k - F j k) := by
      rw [List.zipWith_map, List.zipWith_self]
    rw [this, normL1_eq]; rfl
  · rintro s rfl
    rw [Finset.sum_range_succ]

theorem pairSum_eq (dim : Nat) (F : Nat → Nat → K) (n : Nat) :
    pairSum dim F n = ∑ i ∈ Finset.range n, ∑ j ∈ Finset.range n,
      if i = j then 0 else rowDist dim F i j := by
  unfold pairSum
  induction n with
  | zero => simp
  | succ n ih =>
    rw [Finset.sum_range_succ, Finset.sum_range_succ]
    have h1 : ∀ i ∈ Finset.range n, ∑ j ∈ Finset.Ico (i + 1) (n + 1), rowDist dim F i j * 2 =
        (∑ j ∈ Finset.Ico (i + 1) n, rowDist dim F i j * 2) + rowDist dim F i n * 2 := by
      intro i hi
      rw [Finset.sum_Ico_succ_top (by simp at hi; omega)]
    have h2 : ∀ i ∈ Finset.range n, (∑ j ∈ Finset.range (n + 1),
        if i = j then 0 else rowDist dim F i j) =
        (∑ j ∈ Finset.range n, if i = j then 0 else rowDist dim F i j) + rowDist dim F i n := by
      intro i hi
      rw [Finset.sum_range_succ, if_neg (by simp at hi; omega)]
    have h3 : (∑ j ∈ Finset.range (n + 1), if n = j then 0 else rowDist dim F n j) =
        ∑ j ∈ Finset.range n, rowDist dim F j n := by
      rw [Finset.sum_range_succ, if_pos rfl, add_zero]
      apply Finset.sum_congr rfl
      intro j hj
      rw [if_neg (by simp at hj; omega), rowDist_comm]
    rw [Finset.sum_congr rfl h1, Finset.sum_congr rfl h2, h3, Finset.sum_add_distrib,
      Finset.sum_add_distrib, ih, Finset.Ico_self, Finset.sum_empty, ← Finset.sum_mul]
    ring

theorem pairs_even (n : Nat) : ∃ k, n * (n - 1) = 2 * k := by
  have h : 2 ∣ n * (n - 1) := by
    cases n with
    | zero => simp
    | succ n => simpa [Nat.mul_comm] using (Nat.even_mul_succ_self n).two_dvd
  exact h

theorem pairs_cast (n : Nat) : ((n * (n - 1) : Nat) : K) = (n : K) * (n - 1) := by
  cases n with
  | zero => simp
  | succ n => simp

theorem pairCount32_half (n : Nat) :
    n * (n - 1) % 2 ^ 32 / 2 * 2 % 2 ^ 32 = pairCount32 n := by
  unfold pairCount32
  obtain ⟨k, hk⟩ := pairs_even n
  rw [hk]; omega

theorem pairCount32_zero {n : Nat} (h : ¬ n * (n - 1) % 2 ^ 32 / 2 > 0) : pairCount32 n = 0 := by
  unfold pairCount32
  obtain ⟨k, hk⟩ := pairs_even n
  rw [hk] at h ⊢; omega

theorem pairCount32_small {n : Nat} (h : n ≤ 65536) : pairCount32 n = n * (n - 1) := by
  unfold pairCount32
  apply Nat.mod_eq_of_lt
  calc n * (n - 1) ≤ 65536 * 65535 := Nat.mul_le_mul h (by omega)
    _ < 2 ^ 32 := by norm_num

/-- The value computed from the selected rows. -/
theorem crowding_value {A : Mat K} {n dim : Nat} {F : Nat → Nat → K} (hA : IsMat A n dim F) :
    History.crowdingSum A = .ok (pairSum dim F n) ∧
    (if A.nrows * (A.nrows - 1) % 2 ^ 32 / 2 > 0 then
      pairSum dim F n / ((A.nrows * (A.nrows - 1) % 2 ^ 32 / 2 * 2 % 2 ^ 32 : Nat) : K) else 0) =
      reportedCrowding n dim F := by
  obtain ⟨hr, hc, -, -⟩ := id hA
  refine ⟨crowdingSum_ok hA, ?_⟩
  rw [hr, pairCount32_half, pairSum_eq]
  unfold reportedCrowding
  by_cases h : n * (n - 1) % 2 ^ 32 / 2 > 0
  · rw [if_pos h]
  · rw [if_neg h, pairCount32_zero h, Nat.cast_zero, div_zero]

/-- The reported value is the mean times the ratio of the numbers of pairs. -/
theorem reportedCrowding_scale (n dim : Nat) (F : Nat → Nat → K) :
    reportedCrowding n dim F =
      meanPairwise n dim F * ((n * (n - 1) : Nat) / (pairCount32 n : K)) := by
  unfold reportedCrowding meanPairwise
  rw [pairs_cast]
  rcases Nat.lt_or_ge n 2 with h | h
  · obtain rfl | rfl : n = 0 ∨ n = 1 := by omega
    · simp
    · simp
  · have h1 : (2 : K) ≤ n := by exact_mod_cast h
    have h2 : (n : K) * (n - 1) ≠ 0 := by
      apply mul_ne_zero
      · intro h; linarith
      · intro h; linarith
    rw [div_mul_div_cancel₀ h2]

theorem reportedCrowding_eq {n : Nat} (h : n ≤ 65536) (dim : Nat) (F : Nat → Nat → K) :
    reportedCrowding n dim F = meanPairwise n dim F := by
  unfold reportedCrowding meanPairwise
  rw [pairCount32_small h, pairs_cast]

theorem meanPairwise_congr {n dim : Nat} {F G : Nat → Nat → K}
    (h : ∀ i j, i < n → j < dim → F i j = G i j) : meanPairwise n dim F = meanPairwise n dim G := by
  unfold meanPairwise
  congr 1
  refine Finset.sum_congr rfl (fun i hi => Finset.sum_congr rfl (fun j hj => ?_))
  rw [Finset.mem_range] at hi hj
  split_ifs
  · rfl
  · unfold rowDist
    refine Finset.sum_congr rfl (fun k hk => ?_)
    rw [Finset.mem_range] at hk
    rw [h i k hi hk, h j k hj hk]

theorem meanPairwise_nonneg (n dim : Nat) (F : Nat → Nat → K) : 0 ≤ meanPairwise n dim F := by
  unfold meanPairwise
  apply div_nonneg
  · apply Finset.sum_nonneg; intro i _
    apply Finset.sum_nonneg; intro j _
    split_ifs
    · exact le_refl _
    · exact rowDist_nonneg _ _ _ _
  · cases n with
    | zero => simp
    | succ n =>
      have : (0 : K) ≤ (n : K) := Nat.cast_nonneg n
      push_cast
      apply mul_nonneg <;> linarith

/-- Renumbering the rows does not change the mean. -/
theorem meanPairwise_perm (n dim : Nat) (F : Nat → Nat → K) (σ : Nat → Nat)
    (hσ : Set.BijOn σ (Set.Iio n) (Set.Iio n)) :
    meanPairwise n dim (fun i => F (σ i)) = meanPairwise n dim F := by
  obtain ⟨h1, h2, h3⟩ := hσ
  unfold meanPairwise
  congr 1
  have hin : ∀ i ∈ Finset.range n, σ i ∈ Finset.range n := by
    intro i hi; simp at hi ⊢; exact h1 hi
  have hinj : Set.InjOn σ (Finset.range n : Finset Nat) := by
    intro a ha b hb h; simp at ha hb; exact h2 ha hb h
  have hsurj : Set.SurjOn σ (Finset.range n : Finset Nat) (Finset.range n : Finset Nat) := by
    intro a ha
    simp at ha
    obtain ⟨b, hb, e⟩ := h3 ha
    exact ⟨b, by simpa using hb, e⟩
  refine Finset.sum_nbij σ hin hinj hsurj ?_
  intro i hi
  refine Finset.sum_nbij σ hin hinj hsurj ?_
  intro j hj
  have : (i = j) ↔ (σ i = σ j) := ⟨fun h => by rw [h], fun h => hinj (by simpa using hi) (by simpa using hj) h⟩
  by_cases h : i = j
  · rw [if_pos h, if_pos (this.1 h)]
  · rw [if_neg h, if_neg (fun h' => h (this.2 h'))]
    rfl

theorem reportedCrowding_congr {n dim : Nat} {F G : Nat → Nat → K}
    (h : ∀ i j, i < n → j < dim → F i j = G i j) : reportedCrowding n dim F = reportedCrowding n dim G := by
  rw [reportedCrowding_scale, reportedCrowding_scale, meanPairwise_congr h]

theorem reportedCrowding_nonneg (n dim : Nat) (F : Nat → Nat → K) : 0 ≤ reportedCrowding n dim F := by
  rw [reportedCrowding_scale]
  exact mul_nonneg (meanPairwise_nonneg _ _ _) (div_nonneg (Nat.cast_nonneg _) (Nat.cast_nonneg _))

theorem reportedCrowding_perm (n dim : Nat) (F : Nat → Nat → K) (σ : Nat → Nat)
    (hσ : Set.BijOn σ (Set.Iio n) (Set.Iio n)) :
    reportedCrowding n dim (fun i => F (σ i)) = reportedCrowding n dim F := by
  rw [reportedCrowding_scale, reportedCrowding_scale, meanPairwise_perm n dim F σ hσ]

/-- No two or more rows that an `unsigned int` can count have a number of pairs divisible by `2 ^ 32`. -/
theorem pairCount32_pos {n : Nat} (h1 : 2 ≤ n) (h2 : n < 2 ^ 32) : 0 < pairCount32 n := by
  rw [Nat.pos_iff_ne_zero]
  intro h
  have hd : 2 ^ 32 ∣ n * (n - 1) := Nat.dvd_of_mod_eq_zero h
  rcases Nat.even_or_odd n with he | ho
  · have hc : Nat.Coprime (2 ^ 32) (n - 1) := by
      apply Nat.Coprime.pow_left
      rw [Nat.coprime_two_left]
      exact Nat.Even.sub_odd (by omega) he odd_one
    have := Nat.le_of_dvd (by omega) (hc.dvd_of_dvd_mul_right hd)
    omega
  · have hc : Nat.Coprime (2 ^ 32) n := by
      apply Nat.Coprime.pow_left
      rw [Nat.coprime_two_left]
      exact ho
    have := Nat.le_of_dvd (by omega) (hc.dvd_of_dvd_mul_left hd)
    omega

end Rodeo
