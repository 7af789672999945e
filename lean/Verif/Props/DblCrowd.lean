import Verif.Lemmas.DblCrowd
import Verif.Props.History
import Mathlib.Data.Rat.Floor

/-! # C138: the crowding factor in double arithmetic -/

set_option linter.unusedSectionVars false

namespace Rodeo
open Spec

variable {K : Type} [Field K] [LinearOrder K] [IsStrictOrderedRing K] [FloorRing K]

/-- **C138**: with at least as many designs as initial samples, at most 65536 of these, and designs that are
doubles up to `2 ^ 500`, the crowding factor is computed without overflow.  It is a nonnegative double, off
the mean distance of the most recent designs by at most the relative error `(dim + pairs + 2) / 2 ^ 52` and half
the least positive double, and it is zero if these designs are all the same.  Nothing else changes. -/
theorem C138_mean {h : History K} {n m : Nat} {F : Nat → Nat → K} (hA : IsMat h.data n m F)
    (hd : h.dimension ≠ 0) (hm : h.dimension < m) (hs : h.numberOfDoESamples ≠ 0)
    (hn : h.numberOfDoESamples ≤ n) (h32 : h.numberOfDoESamples ≤ 65536) (hdim : h.dimension ≤ 2 ^ 32)
    (hF : ∀ i j, i < n → j < h.dimension → IsDouble (F i j) ∧ |F i j| ≤ 2 ^ (500 : ℤ)) :
    ∃ c, Dbl.calculateCrowdingFactor h = .ok { h with crowding := c } ∧ IsDouble c ∧ 0 ≤ c ∧
      |c - meanPairwise h.numberOfDoESamples h.dimension (fun i => F (n - h.numberOfDoESamples + i))| ≤
        ((h.dimension + h.numberOfDoESamples * (h.numberOfDoESamples - 1) / 2 + 2 : Nat) : K) / 2 ^ 52 *
          meanPairwise h.numberOfDoESamples h.dimension (fun i => F (n - h.numberOfDoESamples + i)) +
        2 ^ (-1075 : ℤ) ∧
      ((∀ i i' j, i < h.numberOfDoESamples → i' < h.numberOfDoESamples → j < h.dimension →
        F (n - h.numberOfDoESamples + i) j = F (n - h.numberOfDoESamples + i') j) → c = 0) := by
  have hr := hA.1
  have hb := Dbl.pairs_bound h32
  obtain ⟨S, e, hS⟩ := Mat.submat_ok hA (r0 := n - h.numberOfDoESamples) (r1 := n - 1) (c0 := 0)
    (c1 := h.dimension - 1) (by omega) (by omega) (by omega) (by omega)
  have e1 : n - 1 - (n - h.numberOfDoESamples) + 1 = h.numberOfDoESamples := by omega
  have e2 : h.dimension - 1 - 0 + 1 = h.dimension := by omega
  rw [e1, e2] at hS
  have hS := hS.congr (G := fun i j => F (n - h.numberOfDoESamples + i) j) (by intro i j _ _; simp)
  obtain ⟨s, e3, h3⟩ := Dbl.crowdingSum_dbl hS (fun i j hi hj => hF _ j (by omega) hj) hdim h32
  obtain ⟨c, e4, c1, c2, c3, c4⟩ := Dbl.crowdingMean_dbl hdim hs h32 h3
  refine ⟨c, ?_, c1, c2, ?_, fun heq => c4 ?_⟩
  · unfold Dbl.calculateCrowdingFactor
    rw [if_neg (by omega), hr, if_pos hn]
    refine bind_eq e (bind_eq e3 (bind_eq ?_ rfl))
    rw [hS.1]; exact e4
  · refine c3.trans (add_le_add ?_ le_rfl)
    exact mul_le_mul_of_nonneg_right (Dbl.gam_le (by omega)) (meanPairwise_nonneg _ _ _)
  · unfold meanPairwise
    rw [div_eq_zero_iff]
    left
    refine Finset.sum_eq_zero (fun i hi => Finset.sum_eq_zero (fun j hj => ?_))
    rw [Finset.mem_range] at hi hj
    split_ifs
    · rfl
    · refine Finset.sum_eq_zero (fun k hk => ?_)
      rw [Finset.mem_range] at hk
      dsimp only
      rw [heq i j k hi hj hk, sub_self, abs_zero]

/-- C138, the other direction: if the mean distance of the most recent designs is at least `2 ^ -1073`, the
crowding factor is positive, so the exploration factor divides by a positive number. -/
theorem C138_positive {h : History K} {n m : Nat} {F : Nat → Nat → K} (hA : IsMat h.data n m F)
    (hd : h.dimension ≠ 0) (hm : h.dimension < m) (hs : h.numberOfDoESamples ≠ 0)
    (hn : h.numberOfDoESamples ≤ n) (h32 : h.numberOfDoESamples ≤ 65536) (hdim : h.dimension ≤ 2 ^ 32)
    (hF : ∀ i j, i < n → j < h.dimension → IsDouble (F i j) ∧ |F i j| ≤ 2 ^ (500 : ℤ))
    (hpos : 2 ^ (-1073 : ℤ) ≤
      meanPairwise h.numberOfDoESamples h.dimension (fun i => F (n - h.numberOfDoESamples + i))) :
    ∃ c, Dbl.calculateCrowdingFactor h = .ok { h with crowding := c } ∧ 0 < c := by
  obtain ⟨c, e, -, -, h1, -⟩ := C138_mean hA hd hm hs hn h32 hdim hF
  refine ⟨c, e, ?_⟩
  have hb := Dbl.pairs_bound h32
  generalize meanPairwise h.numberOfDoESamples h.dimension (fun i => F (n - h.numberOfDoESamples + i)) = M at *
  generalize hk : h.dimension + h.numberOfDoESamples * (h.numberOfDoESamples - 1) / 2 + 2 = k at *
  have hM : 0 < M := lt_of_lt_of_le (Dbl.zp _) hpos
  have hk2 : (k : K) / 2 ^ 52 ≤ 1 / 2 := by
    have hkk : k ≤ 2 ^ 34 := by omega
    have h2 : (k : K) ≤ ((2 ^ 34 : Nat) : K) := by exact_mod_cast hkk
    rw [div_le_iff₀ (by positivity)]
    refine h2.trans ?_
    norm_num
  have h2 := mul_le_mul_of_nonneg_right hk2 hM.le
  have h3 : (2 : K) ^ (-1073 : ℤ) = 4 * 2 ^ (-1075 : ℤ) := by
    rw [show (-1073 : ℤ) = 2 + -1075 by norm_num, Dbl.zp_add]; norm_num
  rw [h3] at hpos
  have h4 := (abs_le.1 h1).1
  have h5 := Dbl.zp (K := K) (-1075)
  generalize (2 : K) ^ (-1075 : ℤ) = u at *
  linarith

/-- C138: 300 designs in one dimension, all of them initial: the hypotheses are met. -/
example : ∃ c, Dbl.calculateCrowdingFactor (HistDemo.many 300) = .ok { HistDemo.many 300 with crowding := c } ∧
    0 ≤ c := by
  obtain ⟨c, e, -, h, -⟩ := C138_mean (HistDemo.many_isMat 300) Nat.one_ne_zero Nat.one_lt_two
    (by decide : (300 : Nat) ≠ 0) le_rfl (by decide : (300 : Nat) ≤ 65536)
    (by decide : (1 : Nat) ≤ 2 ^ 32) (by
      intro i j hi hj
      have hj0 : j < 1 := hj
      obtain rfl : j = 0 := by omega
      have e : ((List.range (300 * 2)).map (fun i : Nat => (i : ℚ))).getD (0 * 300 + i) 0 = (i : ℚ) := by
        have hi2 : i < 300 * 2 := by omega
        rw [List.getD_eq_getElem?_getD, List.getElem?_map, Nat.zero_mul, Nat.zero_add,
          List.getElem?_range hi2]
        rfl
      rw [e]
      refine ⟨Dbl.isDouble_nat (hi.trans (by norm_num)), ?_⟩
      rw [abs_of_nonneg (Nat.cast_nonneg i)]
      have h1 : (i : ℚ) ≤ 2 ^ (9 : ℤ) := by
        have : i ≤ 512 := by omega
        have : (i : ℚ) ≤ (512 : Nat) := by exact_mod_cast this
        refine this.trans (by norm_num)
      exact h1.trans (Dbl.zp_mono (by norm_num)))
  exact ⟨c, e, h⟩

set_option maxRecDepth 100000 in
/-- Two recent designs in two dimensions at distance 3/2. -/
example : (Dbl.calculateCrowdingFactor { (History.new : History ℚ) with
      dimension := 2, data := ⟨3, 3, [9, 1, 2, 9, 3, 5 / 2, 9, 9, 9]⟩,
      numberOfDoESamples := 2 }).toOption.map (fun h => h.crowding) = some (3 / 2) := by
  decide +kernel

end Rodeo
