import Verif.Lemmas.DblTrip

/-! # Rounding is symmetric in the sign -/

set_option linter.unusedSectionVars false

namespace Rodeo.Dbl

open Spec

variable {K : Type} [Field K] [LinearOrder K] [IsStrictOrderedRing K] [FloorRing K]

theorem roundEven_neg (y : K) : roundEven (-y) = -roundEven y := by
  have h1 := Int.floor_le y
  have h2 := Int.lt_floor_add_one y
  by_cases h0 : y = (⌊y⌋ : K)
  · have e : ⌊-y⌋ = -⌊y⌋ := by
      rw [Int.floor_eq_iff]; push_cast; constructor <;> linarith
    unfold roundEven
    rw [e, if_pos (by push_cast; linarith), if_pos (by linarith)]
  · have h3 : (⌊y⌋ : K) < y := lt_of_le_of_ne h1 (Ne.symm h0)
    have e : ⌊-y⌋ = -⌊y⌋ - 1 := by
      rw [Int.floor_eq_iff]; push_cast; constructor <;> linarith
    unfold roundEven
    rw [e]
    push_cast
    rcases lt_trichotomy (y - (⌊y⌋ : K)) (1 / 2) with h | h | h
    · rw [if_pos h, if_neg (by linarith), if_pos (by linarith)]; ring
    · rw [if_neg (show ¬ -y - (-(⌊y⌋ : K) - 1) < 1 / 2 by linarith),
        if_neg (show ¬ 1 / 2 < -y - (-(⌊y⌋ : K) - 1) by linarith),
        if_neg (show ¬ y - (⌊y⌋ : K) < 1 / 2 by linarith), if_neg (show ¬ 1 / 2 < y - (⌊y⌋ : K) by linarith)]
      split_ifs <;> omega
    · rw [if_pos (show -y - (-(⌊y⌋ : K) - 1) < 1 / 2 by linarith), if_neg (by linarith), if_pos h]; ring

theorem fl_neg (x : K) : fl (-x) = -fl x := by
  unfold fl
  have e : ulpExp (-x) = ulpExp x := by unfold ulpExp; rw [abs_neg]
  rw [e, neg_div, roundEven_neg]
  push_cast
  ring

theorem abs_fl_comm (a b : K) : |fl (a - b)| = |fl (b - a)| := by
  rw [← neg_sub b a, fl_neg, abs_neg]

end Rodeo.Dbl
