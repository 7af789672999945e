import Verif.Model.Dbl
import Verif.Spec.Dbl
import Mathlib.Algebra.Order.Floor.Ring
import Mathlib.Tactic.Linarith
import Mathlib.Tactic.Ring
import Mathlib.Tactic.NormNum
import Mathlib.Tactic.Positivity
import Mathlib.Tactic.FieldSimp

set_option linter.unusedSectionVars false

namespace Rodeo.Dbl

open Spec

variable {K : Type} [Field K] [LinearOrder K] [IsStrictOrderedRing K] [FloorRing K]

theorem two_pos' : (0 : K) < 2 := by norm_num

theorem zp (e : ℤ) : (0 : K) < 2 ^ e := zpow_pos two_pos' e

theorem zp_add (a b : ℤ) : (2 : K) ^ (a + b) = 2 ^ a * 2 ^ b := zpow_add₀ two_ne_zero a b

theorem zp_mono {a b : ℤ} (h : a ≤ b) : (2 : K) ^ a ≤ 2 ^ b := zpow_le_zpow_right₀ (by norm_num) h

theorem zp_nat (n : Nat) : (2 : K) ^ (n : ℤ) = 2 ^ n := zpow_natCast 2 n

/-- A power of two with a non-negative exponent is an integer. -/
theorem zp_int {e : ℤ} (h : 0 ≤ e) : ∃ n : ℤ, (2 : K) ^ e = (n : K) ∧ 0 < n := by
  obtain ⟨k, rfl⟩ := Int.eq_ofNat_of_zero_le h
  exact ⟨2 ^ k, by push_cast; exact zp_nat k, by positivity⟩

theorem roundEven_err (y : K) : |(roundEven y : K) - y| ≤ 1 / 2 := by
  have h1 := Int.floor_le y
  have h2 := Int.lt_floor_add_one y
  unfold roundEven
  split_ifs <;> rw [abs_le] <;> push_cast <;> constructor <;> linarith

theorem roundEven_best (y : K) (n : ℤ) : |(roundEven y : K) - y| ≤ |(n : K) - y| := by
  have h := roundEven_err y
  rcases eq_or_ne n (roundEven y) with rfl | hne
  · exact le_rfl
  · have h1 : (1 : K) ≤ |(n : K) - (roundEven y : K)| := by
      have : (1 : ℤ) ≤ |n - roundEven y| := Int.one_le_abs (sub_ne_zero.2 hne)
      have h2 : ((1 : ℤ) : K) ≤ ((|n - roundEven y| : ℤ) : K) := by exact_mod_cast this
      push_cast at h2
      exact h2
    have h2 : |(n : K) - (roundEven y : K)| ≤ |(n : K) - y| + |(roundEven y : K) - y| := by
      have := abs_sub_abs_le_abs_sub ((n : K) - y) ((roundEven y : K) - y)
      have h3 := abs_sub ((n : K) - y) ((roundEven y : K) - y)
      have : ((n : K) - y) - ((roundEven y : K) - y) = (n : K) - (roundEven y : K) := by ring
      rw [this] at h3
      exact h3
    linarith

theorem log_bounds {x : K} (hx : x ≠ 0) :
    (2 : K) ^ Int.log 2 |x| ≤ |x| ∧ |x| < 2 ^ (Int.log 2 |x| + 1) := by
  have h : 0 < |x| := abs_pos.2 hx
  have h1 := Int.zpow_log_le_self (b := 2) (by norm_num) h
  have h2 := Int.lt_zpow_succ_log_self (b := 2) (by norm_num) |x|
  exact ⟨by exact_mod_cast h1, by exact_mod_cast h2⟩

theorem roundEven_zero : roundEven (0 : K) = 0 := by
  unfold roundEven
  rw [if_pos (by rw [Int.floor_zero]; norm_num), Int.floor_zero]

theorem fl_zero : fl (0 : K) = 0 := by
  unfold fl
  rw [zero_div, roundEven_zero]
  simp

/-- The rounding error is at most half a unit in the last place. -/
theorem fl_err_ulp (x : K) : |fl x - x| ≤ 2 ^ (ulpExp x - 1) := by
  have h := roundEven_err (x / 2 ^ ulpExp x)
  have hp := zp (K := K) (ulpExp x)
  have e : fl x - x = ((roundEven (x / 2 ^ ulpExp x) : K) - x / 2 ^ ulpExp x) * 2 ^ ulpExp x := by
    unfold fl
    field_simp
  have e2 : (2 : K) ^ (ulpExp x - 1) = 1 / 2 * 2 ^ ulpExp x := by
    rw [zpow_sub_one₀ two_ne_zero]; ring
  rw [e, abs_mul, abs_of_pos hp, e2]
  exact mul_le_mul_of_nonneg_right h hp.le

theorem fl_isDouble (x : K) : IsDouble (fl x) := by
  set k := ulpExp x with hk
  set n := roundEven (x / 2 ^ k) with hn
  have hk0 : -1074 ≤ k := le_max_right _ _
  have hb : |n| ≤ 2 ^ 53 := by
    rcases eq_or_ne x 0 with rfl | hx
    · have : n = 0 := by
        rw [hn, zero_div, roundEven_zero]
      rw [this]; norm_num
    · have h1 := (log_bounds hx).2
      have h2 : |x| < 2 ^ (k + 53) := lt_of_lt_of_le h1 (zp_mono (by
        have : Int.log 2 |x| - 52 ≤ k := le_max_left _ _
        omega))
      have h3 : |x / 2 ^ k| < 2 ^ 53 := by
        rw [abs_div, abs_of_pos (zp (K := K) k), div_lt_iff₀ (zp k), ← zp_nat, mul_comm, ← zp_add]
        exact h2
      have h4 := roundEven_err (x / 2 ^ k)
      have h5 : |(n : K)| < 2 ^ 53 + 1 := by
        have := abs_sub_abs_le_abs_sub (n : K) (x / 2 ^ k)
        have : |(n : K)| - |x / 2 ^ k| ≤ 1 / 2 := le_trans this h4
        linarith
      have h6 : |n| < 2 ^ 53 + 1 := by
        have : ((|n| : ℤ) : K) < ((2 ^ 53 + 1 : ℤ) : K) := by rw [Int.cast_abs]; refine h5.trans_le (le_of_eq (by norm_num))
        exact_mod_cast this
      omega
  rcases lt_or_eq_of_le hb with h | h
  · exact ⟨n, k, h, hk0, rfl⟩
  · have h8 : n = 2 ^ 53 ∨ n = -2 ^ 53 := by
      rcases abs_choice n with h' | h' <;> omega
    have h9 : (2 : K) ^ (k + 1) = 2 ^ k * 2 := by rw [zp_add]; norm_num
    rcases h8 with h8 | h8
    · refine ⟨2 ^ 52, k + 1, by norm_num, by omega, ?_⟩
      show (n : K) * 2 ^ k = _
      rw [h8, h9]; push_cast; ring
    · refine ⟨-2 ^ 52, k + 1, by norm_num, by omega, ?_⟩
      show (n : K) * 2 ^ k = _
      rw [h8, h9]; push_cast; ring

/-- `fl` rounds to nearest. -/
theorem fl_nearest (x : K) : IsNearest x (fl x) := by
  refine ⟨fl_isDouble x, ?_⟩
  rintro d ⟨m, e, hm, he, rfl⟩
  set k := ulpExp x with hk
  have grid : ∀ n : ℤ, |fl x - x| ≤ |(n : K) * 2 ^ k - x| := by
    intro n
    have h := roundEven_best (x / 2 ^ k) n
    have hp := zp (K := K) k
    have e1 : fl x - x = ((roundEven (x / 2 ^ k) : K) - x / 2 ^ k) * 2 ^ k := by
      unfold fl; rw [← hk]; field_simp
    have e2 : (n : K) * 2 ^ k - x = ((n : K) - x / 2 ^ k) * 2 ^ k := by field_simp
    rw [e1, e2, abs_mul, abs_mul]
    exact mul_le_mul_of_nonneg_right h (abs_nonneg _)
  by_cases hek : k ≤ e
  · obtain ⟨c, hc, -⟩ := zp_int (K := K) (show 0 ≤ e - k by omega)
    have : (m : K) * 2 ^ e = ((m * c : ℤ) : K) * 2 ^ k := by
      have : e = (e - k) + k := by ring
      rw [this, zp_add, hc]; push_cast; ring
    rw [this]
    exact grid _
  · push Not at hek
    have hkl : k = Int.log 2 |x| - 52 := by
      have : k = Int.log 2 |x| - 52 ∨ k = -1074 := by
        rcases max_choice (Int.log 2 |x| - 52) (-1074) with h | h
        · exact Or.inl (hk.trans h)
        · exact Or.inr (hk.trans h)
      rcases this with h | h
      · exact h
      · omega
    rcases eq_or_ne x 0 with rfl | hx
    · rw [fl_zero, sub_self, abs_zero]; exact abs_nonneg _
    · obtain ⟨l1, -⟩ := log_bounds hx
      set L := Int.log 2 |x| with hL
      have hd : |(m : K) * 2 ^ e| ≤ 2 ^ L := by
        rw [abs_mul, abs_of_pos (zp (K := K) e)]
        have h1 : |(m : K)| ≤ 2 ^ (53 : ℤ) := by
          have : ((|m| : ℤ) : K) ≤ ((2 ^ 53 : ℤ) : K) := by exact_mod_cast hm.le
          rw [Int.cast_abs] at this
          exact this.trans (le_of_eq (by norm_num))
        have h2 : (2 : K) ^ (53 : ℤ) * 2 ^ e ≤ 2 ^ L := by
          rw [← zp_add]; exact zp_mono (by omega)
        exact le_trans (mul_le_mul_of_nonneg_right h1 (zp e).le) h2
      have hLk : (2 : K) ^ L = ((2 ^ 52 : ℤ) : K) * 2 ^ k := by
        have : L = (52 : ℕ) + k := by push_cast; omega
        rw [this, zp_add, zp_nat]; push_cast; ring
      rcases lt_or_gt_of_ne hx with hx0 | hx0
      · have e1 : |x| = -x := abs_of_neg hx0
        have h := grid (-2 ^ 52)
        have e3 : (((-2 ^ 52 : ℤ)) : K) * 2 ^ k = -2 ^ L := by rw [hLk]; push_cast; ring
        rw [e3] at h
        refine h.trans ?_
        rw [e1] at l1
        have := (abs_le.1 hd).1
        rw [abs_of_nonneg (by linarith), abs_of_nonneg (by linarith)]
        linarith
      · have e1 : |x| = x := abs_of_pos hx0
        have h := grid (2 ^ 52)
        rw [← hLk] at h
        refine h.trans ?_
        rw [e1] at l1
        have := (abs_le.1 hd).2
        rw [abs_of_nonpos (by linarith), abs_of_nonpos (by linarith)]
        linarith

theorem fl_of_double {x : K} (h : IsDouble x) : fl x = x := by
  have := (fl_nearest x).2 x h
  rw [sub_self, abs_zero] at this
  exact sub_eq_zero.1 (abs_nonpos_iff.1 this)

/-- Rounding to nearest is monotone, whatever it does with ties. -/
theorem fl_mono {x y : K} (h : x ≤ y) : fl x ≤ fl y := by
  rcases eq_or_lt_of_le h with rfl | h
  · exact le_rfl
  · by_contra hc
    push Not at hc
    have h1 := (fl_nearest x).2 _ (fl_isDouble y)
    have h2 := (fl_nearest y).2 _ (fl_isDouble x)
    rcases abs_cases (fl x - x) with ⟨a1, b1⟩ | ⟨a1, b1⟩ <;>
    rcases abs_cases (fl y - x) with ⟨a2, b2⟩ | ⟨a2, b2⟩ <;>
    rcases abs_cases (fl y - y) with ⟨a3, b3⟩ | ⟨a3, b3⟩ <;>
    rcases abs_cases (fl x - y) with ⟨a4, b4⟩ | ⟨a4, b4⟩ <;>
    rw [a1, a2] at h1 <;> rw [a3, a4] at h2 <;> linarith

/-- A double above (below) a number is above (below) its rounding. -/
theorem fl_le_double {x d : K} (hd : IsDouble d) (h : x ≤ d) : fl x ≤ d := by
  have := fl_mono h
  rwa [fl_of_double hd] at this

theorem double_le_fl {x d : K} (hd : IsDouble d) (h : d ≤ x) : d ≤ fl x := by
  have := fl_mono h
  rwa [fl_of_double hd] at this

theorem isDouble_zero : IsDouble (0 : K) := ⟨0, 0, by norm_num, by norm_num, by simp⟩

theorem isDouble_one : IsDouble (1 : K) := ⟨1, 0, by norm_num, by norm_num, by simp⟩

theorem isDouble_neg {x : K} (h : IsDouble x) : IsDouble (-x) := by
  obtain ⟨m, e, h1, h2, rfl⟩ := h
  exact ⟨-m, e, by rwa [abs_neg], h2, by push_cast; ring⟩

theorem isDouble_nat {n : Nat} (h : n < 2 ^ 53) : IsDouble (n : K) := by
  refine ⟨n, 0, ?_, by norm_num, by simp⟩
  rw [Nat.abs_cast]
  exact_mod_cast h

/-- The relative error. -/
theorem fl_err (x : K) : |fl x - x| ≤ max (|x| / 2 ^ 53) (2 ^ (-1075 : ℤ)) := by
  rcases eq_or_ne x 0 with rfl | hx
  · rw [fl_zero, sub_self, abs_zero]; exact le_max_of_le_right (zp _).le
  refine (fl_err_ulp x).trans ?_
  rcases max_choice (Int.log 2 |x| - 52) (-1074) with h | h
  · refine le_max_of_le_left ?_
    rw [show ulpExp x = Int.log 2 |x| - 52 from h, le_div_iff₀ (by positivity), ← zp_nat, ← zp_add]
    have : Int.log 2 |x| - 52 - 1 + (53 : ℕ) = Int.log 2 |x| := by push_cast; ring
    rw [this]
    exact (log_bounds hx).1
  · refine le_max_of_le_right ?_
    rw [show ulpExp x = -1074 from h]
    norm_num

/-- A sum of doubles that is subnormal is exact; so the error of a sum is always relative. -/
theorem fl_small {x : K} (n : ℤ) (e : ℤ) (he : -1074 ≤ e) (hx : x = (n : K) * 2 ^ e)
    (h : |x| < 2 ^ (e + 53)) : fl x = x := by
  refine fl_of_double ⟨n, e, ?_, he, hx⟩
  rw [hx, abs_mul, abs_of_pos (zp (K := K) e), zp_add, mul_comm] at h
  have h1 := lt_of_mul_lt_mul_left h (zp e).le
  have : ((|n| : ℤ) : K) < ((2 ^ 53 : ℤ) : K) := by
    rw [Int.cast_abs]; exact h1.trans_le (le_of_eq (by norm_num))
  exact_mod_cast this

/-- Sums of doubles are multiples of the least double. -/
theorem add_grid {a b : K} (ha : IsDouble a) (hb : IsDouble b) :
    ∃ n : ℤ, a + b = (n : K) * 2 ^ (-1074 : ℤ) := by
  obtain ⟨m, e, -, he, rfl⟩ := ha
  obtain ⟨m', e', -, he', rfl⟩ := hb
  obtain ⟨c, hc, -⟩ := zp_int (K := K) (show 0 ≤ e + 1074 by omega)
  obtain ⟨c', hc', -⟩ := zp_int (K := K) (show 0 ≤ e' + 1074 by omega)
  refine ⟨m * c + m' * c', ?_⟩
  have e1 : (2 : K) ^ e = c * 2 ^ (-1074 : ℤ) := by
    rw [← hc, ← zp_add]; congr 1; ring
  have e2 : (2 : K) ^ e' = c' * 2 ^ (-1074 : ℤ) := by
    rw [← hc', ← zp_add]; congr 1; ring
  rw [e1, e2]; push_cast; ring

/-- The error is relative for multiples of the least double. -/
theorem fl_grid_err {x : K} (h : ∃ n : ℤ, x = (n : K) * 2 ^ (-1074 : ℤ)) : |fl x - x| ≤ |x| / 2 ^ 53 := by
  obtain ⟨n, hn⟩ := h
  rcases lt_or_ge |x| (2 ^ (-1074 + 53 : ℤ)) with h | h
  · rw [fl_small n (-1074) le_rfl hn h, sub_self, abs_zero]
    positivity
  · refine (fl_err _).trans (max_le le_rfl ?_)
    rw [le_div_iff₀ (by positivity), ← zp_nat, ← zp_add]
    exact le_trans (zp_mono (by norm_num)) h

theorem fl_add_err {a b : K} (ha : IsDouble a) (hb : IsDouble b) :
    |fl (a + b) - (a + b)| ≤ |a + b| / 2 ^ 53 := fl_grid_err (add_grid ha hb)

theorem fl_sub_err {a b : K} (ha : IsDouble a) (hb : IsDouble b) :
    |fl (a - b) - (a - b)| ≤ |a - b| / 2 ^ 53 := by
  have := fl_add_err ha (isDouble_neg hb)
  rwa [← sub_eq_add_neg] at this

theorem fl_nat_mul_err (k : Nat) {a : K} (ha : IsDouble a) :
    |fl ((k : K) * a) - (k : K) * a| ≤ |(k : K) * a| / 2 ^ 53 := by
  refine fl_grid_err ?_
  obtain ⟨m, e, -, he, rfl⟩ := ha
  obtain ⟨c, hc, -⟩ := zp_int (K := K) (show 0 ≤ e + 1074 by omega)
  refine ⟨k * m * c, ?_⟩
  have e1 : (2 : K) ^ e = c * 2 ^ (-1074 : ℤ) := by
    rw [← hc, ← zp_add]; congr 1; ring
  rw [e1]; push_cast; ring

/-! ## Doubles near one -/

/-- A double above 1/2 is a multiple of `2 ^ (-53)`. -/
theorem grid_of_half_lt {t : K} (h : IsDouble t) (h2 : 1 / 2 < t) :
    ∃ n : ℤ, t = (n : K) * 2 ^ (-53 : ℤ) := by
  obtain ⟨m, e, hm, he, rfl⟩ := h
  have he' : -53 ≤ e := by
    by_contra hc
    push Not at hc
    have h1 : (m : K) ≤ 2 ^ (53 : ℤ) := by
      have : (m : K) ≤ ((2 ^ 53 : ℤ) : K) := by exact_mod_cast (le_abs_self m).trans hm.le
      exact this.trans (le_of_eq (by norm_num))
    have h3 : (m : K) * 2 ^ e ≤ 2 ^ (53 : ℤ) * 2 ^ e := mul_le_mul_of_nonneg_right h1 (zp e).le
    rw [← zp_add] at h3
    have h4 : (2 : K) ^ (53 + e) ≤ 2 ^ (-1 : ℤ) := zp_mono (by omega)
    rw [zpow_neg_one] at h4
    linarith
  obtain ⟨c, hc, -⟩ := zp_int (K := K) (show 0 ≤ e + 53 by omega)
  refine ⟨m * c, ?_⟩
  have : (2 : K) ^ e = c * 2 ^ (-53 : ℤ) := by rw [← hc, ← zp_add]; congr 1; ring
  rw [this]; push_cast; ring

theorem double_lt_one {t : K} (h : IsDouble t) (h1 : t < 1) : t ≤ 1 - 2 ^ (-53 : ℤ) := by
  have hsmall : (2 : K) ^ (-53 : ℤ) ≤ 1 / 2 := by
    have : (2 : K) ^ (-53 : ℤ) ≤ 2 ^ (-1 : ℤ) := zp_mono (by norm_num)
    rw [zpow_neg_one] at this
    linarith
  rcases le_or_gt t (1 / 2) with h2 | h2
  · exact le_sub_iff_add_le.2 ((add_le_add h2 hsmall).trans (le_of_eq (by norm_num)))
  · obtain ⟨n, rfl⟩ := grid_of_half_lt h h2
    have hp := zp (K := K) (-53)
    have e1 : (1 : K) = 2 ^ 53 * 2 ^ (-53 : ℤ) := by rw [← zp_nat, ← zp_add]; norm_num
    have hn : n < 2 ^ 53 := by
      have : (n : K) * 2 ^ (-53 : ℤ) < 2 ^ 53 * 2 ^ (-53 : ℤ) := by rw [← e1]; exact h1
      have h3 := lt_of_mul_lt_mul_right this hp.le
      have : (n : K) < ((2 ^ 53 : ℤ) : K) := h3.trans_le (le_of_eq (by norm_num))
      exact_mod_cast this
    have hn' : (n : K) ≤ 2 ^ 53 - 1 := by
      have h3 : n ≤ 2 ^ 53 - 1 := by omega
      have : (n : K) ≤ ((2 ^ 53 - 1 : ℤ) : K) := by exact_mod_cast h3
      exact this.trans (le_of_eq (by norm_num))
    have := mul_le_mul_of_nonneg_right hn' hp.le
    rw [sub_mul, ← e1, one_mul] at this
    exact this

/-- Nothing is between 1 and its successor. -/
theorem double_near_one {t : K} (h : IsDouble t) (h1 : t < 1 + 2 ^ (-52 : ℤ)) : t ≤ 1 := by
  by_contra hc
  push Not at hc
  obtain ⟨m, e, hm, he, rfl⟩ := h
  have he' : -52 ≤ e := by
    by_contra hc'
    push Not at hc'
    have h1 : (m : K) ≤ 2 ^ (53 : ℤ) := by
      have : (m : K) ≤ ((2 ^ 53 : ℤ) : K) := by exact_mod_cast (le_abs_self m).trans hm.le
      exact this.trans (le_of_eq (by norm_num))
    have h3 : (m : K) * 2 ^ e ≤ 2 ^ (53 : ℤ) * 2 ^ e := mul_le_mul_of_nonneg_right h1 (zp e).le
    rw [← zp_add] at h3
    have h4 : (2 : K) ^ (53 + e) ≤ 2 ^ (0 : ℤ) := zp_mono (by omega)
    rw [zpow_zero] at h4
    linarith
  obtain ⟨c, hcc, -⟩ := zp_int (K := K) (show 0 ≤ e + 52 by omega)
  have hp := zp (K := K) (-52)
  have e2 : (2 : K) ^ e = c * 2 ^ (-52 : ℤ) := by rw [← hcc, ← zp_add]; congr 1; ring
  have e1 : (1 : K) = 2 ^ 52 * 2 ^ (-52 : ℤ) := by rw [← zp_nat, ← zp_add]; norm_num
  have e3 : (m : K) * 2 ^ e = ((m * c : ℤ) : K) * 2 ^ (-52 : ℤ) := by rw [e2]; push_cast; ring
  rw [e3] at h1 hc
  have a1 : (2 ^ 52 : K) * 2 ^ (-52 : ℤ) < ((m * c : ℤ) : K) * 2 ^ (-52 : ℤ) := by rw [← e1]; exact hc
  have a2 : ((m * c : ℤ) : K) * 2 ^ (-52 : ℤ) < (2 ^ 52 + 1) * 2 ^ (-52 : ℤ) := by
    rw [add_mul, ← e1, one_mul]; exact h1
  have b1 := lt_of_mul_lt_mul_right a1 hp.le
  have b2 := lt_of_mul_lt_mul_right a2 hp.le
  have c1 : (2 ^ 52 : ℤ) < m * c := by
    have : ((2 ^ 52 : ℤ) : K) < ((m * c : ℤ) : K) := lt_of_le_of_lt (le_of_eq (by norm_num)) b1
    exact_mod_cast this
  have c2 : m * c < 2 ^ 52 + 1 := by
    have : ((m * c : ℤ) : K) < ((2 ^ 52 + 1 : ℤ) : K) := b2.trans_le (le_of_eq (by norm_num))
    exact_mod_cast this
  omega

/-! ## The computed unit of the normalized space -/

/-- `(1.0 / n) * n` is not above one. -/
theorem unit_mul_le {n : Nat} (hn : 0 < n) (h32 : n < 2 ^ 32) :
    fl (fl (1 / (n : K)) * (n : K)) ≤ 1 := by
  have hn' : (0 : K) < n := by exact_mod_cast hn
  set x : K := 1 / (n : K) with hx
  have hx0 : 0 < x := by positivity
  have hxn : x * n = 1 := by rw [hx]; field_simp
  rcases le_or_gt (fl x * n) 1 with h | h
  · exact fl_le_double isDouble_one h
  · have hL := log_bounds hx0.ne'
    rw [abs_of_pos hx0] at hL
    set L := Int.log 2 x with hLdef
    have hL1 : -33 ≤ L := by
      by_contra hc
      push Not at hc
      have h1 : x < 2 ^ (-32 : ℤ) := lt_of_lt_of_le hL.2 (zp_mono (by omega))
      have h2 : (n : K) ≤ 2 ^ (32 : ℤ) := by
        have : (n : K) ≤ ((2 ^ 32 : Nat) : K) := by exact_mod_cast h32.le
        exact this.trans (le_of_eq (by norm_num))
      have h3 : x * n < 2 ^ (-32 : ℤ) * 2 ^ (32 : ℤ) :=
        mul_lt_mul h1 h2 hn' (zp _).le
      rw [← zp_add, hxn] at h3
      norm_num at h3
    have hk : ulpExp x = L - 52 := by
      unfold ulpExp
      rw [abs_of_pos hx0, ← hLdef, max_eq_left (by omega)]
    have herr := fl_err_ulp x
    rw [hk] at herr
    have hne : (2 : K) ^ L ≠ x := by
      intro he
      have : fl x = x := fl_of_double ⟨1, L, by norm_num, by omega, by rw [← he]; simp⟩
      rw [this, hxn] at h
      exact lt_irrefl _ h
    have hlt : (2 : K) ^ L < x := lt_of_le_of_ne hL.1 hne
    have h53 : (2 : K) ^ (L - 52 - 1) = 2 ^ L * 2 ^ (-53 : ℤ) := by rw [← zp_add]; congr 1; ring
    have h1 : fl x - x < x * 2 ^ (-53 : ℤ) := by
      have := (abs_le.1 herr).2
      rw [h53] at this
      exact lt_of_le_of_lt this (mul_lt_mul_of_pos_right hlt (zp _))
    have hw : fl x * n < 1 + 2 ^ (-53 : ℤ) := by
      have : fl x * n < (x + x * 2 ^ (-53 : ℤ)) * n := mul_lt_mul_of_pos_right (by linarith) hn'
      have e : (x + x * 2 ^ (-53 : ℤ)) * (n : K) = x * n + x * n * 2 ^ (-53 : ℤ) := by ring
      rw [e, hxn, one_mul] at this
      exact this
    refine double_near_one (fl_isDouble _) ?_
    have h2 := (fl_nearest (fl x * n)).2 1 isDouble_one
    have h3 := (abs_le.1 h2).2
    rw [abs_of_neg (by linarith)] at h3
    have e52 : (2 : K) ^ (-52 : ℤ) = 2 * 2 ^ (-53 : ℤ) := by
      have : (-52 : ℤ) = 1 + -53 := by norm_num
      rw [this, zp_add]; norm_num
    rw [e52]
    linarith

/-! ## A point between two doubles -/

/-- The product with a factor below one does not exceed the exact difference. -/
theorem below_diff {a b t : K} (ha : IsDouble a) (hb : IsDouble b) (hab : a ≤ b) (ht : IsDouble t)
    (h0 : 0 ≤ t) (h1 : t < 1) : 0 ≤ fl (t * fl (b - a)) ∧ fl (t * fl (b - a)) ≤ b - a := by
  set z := b - a with hz
  have hz0 : 0 ≤ z := sub_nonneg.2 hab
  set D := fl z with hD
  have hD0 : 0 ≤ D := double_le_fl isDouble_zero hz0
  have hDd : IsDouble D := fl_isDouble _
  refine ⟨double_le_fl isDouble_zero (mul_nonneg h0 hD0), ?_⟩
  have hle : fl (t * D) ≤ D := fl_le_double hDd (by
    have := mul_le_mul_of_nonneg_right h1.le hD0
    linarith)
  rcases le_or_gt D z with h | h
  · exact hle.trans h
  · -- the difference is normal
    have hzpos : 0 < z := by
      rcases eq_or_lt_of_le hz0 with he | he
      · rw [hD, ← he, fl_zero] at h
        exact absurd h (lt_irrefl _)
      · exact he
    have hbig : (2 : K) ^ (-1021 : ℤ) ≤ z := by
      by_contra hc
      push Not at hc
      obtain ⟨n, hn⟩ := add_grid hb (isDouble_neg ha)
      have e : b + -a = z := by rw [hz]; ring
      rw [e] at hn
      have := fl_small n (-1074) le_rfl hn (by rw [abs_of_pos hzpos]; exact hc)
      rw [hD, this] at h
      exact lt_irrefl _ h
    have hL := log_bounds hzpos.ne'
    rw [abs_of_pos hzpos] at hL
    set L := Int.log 2 z with hLd
    have hL1 : -1022 ≤ L := by
      by_contra hc
      push Not at hc
      have := lt_of_le_of_lt hbig hL.2
      exact absurd this (not_lt.2 (zp_mono (by omega)))
    have hk : ulpExp z = L - 52 := by
      unfold ulpExp
      rw [abs_of_pos hzpos, ← hLd, max_eq_left (by omega)]
    set k := L - 52 with hkd
    obtain ⟨n, hn⟩ : ∃ n : ℤ, D = (n : K) * 2 ^ k := ⟨_, by rw [hD]; unfold fl; rw [hk]⟩
    have hk2 := zp (K := K) k
    have hDu : D ≤ 2 ^ (53 : ℤ) * 2 ^ k := by
      refine fl_le_double ⟨1, 53 + k, by norm_num, by omega, by rw [zp_add]; simp⟩ ?_
      rw [← zp_add]
      refine hL.2.le.trans (zp_mono (by omega))
    have hn1 : n ≤ 2 ^ 53 := by
      rw [hn] at hDu
      have := le_of_mul_le_mul_right hDu hk2
      have : (n : K) ≤ ((2 ^ 53 : ℤ) : K) := this.trans (le_of_eq (by norm_num))
      exact_mod_cast this
    have hn0 : 0 < n := by
      have h2 : 0 < (n : K) * 2 ^ k := by rw [← hn]; exact hzpos.trans h
      have h3 : (0 : K) < n := (mul_pos_iff_of_pos_right hk2).1 h2
      exact_mod_cast h3
    set P : K := ((n - 1 : ℤ) : K) * 2 ^ k with hP
    have hPd : IsDouble P := ⟨n - 1, k, by rw [abs_of_nonneg (by omega)]; omega, by omega, rfl⟩
    have hPD : P = D - 2 ^ k := by rw [hP, hn]; push_cast; ring
    have ht1 := double_lt_one ht h1
    have hhalf : (2 : K) ^ k = 2 * (2 ^ L * 2 ^ (-53 : ℤ)) := by
      rw [← zp_add]
      have : k = 1 + (L + -53) := by omega
      rw [this, zp_add]; norm_num
    have hw : t * D < D - 2 ^ L * 2 ^ (-53 : ℤ) := by
      have a1 : t * D ≤ (1 - 2 ^ (-53 : ℤ)) * D := mul_le_mul_of_nonneg_right ht1 hD0
      have a2 : (2 : K) ^ L * 2 ^ (-53 : ℤ) < D * 2 ^ (-53 : ℤ) :=
        mul_lt_mul_of_pos_right (lt_of_le_of_lt hL.1 h) (zp _)
      linarith
    have hlt : fl (t * D) < D := by
      rcases le_or_gt (t * D) P with h2 | h2
      · have := fl_le_double hPd h2
        linarith
      · have h3 := (fl_nearest (t * D)).2 P hPd
        have h4 := (abs_le.1 h3).2
        rw [abs_of_neg (by linarith)] at h4
        linarith
    by_contra hc
    push Not at hc
    have h5 := (fl_nearest z).2 (fl (t * D)) (fl_isDouble _)
    rw [← hD, abs_of_pos (by linarith), abs_of_pos (by linarith)] at h5
    linarith

/-- A point at a fraction below one of the way from `a` to `b`, computed in doubles, is between them. -/
theorem between {a b t : K} (ha : IsDouble a) (hb : IsDouble b) (hab : a ≤ b) (ht : IsDouble t)
    (h0 : 0 ≤ t) (h1 : t < 1) :
    a ≤ fl (fl (t * fl (b - a)) + a) ∧ fl (fl (t * fl (b - a)) + a) ≤ b := by
  obtain ⟨h2, h3⟩ := below_diff ha hb hab ht h0 h1
  exact ⟨double_le_fl ha (by linarith), fl_le_double hb (by linarith)⟩

theorem dbl_ok {x r : K} (h : dbl x = .ok r) : r = fl x := by
  unfold dbl at h
  split_ifs at h
  exact (Except.ok.inj h).symm

end Rodeo.Dbl
