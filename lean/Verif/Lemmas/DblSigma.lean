import Verif.Model.DblSigma
import Verif.Lemmas.DblSum
import Mathlib.Algebra.Order.Group.MinMax

set_option linter.unusedSectionVars false

namespace Rodeo.Dbl
open Spec

variable {K : Type} [Field K] [LinearOrder K] [IsStrictOrderedRing K] [FloorRing K]

theorem ext_ne_nan (x : K) : ext x ≠ .nan := by
  unfold ext
  split_ifs <;> simp

theorem extDiv_ne_nan {a b : K} (h : a ≠ 0 ∨ b ≠ 0) : extDiv a b ≠ .nan := by
  unfold extDiv
  by_cases h0 : b = 0
  · have hne : a ≠ 0 := h.resolve_right (fun h => h h0)
    rw [if_neg (by simpa using h0)]
    rcases lt_or_gt_of_ne hne with h | h
    · rw [if_neg (not_lt.2 h.le), if_pos h]; simp
    · rw [if_pos h]; simp
  · rw [if_pos h0]; exact ext_ne_nan _

theorem extScale_ne_nan {m : K} (hm : 0 < m) {s : Ext K} (hs : s ≠ .nan) : extScale m s ≠ .nan := by
  cases s with
  | nan => exact absurd rfl hs
  | fin x => exact ext_ne_nan _
  | pinf => simp [extScale, hm]
  | ninf => simp [extScale, hm]

theorem extClamp {s : Ext K} (hs : s ≠ .nan) {lo hi : K} (h : lo ≤ hi) :
    ∃ x, (if (if s.lt lo then Ext.fin lo else s).gt hi then Ext.fin hi else (if s.lt lo then .fin lo else s)) =
      .fin x ∧ lo ≤ x ∧ x ≤ hi ∧
      (∀ v, s = .fin v → x = max lo (min hi v)) ∧ (s = .pinf → x = hi) := by
  cases s with
  | nan => exact absurd rfl hs
  | pinf => exact ⟨hi, by simp [Ext.lt, Ext.gt], h, le_rfl, by simp, fun _ => rfl⟩
  | ninf => exact ⟨lo, by simp [Ext.lt, Ext.gt, not_lt.2 h], le_rfl, h, by simp, by simp⟩
  | fin v =>
    by_cases h1 : v < lo
    · refine ⟨lo, by simp [Ext.lt, Ext.gt, h1, not_lt.2 h], le_rfl, h, ?_, by simp⟩
      rintro w ⟨⟩
      rw [min_eq_right (h1.le.trans h), max_eq_left h1.le]
    · by_cases h2 : hi < v
      · refine ⟨hi, by simp [Ext.lt, Ext.gt, h1, h2], h, le_rfl, ?_, by simp⟩
        rintro w ⟨⟩
        rw [min_eq_left h2.le, max_eq_right h]
      · refine ⟨v, by simp [Ext.lt, Ext.gt, h1, h2], not_lt.1 h1, not_lt.1 h2, ?_, by simp⟩
        rintro w ⟨⟩
        rw [min_eq_right (not_lt.1 h2), max_eq_right (not_lt.1 h1)]

/-- `y` approximates the nonnegative number `e` with relative error `d` and absolute error `t`; it is
infinite only if `e` is huge. -/
def App (d t : K) : Ext K → K → Prop
  | .fin v, e => 0 ≤ v ∧ |v - e| ≤ d * e + t
  | .pinf, e => 2 ^ (1000 : ℤ) ≤ e
  | _, _ => False

/-- A number that overflows. -/
theorem ext_big {x : K} (hx : 0 ≤ x) : (∃ v, ext x = .fin v ∧ v = fl x ∧ 0 ≤ v) ∨
    (ext x = .pinf ∧ 2 ^ (1023 : ℤ) ≤ x) := by
  unfold ext
  by_cases h : |fl x| < 2 ^ 1024
  · left
    rw [if_pos h]
    exact ⟨_, rfl, rfl, double_le_fl isDouble_zero hx⟩
  · right
    have h1 : 2 ^ (1023 : ℤ) ≤ x := by
      by_contra hc
      have h2 : |x| ≤ 2 ^ (1023 : ℤ) := by rw [abs_of_nonneg hx]; exact (not_le.1 hc).le
      have := dbl_of_le (by norm_num) le_rfl h2
      unfold dbl at this
      rw [if_neg h] at this
      cases this
    rw [if_neg h, if_pos ((zp _).trans_le h1)]
    exact ⟨rfl, h1⟩

theorem App.div {a b : K} (ha : 0 ≤ a) (hb : 0 < b) : App eps eta (extDiv a b) (a / b) := by
  unfold extDiv
  rw [if_pos hb.ne']
  have h0 := div_nonneg ha hb.le
  rcases ext_big h0 with ⟨v, e, hv, hv0⟩ | ⟨e, h⟩
  · rw [e]
    refine ⟨hv0, ?_⟩
    have := fl_rel (a / b)
    rw [abs_of_nonneg h0] at this
    rw [hv]; exact this
  · rw [e]
    exact (zp_mono (by norm_num)).trans h

theorem scale_alg {m v e r d t t' : K} (hm : 1 ≤ m)
    (h : |v - e| ≤ d * e + t) (hr : |r - m * v| ≤ eps * (m * v) + eta) (ht' : (1 + eps) * (m * t) + eta ≤ t') :
    |r - m * e| ≤ ((1 + eps) * d + eps) * (m * e) + t' := by
  have he := eps_pos (K := K)
  have hm0 : 0 ≤ m := by linarith
  have h1 : |m * v - m * e| ≤ d * (m * e) + m * t := by
    rw [← mul_sub, abs_mul, abs_of_nonneg hm0]
    have := mul_le_mul_of_nonneg_left h hm0
    have e2 : m * (d * e + t) = d * (m * e) + m * t := by ring
    rw [← e2]; exact this
  have h2 : m * v ≤ m * e + (d * (m * e) + m * t) := by linarith [(abs_le.1 h1).2]
  have h3 := mul_le_mul_of_nonneg_left h2 he.le
  have h4 := abs_sub_le r (m * v) (m * e)
  have e3 : eps * (m * e + (d * (m * e) + m * t)) = eps * (m * e) + eps * (d * (m * e)) + eps * (m * t) := by ring
  have e4 : ((1 + eps) * d + eps) * (m * e) = d * (m * e) + eps * (d * (m * e)) + eps * (m * e) := by ring
  have e5 : (1 + eps) * (m * t) = m * t + eps * (m * t) := by ring
  rw [e3] at h3
  rw [e4]
  rw [e5] at ht'
  linarith

theorem big_alg {m v e d t B C : K} (hm : 1 ≤ m) (h : |v - e| ≤ d * e + t) (he : 0 ≤ e)
    (hd : d ≤ 1) (hmt : m * t ≤ 1) (hB : B ≤ m * v) (hC : 2 * C + 1 ≤ B) : C ≤ m * e := by
  have hm0 : 0 ≤ m := by linarith
  have h1 : v ≤ 2 * e + t := by
    have := (abs_le.1 h).2
    have h2 := mul_le_mul_of_nonneg_right hd he
    linarith
  have h3 := mul_le_mul_of_nonneg_left h1 hm0
  have e3 : m * (2 * e + t) = 2 * (m * e) + m * t := by ring
  linarith

theorem App.scale {y : Ext K} {e m d t t' : K} (h : App d t y e) (he0 : 0 ≤ e) (hm : 1 ≤ m) (hd : d ≤ 1)
    (hmt : m * t ≤ 1) (ht' : (1 + eps) * (m * t) + eta ≤ t') :
    App ((1 + eps) * d + eps) t' (extScale m y) (m * e) := by
  have hm0 : 0 < m := by linarith
  cases y with
  | nan => exact h.elim
  | ninf => exact h.elim
  | pinf =>
    have h1 : (2 : K) ^ (1000 : ℤ) ≤ e := h
    simp only [extScale, gt_iff_lt, if_pos hm0]
    exact h1.trans (le_mul_of_one_le_left he0 hm)
  | fin v =>
    obtain ⟨hv, h1⟩ := h
    have h0 : 0 ≤ m * v := mul_nonneg hm0.le hv
    simp only [extScale]
    rcases ext_big h0 with ⟨w, e1, hw, hw0⟩ | ⟨e1, h2⟩
    · rw [e1]
      refine ⟨hw0, ?_⟩
      have h3 := fl_rel (m * v)
      rw [abs_of_nonneg h0] at h3
      rw [hw]
      exact scale_alg hm h1 h3 ht'
    · rw [e1]
      refine big_alg hm h1 he0 hd hmt h2 ?_
      have h3 : (1 : K) ≤ 2 ^ (1001 : ℤ) := one_le_zpow₀ (by norm_num) (by norm_num)
      have h4 : (2 : K) * 2 ^ (1000 : ℤ) = 2 ^ (1001 : ℤ) := by
        rw [show (1001 : ℤ) = 1 + 1000 by norm_num, zp_add, zpow_one]
      rw [h4]
      refine (add_le_add le_rfl h3).trans ?_
      rw [← two_mul, show (2 : K) * 2 ^ (1001 : ℤ) = 2 ^ (1002 : ℤ) by
        rw [show (1002 : ℤ) = 1 + 1001 by norm_num, zp_add, zpow_one]]
      exact zp_mono (by norm_num)

/-- Clamping to the interval from 1 to 100. -/
theorem clamp_alg {v e d t : K} (he : 0 ≤ e) (hd : d ≤ 1 / 2 ^ 50) (ht : t ≤ 1 / 2 ^ 50) (h : |v - e| ≤ d * e + t) :
    |max 1 (min 100 v) - max 1 (min 100 e)| ≤ 1 / 2 ^ 40 := by
  rcases le_or_gt e 200 with h1 | h1
  · have h2 : |max 1 (min 100 v) - max 1 (min 100 e)| ≤ |v - e| := by
      have h3 := abs_max_sub_max_le_abs (min 100 v) (min 100 e) (1 : K)
      have h4 := abs_min_sub_min_le_max (100 : K) v 100 e
      rw [sub_self, abs_zero, max_eq_right (abs_nonneg _)] at h4
      rw [max_comm 1, max_comm 1]
      exact h3.trans h4
    have h5 := mul_le_mul_of_nonneg_right hd he
    have h6 : (1 / 2 ^ 50 : K) * e ≤ 1 / 2 ^ 50 * 200 := mul_le_mul_of_nonneg_left h1 (by positivity)
    have h7 : (1 / 2 ^ 50 : K) * 200 + 1 / 2 ^ 50 ≤ 1 / 2 ^ 40 := by norm_num
    linarith
  · have h2 : (100 : K) ≤ v := by
      have := (abs_le.1 h).1
      have h5 := mul_le_mul_of_nonneg_right hd he
      have h6 : (1 / 2 ^ 50 : K) * e ≤ 1 / 4 * e := mul_le_mul_of_nonneg_right (by norm_num) he
      have h7 : (1 / 2 ^ 50 : K) ≤ 1 := by norm_num
      linarith
    rw [min_eq_left h2, min_eq_left (by linarith), sub_self, abs_zero]
    positivity

end Rodeo.Dbl
