import Verif.Lemmas.DblVar
import Verif.Lemmas.Gauss
import Verif.Spec.DblAcq
import Verif.Model.DblAcq

set_option linter.unusedSectionVars false

/-! # Rounding errors of the acquisition function -/

namespace Rodeo.Dbl
open Spec

/-! ## The functions at perturbed arguments -/

theorem gPhi_lip (a b : ℝ) : |gPhi b - gPhi a| ≤ |b - a| / 2 := by
  rw [gPhi_diff]
  have := intervalIntegral.norm_integral_le_of_norm_le_const (f := gphi) (a := a) (b := b) (C := 1 / 2)
    (fun x _ => by rw [Real.norm_of_nonneg (gphi_nonneg x)]; exact gphi_le_one x)
  rw [Real.norm_eq_abs] at this
  linarith

theorem split_abs {d a b : ℝ} (ha : 0 ≤ a) (hb : 0 ≤ b) (h : |d| ≤ a + b) :
    ∃ d1 d2, d = d1 + d2 ∧ |d1| ≤ a ∧ |d2| ≤ b := by
  obtain ⟨h1, h2⟩ := abs_le.1 h
  by_cases c1 : a < d
  · exact ⟨a, d - a, by ring, by rw [abs_of_nonneg ha], by rw [abs_of_nonneg (by linarith)]; linarith⟩
  · by_cases c2 : d < -a
    · exact ⟨-a, d + a, by ring, by rw [abs_neg, abs_of_nonneg ha], by rw [abs_of_neg (by linarith)]; linarith⟩
    · exact ⟨d, 0, by ring, abs_le.2 ⟨by linarith, by linarith⟩, by rw [abs_zero]; exact hb⟩

theorem gPhi_scaled {z r δ : ℝ} (hδ : δ ≤ 1 / 2) (h : |r - 1| ≤ δ) : |gPhi (z * r) - gPhi z| ≤ 2 * δ := by
  obtain ⟨h1, h2⟩ := abs_le.1 h
  have hδ0 : 0 ≤ δ := (abs_nonneg _).trans h
  rcases le_total 1 r with hr | hr
  · refine (gPhi_close z hr).trans ?_
    have := abs_gphi_le z
    have h3 : |z| * gphi z * (r - 1) ≤ 1 * δ :=
      mul_le_mul this (by linarith) (by linarith) (by norm_num)
    linarith [show |z| * (r - 1) * gphi z = |z| * gphi z * (r - 1) by ring]
  · have hr0 : 0 < r := by linarith
    have e : z = z * r * (1 / r) := by field_simp
    have hr1 : 1 ≤ 1 / r := by rw [le_div_iff₀ hr0]; linarith
    have h4 := gPhi_close (z * r) hr1
    rw [← e, abs_sub_comm] at h4
    refine h4.trans ?_
    have := abs_gphi_le (z * r)
    have h5 : 1 / r - 1 ≤ 2 * δ := by
      rw [div_sub_one hr0.ne', div_le_iff₀ hr0]
      nlinarith
    have h3 : |z * r| * gphi (z * r) * (1 / r - 1) ≤ 1 * (2 * δ) :=
      mul_le_mul this h5 (by linarith) (by norm_num)
    linarith [show |z * r| * (1 / r - 1) * gphi (z * r) = |z * r| * gphi (z * r) * (1 / r - 1) by ring]

/-- The distribution function at a number close to `z`. -/
theorem gPhi_near {z w δ η : ℝ} (hδ0 : 0 ≤ δ) (hδ : δ ≤ 1 / 2) (hη : 0 ≤ η) (h : |w - z| ≤ δ * |z| + η) :
    |gPhi w - gPhi z| ≤ 2 * δ + η := by
  obtain ⟨d1, d2, e, h1, h2⟩ := split_abs (mul_nonneg hδ0 (abs_nonneg z)) hη h
  have hw : w = z + d1 + d2 := by linarith
  have h3 : |gPhi w - gPhi (z + d1)| ≤ η := by
    refine (gPhi_lip _ _).trans ?_
    rw [hw, add_sub_cancel_left]
    linarith
  have h4 : |gPhi (z + d1) - gPhi z| ≤ 2 * δ := by
    by_cases hz : z = 0
    · subst hz
      rw [abs_zero, mul_zero] at h1
      rw [abs_nonpos_iff.1 h1, add_zero, sub_self, abs_zero]
      linarith
    · have e2 : z + d1 = z * (1 + d1 / z) := by field_simp
      rw [e2]
      refine gPhi_scaled hδ ?_
      rw [add_sub_cancel_left, abs_div, div_le_iff₀ (abs_pos.2 hz)]
      exact h1
  have := abs_add_le (gPhi w - gPhi (z + d1)) (gPhi (z + d1) - gPhi z)
  rw [sub_add_sub_cancel] at this
  linarith

/-- The exponential function at a number close to `-b`. -/
theorem exp_near {a b δ η : ℝ} (hb : 0 ≤ b) (hδ0 : 0 ≤ δ) (hδ : δ ≤ 1 / 2) (hη : 0 ≤ η) (hη1 : η ≤ 1 / 2)
    (h : |a - b| ≤ δ * b + η) : |Real.exp (-a) - Real.exp (-b)| ≤ 2 * δ + 2 * η := by
  have hd : 0 ≤ δ * b + η := by positivity
  have half : Real.exp (1 / 2) ≤ 2 := by
    have h1 := Real.exp_one_lt_d9
    have h2 : Real.exp (1 / 2) * Real.exp (1 / 2) = Real.exp 1 := by rw [← Real.exp_add]; norm_num
    have h3 := Real.exp_pos (1 / 2)
    nlinarith
  have decay : b * Real.exp (-(b / 2)) ≤ 1 := by
    have h1 := Real.quadratic_le_exp_of_nonneg (x := b / 2) (by linarith)
    have h2 : b ≤ Real.exp (b / 2) := by nlinarith [sq_nonneg (b - 2)]
    rw [Real.exp_neg, ← div_eq_mul_inv, div_le_one (Real.exp_pos _)]
    exact h2
  -- the larger of the two values
  have big : ∀ x y : ℝ, x ≤ y → b / 2 - 1 / 2 ≤ x → y - x ≤ δ * b + η →
      Real.exp (-x) - Real.exp (-y) ≤ 2 * δ + 2 * η := by
    intro x y _ hx hxy
    have e1 : Real.exp (-x) - Real.exp (-y) = Real.exp (-x) * (1 - Real.exp (-(y - x))) := by
      rw [mul_sub, ← Real.exp_add, mul_one]; congr 2; ring
    have e2 : 1 - Real.exp (-(y - x)) ≤ δ * b + η := by
      have := Real.add_one_le_exp (-(y - x)); linarith
    have e3 : Real.exp (-x) ≤ 2 * Real.exp (-(b / 2)) := by
      calc Real.exp (-x) ≤ Real.exp (1 / 2 + -(b / 2)) := Real.exp_le_exp.2 (by linarith)
        _ = Real.exp (1 / 2) * Real.exp (-(b / 2)) := Real.exp_add _ _
        _ ≤ _ := mul_le_mul_of_nonneg_right half (Real.exp_pos _).le
    have e4 : Real.exp (-(b / 2)) ≤ 1 := Real.exp_le_one_iff.2 (by linarith)
    rw [e1]
    calc Real.exp (-x) * (1 - Real.exp (-(y - x))) ≤ Real.exp (-x) * (δ * b + η) :=
          mul_le_mul_of_nonneg_left e2 (Real.exp_pos _).le
      _ ≤ 2 * Real.exp (-(b / 2)) * (δ * b + η) := mul_le_mul_of_nonneg_right e3 hd
      _ = 2 * δ * (b * Real.exp (-(b / 2))) + 2 * η * Real.exp (-(b / 2)) := by ring
      _ ≤ 2 * δ * 1 + 2 * η * 1 := by gcongr
      _ = _ := by ring
  obtain ⟨h1, h2⟩ := abs_le.1 h
  have hδb : δ * b ≤ 1 / 2 * b := mul_le_mul_of_nonneg_right hδ hb
  rcases le_total a b with hab | hab
  · rw [abs_of_nonneg (sub_nonneg.2 (Real.exp_le_exp.2 (by linarith)))]
    exact big a b hab (by linarith) (by linarith)
  · rw [abs_of_nonpos (sub_nonpos.2 (Real.exp_le_exp.2 (by linarith)))]
    have := big b a hab (by linarith) (by linarith)
    linarith

/-- A quotient of perturbed numbers. -/
theorem quot_close {A B a b α β : ℝ} (hB : 0 < B) (hβ : β ≤ 1 / 2) (ha : |a - A| ≤ α * |A|) (hb : |b - B| ≤ β * B) :
    0 < b ∧ |a / b - A / B| ≤ (α + β) * (1 + 2 * β) * |A / B| := by
  obtain ⟨h1, h2⟩ := abs_le.1 hb
  have hβ0 : 0 ≤ β := by
    by_contra hc
    have := mul_neg_of_neg_of_pos (not_le.1 hc) hB
    linarith [abs_nonneg (b - B)]
  have hb0 : 0 < b := by nlinarith
  refine ⟨hb0, ?_⟩
  have e : a / b - A / B = ((a - A) * B - A * (b - B)) / (b * B) := by field_simp; ring
  have hα : 0 ≤ α * |A| := (abs_nonneg _).trans ha
  have hn : |(a - A) * B - A * (b - B)| ≤ (α + β) * |A| * B := by
    refine (abs_sub _ _).trans ?_
    rw [abs_mul, abs_mul, abs_of_pos hB]
    have i1 : |a - A| * B ≤ α * |A| * B := mul_le_mul_of_nonneg_right ha hB.le
    have i2 : |A| * |b - B| ≤ |A| * (β * B) := mul_le_mul_of_nonneg_left hb (abs_nonneg _)
    linarith
  rw [e, abs_div, abs_of_pos (mul_pos hb0 hB), div_le_iff₀ (mul_pos hb0 hB), abs_div, abs_of_pos hB]
  refine hn.trans ?_
  have hαβ : 0 ≤ (α + β) * |A| := by
    rw [add_mul]; exact add_nonneg hα (mul_nonneg hβ0 (abs_nonneg _))
  have hk : B ≤ (1 + 2 * β) * b := by nlinarith
  have e2 : (α + β) * (1 + 2 * β) * (|A| / B) * (b * B) = (α + β) * |A| * ((1 + 2 * β) * b) := by
    field_simp
  rw [e2]
  exact mul_le_mul_of_nonneg_left hk hαβ

/-! ## The constants -/

theorem eps_small : (0 : ℝ) < eps ∧ (eps : ℝ) ≤ 1 / 10 ^ 15 ∧ (1 : ℝ) / 10 ^ 19 ≤ eps / 1000 := by
  unfold eps; norm_num

theorem eta_small : (0 : ℝ) < eta ∧ (eta : ℝ) * 2 ^ (400 : ℤ) ≤ eps / 1000 := by
  refine ⟨eta_pos, ?_⟩
  unfold eta
  rw [← zp_add]
  have : (2 : ℝ) ^ (-1075 + 400 : ℤ) ≤ 2 ^ (-100 : ℤ) := zp_mono (by norm_num)
  refine this.trans ?_
  unfold eps; norm_num

theorem eta_le : (eta : ℝ) ≤ eps / 1000 := by
  obtain ⟨h0, h⟩ := eta_small
  have : (1 : ℝ) ≤ 2 ^ (400 : ℤ) := one_le_zpow₀ (by norm_num) (by norm_num)
  calc (eta : ℝ) = eta * 1 := (mul_one _).symm
    _ ≤ eta * 2 ^ (400 : ℤ) := mul_le_mul_of_nonneg_left this h0.le
    _ ≤ _ := h

theorem two_eta : (2 : ℝ) ^ (-1074 : ℤ) = 2 * eta := by
  unfold eta
  rw [show (-1074 : ℤ) = 1 + -1075 by norm_num, zp_add, zpow_one]

theorem sqrt2_lit : |lit (cSqrt2 : ℝ) - Real.sqrt 2| ≤ 101 / 100 * eps * Real.sqrt 2 := by
  obtain ⟨h1, h2⟩ := sqrt2_bounds
  obtain ⟨e0, e1, e2⟩ := eps_small
  have hc : (1 : ℝ) ≤ cSqrt2 := by unfold cSqrt2; norm_num
  have hl : |lit (cSqrt2 : ℝ) - cSqrt2| ≤ eps * cSqrt2 := by
    have := lit_rel (x := (cSqrt2 : ℝ)) (by
      rw [abs_of_pos (by linarith)]
      refine le_trans ?_ hc
      exact zpow_le_one_of_nonpos₀ (by norm_num) (by norm_num))
    rwa [abs_of_pos (by linarith : (0 : ℝ) < cSqrt2)] at this
  have h3 : |(cSqrt2 : ℝ) - Real.sqrt 2| ≤ eps / 1000 * Real.sqrt 2 := by
    rw [abs_sub_comm, abs_of_nonneg (by linarith)]
    have : (cSqrt2 : ℝ) * (1 / 10 ^ 19) ≤ Real.sqrt 2 * (eps / 1000) :=
      mul_le_mul h1 e2 (by norm_num) (Real.sqrt_nonneg _)
    linarith
  have := abs_add_le (lit (cSqrt2 : ℝ) - cSqrt2) (cSqrt2 - Real.sqrt 2)
  rw [sub_add_sub_cancel] at this
  have h4 : eps * (cSqrt2 : ℝ) ≤ eps * Real.sqrt 2 := mul_le_mul_of_nonneg_left h1 e0.le
  have h5 : 0 ≤ eps * Real.sqrt 2 := by positivity
  linarith

theorem sqrt2_range : (1 : ℝ) ≤ Real.sqrt 2 ∧ Real.sqrt 2 ≤ 3 / 2 := by
  constructor
  · exact Real.le_sqrt_of_sq_le (by norm_num)
  · exact Real.sqrt_le_iff.2 ⟨by norm_num, by norm_num⟩

theorem invSqrt2Pi_lit : |lit (cInvSqrt2Pi : ℝ) - (Real.sqrt (2 * Real.pi))⁻¹| ≤ 2 * eps := by
  obtain ⟨h1, h2⟩ := invSqrt2Pi_bounds
  obtain ⟨e0, e1, e2⟩ := eps_small
  have hc : (1 : ℝ) / 4 ≤ cInvSqrt2Pi ∧ (cInvSqrt2Pi : ℝ) ≤ 2 / 5 := by unfold cInvSqrt2Pi; norm_num
  have hl : |lit (cInvSqrt2Pi : ℝ) - cInvSqrt2Pi| ≤ eps * cInvSqrt2Pi := by
    have := lit_rel (x := (cInvSqrt2Pi : ℝ)) (by
      rw [abs_of_pos (by linarith)]
      refine le_trans ?_ hc.1
      have : (2 : ℝ) ^ (-1000 : ℤ) ≤ 2 ^ (-2 : ℤ) := zp_mono (by norm_num)
      refine this.trans ?_
      norm_num)
    rwa [abs_of_pos (by linarith : (0 : ℝ) < cInvSqrt2Pi)] at this
  have h3 : |(cInvSqrt2Pi : ℝ) - (Real.sqrt (2 * Real.pi))⁻¹| ≤ eps := by
    rw [abs_of_nonneg (by linarith)]
    have : (1 : ℝ) / 10 ^ 16 ≤ eps := by unfold eps; norm_num
    linarith
  have := abs_add_le (lit (cInvSqrt2Pi : ℝ) - cInvSqrt2Pi) (cInvSqrt2Pi - (Real.sqrt (2 * Real.pi))⁻¹)
  rw [sub_add_sub_cancel] at this
  nlinarith

/-! ## The distribution function -/

theorem realErf_gPhi (x : ℝ) : 1 / 2 * (1 + realErf x) = gPhi (Real.sqrt 2 * x) := by
  rw [gPhi_erf]
  have : Real.sqrt 2 ≠ 0 := by positivity
  rw [show Real.sqrt 2 * x / Real.sqrt 2 = x by field_simp]

/-- The error of the argument of `erf`. -/
theorem arg_close {A B d q i : ℝ} (hB : 0 < B) (hd : |d - A| ≤ eps * |A|) (hq : |q - B| ≤ 3 * eps * B)
    (hi : |i - d / q| ≤ eps * |d / q| + eta) : |i - A / B| ≤ 7 * eps * |A / B| + eta := by
  obtain ⟨e0, e1, -⟩ := eps_small
  obtain ⟨-, h1⟩ := quot_close hB (by linarith) hd hq
  have hz := abs_nonneg (A / B)
  set z := |A / B| with hzd
  have h2 : (eps + 3 * eps) * (1 + 2 * (3 * eps)) * z ≤ 5 * eps * z := by
    refine mul_le_mul_of_nonneg_right ?_ hz
    nlinarith
  have h3 : |d / q| ≤ 2 * z := by
    have := abs_sub_abs_le_abs_sub (d / q) (A / B)
    have : 5 * eps * z ≤ 1 * z := mul_le_mul_of_nonneg_right (by linarith) hz
    linarith
  have h4 : eps * |d / q| ≤ eps * (2 * z) := mul_le_mul_of_nonneg_left h3 e0.le
  have := abs_add_le (i - d / q) (d / q - A / B)
  rw [sub_add_sub_cancel] at this
  linarith

theorem isDouble_two : IsDouble (2 : ℝ) := ⟨2, 0, by norm_num, by norm_num, by simp⟩

/-- From the computed argument to the computed value. -/
theorem cdf_tail {erf : ℝ → ℝ} (hE : AccurateErf erf) {i z : ℝ} (hi : IsDouble i)
    (h : |Real.sqrt 2 * i - z| ≤ 7 * eps * |z| + 2 * eta) :
    ∃ t c, add 1 (erf i) = .ok t ∧ mul (1 / 2) t = .ok c ∧ IsDouble c ∧ 0 ≤ c ∧ c ≤ 1 ∧
      |c - gPhi z| ≤ 18 * eps := by
  obtain ⟨e0, e1, -⟩ := eps_small
  have h0 := eta_le
  have h00 := eta_pos (K := ℝ)
  obtain ⟨d1, d2, d3⟩ := hE i hi
  obtain ⟨b1, b2⟩ := abs_le.1 d2
  have ht : |1 + erf i| ≤ 2 := abs_le.2 ⟨by linarith, by linarith⟩
  have t1 : add 1 (erf i) = .ok (fl (1 + erf i)) :=
    dbl_of_le (n := 1) (by norm_num) (by norm_num) (by rw [zpow_one]; exact ht)
  have t2 := fl_add_err isDouble_one d1
  have t3 : 0 ≤ fl (1 + erf i) := fl_nonneg (by linarith)
  have t4 : fl (1 + erf i) ≤ 2 := fl_le_double isDouble_two (by linarith)
  have c0 : |1 / 2 * fl (1 + erf i)| ≤ 1 := by rw [abs_of_nonneg (by linarith)]; linarith
  have c1 : mul (1 / 2) (fl (1 + erf i)) = .ok (fl (1 / 2 * fl (1 + erf i))) :=
    dbl_of_le (n := 0) (by norm_num) (by norm_num) (by rw [zpow_zero]; exact c0)
  refine ⟨_, _, t1, c1, fl_isDouble _, fl_nonneg (by linarith), fl_le_double isDouble_one (by linarith), ?_⟩
  have c2 := fl_rel (1 / 2 * fl (1 + erf i))
  have c3 : eps * |1 / 2 * fl (1 + erf i)| ≤ eps * 1 := mul_le_mul_of_nonneg_left c0 e0.le
  have t5 : |fl (1 + erf i) - (1 + erf i)| ≤ 2 * eps := by
    refine t2.trans ?_
    have : |1 + erf i| / 2 ^ 53 ≤ 2 / 2 ^ 53 := by gcongr
    refine this.trans (le_of_eq ?_)
    unfold eps; ring
  have r1 : |erf i - realErf i| ≤ 2 * eps + 2 * eta := by
    refine d3.trans (add_le_add ?_ two_eta.le)
    have : |realErf i| ≤ 1 := abs_le.2 (realErf_range i)
    have : |realErf i| / 2 ^ 52 ≤ 1 / 2 ^ 52 := by gcongr
    refine this.trans (le_of_eq ?_)
    unfold eps; norm_num
  have p := gPhi_near (by positivity) (by linarith) (by positivity) h
  rw [← realErf_gPhi] at p
  rw [abs_le] at c2 t5 r1 p ⊢
  obtain ⟨c2a, c2b⟩ := c2
  obtain ⟨t5a, t5b⟩ := t5
  obtain ⟨r1a, r1b⟩ := r1
  obtain ⟨pa, pb⟩ := p
  constructor <;> linarith

theorem half_zp (n : ℤ) : (2 : ℝ) ^ n + 2 ^ n = 2 ^ (n + 1) := by
  rw [zp_add, zpow_one]; ring

/-- The distribution function with its error. -/
theorem cdf_ok {erf : ℝ → ℝ} (hE : AccurateErf erf) {x0 mu s : ℝ} (hx : IsDouble x0) (hm : IsDouble mu)
    (hx1 : |x0| ≤ 2 ^ (400 : ℤ)) (hm1 : |mu| ≤ 2 ^ (400 : ℤ)) (hs0 : 2 ^ (-400 : ℤ) ≤ s) (hs1 : s ≤ 2 ^ (400 : ℤ)) :
    ∃ c, cdf erf x0 mu s = .ok c ∧ IsDouble c ∧ 0 ≤ c ∧ c ≤ 1 ∧ |c - gPhi ((x0 - mu) / s)| ≤ 18 * eps := by
  obtain ⟨e0, e1, -⟩ := eps_small
  obtain ⟨g1, g2⟩ := sqrt2_range
  have hs : 0 < s := (zp _).trans_le hs0
  have hA : |x0 - mu| ≤ 2 ^ (401 : ℤ) := by
    refine (abs_sub _ _).trans ?_
    rw [show (401 : ℤ) = 400 + 1 by norm_num, ← half_zp]
    exact add_le_add hx1 hm1
  have d1 : sub x0 mu = .ok (fl (x0 - mu)) := dbl_of_le (by norm_num) (by norm_num) hA
  have d2 : |fl (x0 - mu) - (x0 - mu)| ≤ eps * |x0 - mu| := by
    rw [← div53]; exact fl_sub_err hx hm
  have d3 := fl_abs_le (by norm_num) hA
  -- the denominator
  have l1 := sqrt2_lit
  have l2 : 101 / 100 * eps * Real.sqrt 2 ≤ eps * 2 := by nlinarith
  have l3 : 1 - 2 * eps ≤ lit (cSqrt2 : ℝ) ∧ lit (cSqrt2 : ℝ) ≤ 2 := by
    obtain ⟨a1, a2⟩ := abs_le.1 l1
    constructor <;> linarith
  have l4 : (1 : ℝ) / 2 ≤ lit cSqrt2 := by linarith
  have m0 : 0 ≤ s * lit cSqrt2 := by positivity
  have m1 : |s * lit cSqrt2| ≤ 2 ^ (401 : ℤ) := by
    rw [abs_of_nonneg m0, show (401 : ℤ) = 400 + 1 by norm_num, zp_add, zpow_one]
    exact mul_le_mul hs1 l3.2 (by linarith) (zp _).le
  have m2 : mul s (lit cSqrt2) = .ok (fl (s * lit cSqrt2)) := dbl_of_le (by norm_num) (by norm_num) m1
  have m3 : 2 ^ (-401 : ℤ) ≤ s * lit cSqrt2 := by
    rw [show (-401 : ℤ) = -400 + -1 by norm_num, zp_add]
    refine mul_le_mul hs0 ?_ (zp _).le hs.le
    rw [zpow_neg_one]; linarith
  have m4 : |fl (s * lit cSqrt2) - s * lit cSqrt2| ≤ eps * (s * lit cSqrt2) := by
    have := lit_rel (x := s * lit cSqrt2) (by
      rw [abs_of_nonneg m0]
      exact (zp_mono (by norm_num)).trans m3)
    rwa [abs_of_nonneg m0] at this
  have hB : 0 < s * Real.sqrt 2 := by positivity
  have m5 : |fl (s * lit cSqrt2) - s * Real.sqrt 2| ≤ 3 * eps * (s * Real.sqrt 2) := by
    have a1 : |s * lit cSqrt2 - s * Real.sqrt 2| ≤ 101 / 100 * eps * (s * Real.sqrt 2) := by
      rw [← mul_sub, abs_mul, abs_of_pos hs]
      calc s * |lit cSqrt2 - Real.sqrt 2| ≤ s * (101 / 100 * eps * Real.sqrt 2) :=
            mul_le_mul_of_nonneg_left l1 hs.le
        _ = _ := by ring
    have a2 : s * lit cSqrt2 ≤ 3 / 2 * (s * Real.sqrt 2) := by
      have := (abs_le.1 a1).2
      have : 101 / 100 * eps * (s * Real.sqrt 2) ≤ 1 / 2 * (s * Real.sqrt 2) :=
        mul_le_mul_of_nonneg_right (by linarith) hB.le
      linarith
    have a3 : eps * (s * lit cSqrt2) ≤ eps * (3 / 2 * (s * Real.sqrt 2)) := mul_le_mul_of_nonneg_left a2 e0.le
    have := abs_add_le (fl (s * lit cSqrt2) - s * lit cSqrt2) (s * lit cSqrt2 - s * Real.sqrt 2)
    rw [sub_add_sub_cancel] at this
    have : 0 ≤ eps * (s * Real.sqrt 2) := by positivity
    linarith
  -- the quotient
  have hq : 2 ^ (-401 : ℤ) ≤ fl (s * lit cSqrt2) := double_le_fl ⟨1, -401, by norm_num, by norm_num, by simp⟩ m3
  have hq0 : 0 < fl (s * lit cSqrt2) := (zp _).trans_le hq
  have q1 : |fl (x0 - mu) / fl (s * lit cSqrt2)| ≤ 2 ^ (802 : ℤ) := by
    rw [abs_div, abs_of_pos hq0, div_le_iff₀ hq0]
    refine d3.trans ?_
    calc (2 : ℝ) ^ (401 : ℤ) = 2 ^ (802 : ℤ) * 2 ^ (-401 : ℤ) := by rw [← zp_add]; norm_num
      _ ≤ _ := mul_le_mul_of_nonneg_left hq (zp _).le
  have q2 : div (fl (x0 - mu)) (fl (s * lit cSqrt2)) = .ok (fl (fl (x0 - mu) / fl (s * lit cSqrt2))) := by
    unfold div
    rw [if_neg hq0.ne']
    exact dbl_of_le (by norm_num) (by norm_num) q1
  have q3 := arg_close hB d2 m5 (fl_rel _)
  have q4 : |Real.sqrt 2 * fl (fl (x0 - mu) / fl (s * lit cSqrt2)) - (x0 - mu) / s| ≤
      7 * eps * |(x0 - mu) / s| + 2 * eta := by
    have e : (x0 - mu) / s = Real.sqrt 2 * ((x0 - mu) / (s * Real.sqrt 2)) := by
      have : Real.sqrt 2 ≠ 0 := by positivity
      field_simp
    have h0 := eta_pos (K := ℝ)
    rw [e, ← mul_sub, abs_mul, abs_mul, abs_of_pos (by linarith : 0 < Real.sqrt 2)]
    calc Real.sqrt 2 * |fl (fl (x0 - mu) / fl (s * lit cSqrt2)) - (x0 - mu) / (s * Real.sqrt 2)|
        ≤ Real.sqrt 2 * (7 * eps * |(x0 - mu) / (s * Real.sqrt 2)| + eta) :=
          mul_le_mul_of_nonneg_left q3 (by linarith)
      _ = 7 * eps * (Real.sqrt 2 * |(x0 - mu) / (s * Real.sqrt 2)|) + Real.sqrt 2 * eta := by ring
      _ ≤ _ := by nlinarith
  obtain ⟨t, c, t1, t2, t3, t4, t5, t6⟩ := cdf_tail hE (fl_isDouble _) q4
  exact ⟨c, bind_eq d1 (bind_eq m2 (bind_eq q2 (bind_eq t1 t2))), t3, t4, t5, t6⟩

/-! ## The density -/

theorem kappa_range : 0 < (Real.sqrt (2 * Real.pi))⁻¹ ∧ (Real.sqrt (2 * Real.pi))⁻¹ ≤ 2 / 5 := by
  have := invSqrt2Pi_bounds.1
  have hc : (cInvSqrt2Pi : ℝ) ≤ 2 / 5 := by unfold cInvSqrt2Pi; norm_num
  exact ⟨by positivity, by linarith⟩

theorem gphi_exp (z : ℝ) : gphi z = (Real.sqrt (2 * Real.pi))⁻¹ * Real.exp (-(z ^ 2 / 2)) := by
  unfold gphi; rw [neg_div]

/-- The argument of `exp`. -/
theorem square_close {Z h e τ : ℝ} (hτ : eta * |Z| ≤ τ) (hτ1 : τ ≤ eps / 1000) (hh : |h - -(1 / 2) * Z| ≤ eps * |-(1 / 2) * Z| + eta)
    (he : |e - h * Z| ≤ eps * |h * Z| + eta) : |-e - Z ^ 2 / 2| ≤ 3 * eps * (Z ^ 2 / 2) + eps := by
  obtain ⟨e0, e1, -⟩ := eps_small
  have h0 := eta_le
  have hb : 0 ≤ Z ^ 2 / 2 := by positivity
  have s1 : |h * Z - -(Z ^ 2 / 2)| ≤ eps * (Z ^ 2 / 2) + τ := by
    have e2 : h * Z - -(Z ^ 2 / 2) = (h - -(1 / 2) * Z) * Z := by ring
    rw [e2, abs_mul]
    refine (mul_le_mul_of_nonneg_right hh (abs_nonneg _)).trans ?_
    have e3 : |-(1 / 2) * Z| * |Z| = Z ^ 2 / 2 := by
      rw [← abs_mul, show -(1 / 2) * Z * Z = -(Z ^ 2 / 2) by ring, abs_neg, abs_of_nonneg hb]
    have e4 : (eps * |-(1 / 2) * Z| + eta) * |Z| = eps * (|-(1 / 2) * Z| * |Z|) + eta * |Z| := by ring
    rw [e4, e3]
    linarith
  have s4 : eps * |h * Z| ≤ eps * (Z ^ 2 / 2 + (eps * (Z ^ 2 / 2) + τ)) := by
    refine mul_le_mul_of_nonneg_left ?_ e0.le
    have := abs_sub_abs_le_abs_sub (h * Z) (-(Z ^ 2 / 2))
    rw [abs_neg, abs_of_nonneg hb] at this
    linarith
  have s5 : eps * (eps * (Z ^ 2 / 2)) ≤ 1 * (eps * (Z ^ 2 / 2)) :=
    mul_le_mul_of_nonneg_right (by linarith) (by positivity)
  have hτ0 : 0 ≤ τ := (mul_nonneg (eta_pos (K := ℝ)).le (abs_nonneg Z)).trans hτ
  have s6 : eps * τ ≤ 1 * τ := mul_le_mul_of_nonneg_right (by linarith) hτ0
  have t := abs_add_le (e - h * Z) (h * Z - -(Z ^ 2 / 2))
  rw [sub_add_sub_cancel] at t
  rw [show -e - Z ^ 2 / 2 = -(e - -(Z ^ 2 / 2)) by ring, abs_neg]
  linarith

/-- The density with its error. -/
theorem pdf_ok {L : Libm ℝ} (hL : Accurate L) {Z : ℝ} (hZ : IsDouble Z) (hZ1 : |Z| ≤ 2 ^ (400 : ℤ)) :
    ∃ p, pdf L Z 0 1 = .ok p ∧ IsDouble p ∧ 0 ≤ p ∧ p ≤ 1 ∧ |p - gphi Z| ≤ 9 * eps := by
  obtain ⟨e0, e1, -⟩ := eps_small
  have h0 := eta_le
  have h00 := eta_pos (K := ℝ)
  obtain ⟨k0, k1⟩ := kappa_range
  have d1 : sub Z 0 = .ok Z := by
    unfold sub
    rw [sub_zero, dbl_of_le (by norm_num) (by norm_num) hZ1, fl_of_double hZ]
  have d2 : div Z 1 = .ok Z := by
    unfold div
    rw [if_neg one_ne_zero, div_one, dbl_of_le (by norm_num) (by norm_num) hZ1, fl_of_double hZ]
  have l1 := invSqrt2Pi_lit
  obtain ⟨l1a, l1b⟩ := abs_le.1 l1
  have l2 : 0 ≤ lit (cInvSqrt2Pi : ℝ) := fl_nonneg (by unfold cInvSqrt2Pi; norm_num)
  have l3 : |lit (cInvSqrt2Pi : ℝ)| ≤ 1 := by rw [abs_of_nonneg l2]; linarith
  have c1 : div (lit cInvSqrt2Pi) 1 = .ok (lit (cInvSqrt2Pi : ℝ)) := by
    unfold div
    rw [if_neg one_ne_zero, div_one, dbl_of_le (n := 0) (by norm_num) (by norm_num) (by rw [zpow_zero]; exact l3)]
    unfold lit
    rw [fl_of_double (fl_isDouble _)]
  have a0 : |-(1 / 2) * Z| ≤ 2 ^ (400 : ℤ) := by
    rw [abs_mul, abs_neg, abs_of_pos (by norm_num : (0 : ℝ) < 1 / 2)]
    refine le_trans ?_ hZ1
    linarith [abs_nonneg Z]
  have a1 : mul (-(1 / 2)) Z = .ok (fl (-(1 / 2) * Z)) := dbl_of_le (by norm_num) (by norm_num) a0
  have a2 := fl_abs_le (by norm_num) a0
  set h := fl (-(1 / 2) * Z) with hh
  have b0 : |h * Z| ≤ 2 ^ (800 : ℤ) := by
    rw [abs_mul, show (800 : ℤ) = 400 + 400 by norm_num, zp_add]
    exact mul_le_mul a2 hZ1 (abs_nonneg _) (zp _).le
  have b1 : mul h Z = .ok (fl (h * Z)) := dbl_of_le (by norm_num) (by norm_num) b0
  have b2 : h * Z ≤ 0 := by
    rcases le_total 0 Z with hz | hz
    · have : h ≤ 0 := fl_le_double isDouble_zero (by linarith)
      exact mul_nonpos_of_nonpos_of_nonneg this hz
    · have : 0 ≤ h := fl_nonneg (by linarith)
      exact mul_nonpos_of_nonneg_of_nonpos this hz
  have b3 : fl (h * Z) ≤ 0 := fl_le_double isDouble_zero b2
  set e := fl (h * Z) with he
  have sq := square_close (Z := Z) (h := h) (e := e) (τ := eta * 2 ^ (400 : ℤ))
    (mul_le_mul_of_nonneg_left hZ1 h00.le) eta_small.2 (fl_rel _) (fl_rel _)
  have hb : 0 ≤ Z ^ 2 / 2 := by positivity
  have x1 := exp_near hb (by linarith) (by linarith) e0.le (by linarith) sq
  rw [neg_neg] at x1
  obtain ⟨y1, y2, y3⟩ := hL.exp (-e) (isDouble_neg (fl_isDouble _)) (by linarith)
  rw [neg_neg] at y1 y2 y3
  have y4 : |L.exp e - Real.exp e| ≤ 2 * eps + 2 * eta := by
    refine y3.trans (add_le_add ?_ two_eta.le)
    have : Real.exp e ≤ 1 := Real.exp_le_one_iff.2 b3
    have : Real.exp e / 2 ^ 52 ≤ 1 / 2 ^ 52 := by gcongr
    refine this.trans (le_of_eq ?_)
    unfold eps; norm_num
  have y5 : |L.exp e - Real.exp (-(Z ^ 2 / 2))| ≤ 11 * eps := by
    have := abs_add_le (L.exp e - Real.exp e) (Real.exp e - Real.exp (-(Z ^ 2 / 2)))
    rw [sub_add_sub_cancel] at this
    linarith
  have y6 : Real.exp (-(Z ^ 2 / 2)) ≤ 1 := Real.exp_le_one_iff.2 (by linarith)
  have y7 : L.exp e ≤ 2 := by have := (abs_le.1 y5).2; linarith
  have y8 : L.exp e ≤ 1 + 11 * eps := by have := (abs_le.1 y5).2; linarith
  set E := L.exp e with hE
  have z0 : 0 ≤ lit (cInvSqrt2Pi : ℝ) * E := mul_nonneg l2 y2
  have z1 : lit (cInvSqrt2Pi : ℝ) * E ≤ 1 := by
    have : lit (cInvSqrt2Pi : ℝ) * E ≤ 1 / 2 * 2 := mul_le_mul (by linarith) y7 y2 (by norm_num)
    linarith
  have z2 : mul (lit cInvSqrt2Pi) E = .ok (fl (lit cInvSqrt2Pi * E)) :=
    dbl_of_le (n := 0) (by norm_num) (by norm_num) (by rw [zpow_zero, abs_of_nonneg z0]; exact z1)
  refine ⟨_, bind_eq d1 (bind_eq d2 (bind_eq c1 (bind_eq a1 (bind_eq b1 z2)))), fl_isDouble _, fl_nonneg z0,
    fl_le_double isDouble_one z1, ?_⟩
  have r1 := fl_rel (lit (cInvSqrt2Pi : ℝ) * E)
  rw [abs_of_nonneg z0] at r1
  have r2 : eps * (lit (cInvSqrt2Pi : ℝ) * E) ≤ eps * 1 := mul_le_mul_of_nonneg_left z1 e0.le
  have r3 : |lit (cInvSqrt2Pi : ℝ) * E - gphi Z| ≤ 7 * eps := by
    rw [gphi_exp, show lit (cInvSqrt2Pi : ℝ) * E - (Real.sqrt (2 * Real.pi))⁻¹ * Real.exp (-(Z ^ 2 / 2)) =
      (lit (cInvSqrt2Pi : ℝ) - (Real.sqrt (2 * Real.pi))⁻¹) * E +
      (Real.sqrt (2 * Real.pi))⁻¹ * (E - Real.exp (-(Z ^ 2 / 2))) by ring]
    refine (abs_add_le _ _).trans ?_
    rw [abs_mul, abs_mul, abs_of_nonneg y2, abs_of_pos k0]
    have i1 : |lit (cInvSqrt2Pi : ℝ) - (Real.sqrt (2 * Real.pi))⁻¹| * E ≤ 2 * eps * (1 + 11 * eps) :=
      mul_le_mul l1 y8 y2 (by linarith)
    have i2 : (Real.sqrt (2 * Real.pi))⁻¹ * |E - Real.exp (-(Z ^ 2 / 2))| ≤ 2 / 5 * (11 * eps) :=
      mul_le_mul k1 y5 (abs_nonneg _) (by norm_num)
    have i3 : (eps : ℝ) * (11 * eps) ≤ eps * (1 / 100) := mul_le_mul_of_nonneg_left (by linarith) e0.le
    linarith
  have := abs_add_le (fl (lit (cInvSqrt2Pi : ℝ) * E) - lit cInvSqrt2Pi * E) (lit cInvSqrt2Pi * E - gphi Z)
  rw [sub_add_sub_cancel] at this
  linarith

/-! ## The value -/

/-- The density at a number close to `z`. -/
theorem gphi_near {Z z : ℝ} (hz : |z| ≤ 2 ^ (400 : ℤ)) (h : |Z - z| ≤ 3 * eps * |z| + eta) : |gphi Z - gphi z| ≤ 8 * eps := by
  obtain ⟨e0, e1, -⟩ := eps_small
  obtain ⟨k0, k1⟩ := kappa_range
  have h0 := eta_le
  have h00 := eta_pos (K := ℝ)
  have hz0 := abs_nonneg z
  have ht : eta * |z| ≤ eps / 1000 := (mul_le_mul_of_nonneg_left hz h00.le).trans eta_small.2
  have hb : 0 ≤ z ^ 2 / 2 := by positivity
  have s : |Z ^ 2 / 2 - z ^ 2 / 2| ≤ 7 * eps * (z ^ 2 / 2) + eps := by
    have i1 : |Z + z| ≤ 2 * |z| + (3 * eps * |z| + eta) := by
      have := abs_add_le (Z - z) (2 * z)
      rw [show Z - z + 2 * z = Z + z by ring, abs_mul, abs_of_pos (by norm_num : (0 : ℝ) < 2)] at this
      linarith
    have i2 : |Z ^ 2 / 2 - z ^ 2 / 2| = |Z - z| * |Z + z| / 2 := by
      rw [← abs_mul, show Z ^ 2 / 2 - z ^ 2 / 2 = ((Z - z) * (Z + z)) / 2 by ring, abs_div,
        abs_of_pos (by norm_num : (0 : ℝ) < 2)]
    rw [i2]
    have i3 : |Z - z| * |Z + z| ≤ (3 * eps * |z| + eta) * (2 * |z| + (3 * eps * |z| + eta)) :=
      mul_le_mul h i1 (abs_nonneg _) (by positivity)
    have sqz : |z| * |z| = z ^ 2 := by rw [← sq, sq_abs]
    have i4 : (3 * eps * |z| + eta) * (2 * |z| + (3 * eps * |z| + eta)) =
        6 * eps * (|z| * |z|) + 9 * eps * (eps * (|z| * |z|)) + 2 * (eta * |z|) + 6 * eps * (eta * |z|) + eta * eta := by
      ring
    rw [i4, sqz] at i3
    have i5 : eps * (eps * z ^ 2) ≤ 1 / 100 * (eps * z ^ 2) := mul_le_mul_of_nonneg_right (by linarith) (by positivity)
    have i6 : eps * (eta * |z|) ≤ 1 * (eta * |z|) := mul_le_mul_of_nonneg_right (by linarith) (by positivity)
    have i7 : eta * eta ≤ 1 * (eta : ℝ) := mul_le_mul_of_nonneg_right (by linarith) h00.le
    nlinarith
  have x := exp_near hb (by linarith) (by linarith) e0.le (by linarith) s
  rw [gphi_exp, gphi_exp, ← mul_sub, abs_mul, abs_of_pos k0]
  have : (Real.sqrt (2 * Real.pi))⁻¹ * |Real.exp (-(Z ^ 2 / 2)) - Real.exp (-(z ^ 2 / 2))| ≤ 2 / 5 * (2 * (7 * eps) + 2 * eps) :=
    mul_le_mul k1 x (abs_nonneg _) (by norm_num)
  linarith

/-- The last operations. -/
theorem value_close {D s imp c p P φ a b v : ℝ} (hs : 0 < s) (hη : eta ≤ eps / 1000 * s) (hc0 : 0 ≤ c) (hc : c ≤ 1) (hp0 : 0 ≤ p) (hp : p ≤ 1)
    (h1 : |imp - D| ≤ eps * |D|) (h2 : |c - P| ≤ 25 * eps) (h3 : |p - φ| ≤ 18 * eps)
    (h4 : |a - imp * c| ≤ eps * |imp * c| + eta) (h5 : |b - s * p| ≤ eps * |s * p| + eta) (h6 : |v - (a + b)| ≤ eps * |a + b|) :
    |v - (D * P + s * φ)| ≤ 32 * eps * (|D| + s) := by
  obtain ⟨e0, e1, -⟩ := eps_small
  have hD := abs_nonneg D
  have i1 : |imp| ≤ 2 * |D| := by
    have := abs_sub_abs_le_abs_sub imp D
    have : eps * |D| ≤ 1 * |D| := mul_le_mul_of_nonneg_right (by linarith) hD
    linarith
  have i1' : |imp| ≤ 101 / 100 * |D| := by
    have := abs_sub_abs_le_abs_sub imp D
    have : eps * |D| ≤ 1 / 100 * |D| := mul_le_mul_of_nonneg_right (by linarith) hD
    linarith
  have i2 : |imp * c| ≤ 101 / 100 * |D| := by
    rw [abs_mul, abs_of_nonneg hc0]
    have : |imp| * c ≤ |imp| * 1 := mul_le_mul_of_nonneg_left hc (abs_nonneg _)
    linarith
  have i3 : |s * p| ≤ s := by
    rw [abs_of_nonneg (by positivity)]
    have : s * p ≤ s * 1 := mul_le_mul_of_nonneg_left hp hs.le
    linarith
  have j1 : |imp * c - D * P| ≤ 27 * eps * |D| := by
    rw [show imp * c - D * P = (imp - D) * c + D * (c - P) by ring]
    refine (abs_add_le _ _).trans ?_
    rw [abs_mul, abs_mul, abs_of_nonneg hc0]
    have k1 : |imp - D| * c ≤ eps * |D| * 1 := mul_le_mul h1 hc hc0 (by positivity)
    have k2 : |D| * |c - P| ≤ |D| * (25 * eps) := mul_le_mul_of_nonneg_left h2 hD
    have : 0 ≤ eps * |D| := by positivity
    linarith
  have j2 : |s * p - s * φ| ≤ 18 * eps * s := by
    rw [← mul_sub, abs_mul, abs_of_pos hs]
    have := mul_le_mul_of_nonneg_left h3 hs.le
    linarith
  have m1 : eps * |imp * c| ≤ eps * (101 / 100 * |D|) := mul_le_mul_of_nonneg_left i2 e0.le
  have m2 : eps * |s * p| ≤ eps * s := mul_le_mul_of_nonneg_left i3 e0.le
  have es : 0 < eps * s := by positivity
  have ed : 0 ≤ eps * |D| := by positivity
  have n1 : |a - D * P| ≤ (27 + 101 / 100) * (eps * |D|) + eta := by
    have := abs_add_le (a - imp * c) (imp * c - D * P)
    rw [sub_add_sub_cancel] at this
    linarith
  have n2 : |b - s * φ| ≤ 19 * (eps * s) + eta := by
    have := abs_add_le (b - s * p) (s * p - s * φ)
    rw [sub_add_sub_cancel] at this
    linarith
  have n3 : |a + b| ≤ 2 * |D| + 2 * s := by
    have t1 := abs_add_le a b
    have t2 := abs_sub_abs_le_abs_sub a (imp * c)
    have t3 := abs_sub_abs_le_abs_sub b (s * p)
    have t4 : eps * |D| ≤ 1 / 100 * |D| := mul_le_mul_of_nonneg_right (by linarith) hD
    have t5 : eps * s ≤ 1 / 100 * s := mul_le_mul_of_nonneg_right (by linarith) hs.le
    linarith
  have n4 : eps * |a + b| ≤ eps * (2 * |D| + 2 * s) := mul_le_mul_of_nonneg_left n3 e0.le
  have t1 := abs_add_le (v - (a + b)) ((a - D * P) + (b - s * φ))
  have t2 := abs_add_le (a - D * P) (b - s * φ)
  rw [show v - (a + b) + ((a - D * P) + (b - s * φ)) = v - (D * P + s * φ) by ring] at t1
  linarith

theorem acqValue_ok {L : Libm ℝ} (hL : Accurate L) {erf : ℝ → ℝ} (hE : AccurateErf erf) {m f s : ℝ}
    (hm : IsDouble m) (hf : IsDouble f) (hm1 : |m| ≤ 2 ^ (300 : ℤ)) (hf1 : |f| ≤ 2 ^ (300 : ℤ))
    (hs0 : lit cEpsilon < s) (hs1 : s ≤ 2 ^ (300 : ℤ)) :
    ∃ v, acqValue L erf m f s = .ok v ∧ IsDouble v ∧ |v| ≤ 2 ^ (400 : ℤ) ∧
      |v - ((m - f) * gPhi ((m - f) / s) + s * gphi ((m - f) / s))| ≤ 32 * eps * (|m - f| + s) := by
  obtain ⟨e0, e1, -⟩ := eps_small
  have h0 := eta_le
  have h00 := eta_pos (K := ℝ)
  have hε : (2 : ℝ) ^ (-50 : ℤ) ≤ lit cEpsilon := by
    refine double_le_fl ⟨1, -50, by norm_num, by norm_num, by simp⟩ ?_
    unfold cEpsilon; norm_num
  have hs50 : (2 : ℝ) ^ (-50 : ℤ) ≤ s := hε.trans hs0.le
  have hsp : 0 < s := (zp _).trans_le hs50
  have hD : |m - f| ≤ 2 ^ (301 : ℤ) := by
    refine (abs_sub _ _).trans ?_
    rw [show (301 : ℤ) = 300 + 1 by norm_num, ← half_zp]
    exact add_le_add hm1 hf1
  have i1 : sub m f = .ok (fl (m - f)) := dbl_of_le (by norm_num) (by norm_num) hD
  have i2 : |fl (m - f) - (m - f)| ≤ eps * |m - f| := by rw [← div53]; exact fl_sub_err hm hf
  have i3 := fl_abs_le (by norm_num) hD
  set imp := fl (m - f) with himp
  have divb : ∀ t : ℝ, |t| ≤ 2 ^ (301 : ℤ) → |t / s| ≤ 2 ^ (351 : ℤ) := by
    intro t ht
    rw [abs_div, abs_of_pos hsp, div_le_iff₀ hsp]
    refine ht.trans ?_
    calc (2 : ℝ) ^ (301 : ℤ) = 2 ^ (351 : ℤ) * 2 ^ (-50 : ℤ) := by rw [← zp_add]; norm_num
      _ ≤ _ := mul_le_mul_of_nonneg_left hs50 (zp _).le
  have up : (2 : ℝ) ^ (351 : ℤ) ≤ 2 ^ (400 : ℤ) := zp_mono (by norm_num)
  have z1 : div imp s = .ok (fl (imp / s)) := by
    unfold div
    rw [if_neg hsp.ne']
    exact dbl_of_le (by norm_num) (by norm_num) (divb _ i3)
  have z2 := (fl_abs_le (by norm_num) (divb _ i3)).trans up
  have z3 := (divb _ hD).trans up
  set Z := fl (imp / s) with hZ
  have z4 : |Z - (m - f) / s| ≤ 3 * eps * |(m - f) / s| + eta := by
    have a1 := fl_rel (imp / s)
    rw [← hZ] at a1
    have a2 : |imp / s - (m - f) / s| ≤ eps * |(m - f) / s| := by
      rw [← sub_div, abs_div, abs_div, abs_of_pos hsp, ← mul_div_assoc]
      exact div_le_div_of_nonneg_right i2 hsp.le
    have a3 := abs_sub_abs_le_abs_sub (imp / s) ((m - f) / s)
    have hz := abs_nonneg ((m - f) / s)
    have a4 : eps * |(m - f) / s| ≤ 1 * |(m - f) / s| := mul_le_mul_of_nonneg_right (by linarith) hz
    have a5 : eps * |imp / s| ≤ eps * (2 * |(m - f) / s|) := mul_le_mul_of_nonneg_left (by linarith) e0.le
    have := abs_add_le (Z - imp / s) (imp / s - (m - f) / s)
    rw [sub_add_sub_cancel] at this
    linarith
  have one1 : (2 : ℝ) ^ (-400 : ℤ) ≤ 1 := zpow_le_one_of_nonpos₀ (by norm_num) (by norm_num)
  have one2 : (1 : ℝ) ≤ 2 ^ (400 : ℤ) := one_le_zpow₀ (by norm_num) (by norm_num)
  obtain ⟨c, c1, c2, c3, c4, c5⟩ := cdf_ok hE (fl_isDouble (imp / s)) isDouble_zero z2 (by rw [abs_zero]; exact (zp _).le) one1 one2
  rw [← hZ, sub_zero, div_one] at c5
  rw [← hZ] at c1
  have c6 := gPhi_near (by linarith : (0 : ℝ) ≤ 3 * eps) (by linarith) h00.le z4
  have c7 : |c - gPhi ((m - f) / s)| ≤ 25 * eps := by
    have := abs_add_le (c - gPhi Z) (gPhi Z - gPhi ((m - f) / s))
    rw [sub_add_sub_cancel] at this
    linarith
  obtain ⟨p, p1, p2, p3, p4, p5⟩ := pdf_ok hL (fl_isDouble (imp / s)) z2
  rw [← hZ] at p1 p5
  have p6 := gphi_near z3 z4
  have p7 : |p - gphi ((m - f) / s)| ≤ 18 * eps := by
    have := abs_add_le (p - gphi Z) (gphi Z - gphi ((m - f) / s))
    rw [sub_add_sub_cancel] at this
    linarith
  have a0 : |imp * c| ≤ 2 ^ (301 : ℤ) := by
    rw [abs_mul, abs_of_nonneg c3]
    refine le_trans ?_ i3
    have : |imp| * c ≤ |imp| * 1 := mul_le_mul_of_nonneg_left c4 (abs_nonneg _)
    linarith
  have a1 : mul imp c = .ok (fl (imp * c)) := dbl_of_le (by norm_num) (by norm_num) a0
  have b0 : |s * p| ≤ 2 ^ (301 : ℤ) := by
    rw [abs_of_nonneg (by positivity)]
    have i : s * p ≤ s * 1 := mul_le_mul_of_nonneg_left p4 hsp.le
    rw [mul_one] at i
    exact i.trans (hs1.trans (zp_mono (by norm_num)))
  have b1 : mul s p = .ok (fl (s * p)) := dbl_of_le (by norm_num) (by norm_num) b0
  have v0 : |fl (imp * c) + fl (s * p)| ≤ 2 ^ (302 : ℤ) := by
    refine (abs_add_le _ _).trans ?_
    rw [show (302 : ℤ) = 301 + 1 by norm_num, ← half_zp]
    exact add_le_add (fl_abs_le (by norm_num) a0) (fl_abs_le (by norm_num) b0)
  have v1 : add (fl (imp * c)) (fl (s * p)) = .ok (fl (fl (imp * c) + fl (s * p))) := dbl_of_le (by norm_num) (by norm_num) v0
  refine ⟨_, ?_, fl_isDouble _, (fl_abs_le (by norm_num) v0).trans (zp_mono (by norm_num)), ?_⟩
  · unfold acqValue
    rw [if_pos (by rw [abs_of_pos hsp]; exact hs0)]
    exact bind_eq i1 (bind_eq z1 (bind_eq c1 (bind_eq a1 (bind_eq p1 (bind_eq b1 v1)))))
  · refine value_close hsp ?_ c3 c4 p3 p4 i2 c7 p7 (fl_rel _) (fl_rel _) ?_
    · have t1 : (eta : ℝ) * 2 ^ (50 : ℤ) ≤ eps / 1000 := by
        refine le_trans ?_ eta_small.2
        exact mul_le_mul_of_nonneg_left (zp_mono (by norm_num)) h00.le
      calc (eta : ℝ) = eta * 2 ^ (50 : ℤ) * 2 ^ (-50 : ℤ) := by rw [mul_assoc, ← zp_add]; norm_num
        _ ≤ eps / 1000 * s := mul_le_mul t1 hs50 (zp _).le (by linarith)
    · rw [← div53]; exact fl_add_err (fl_isDouble _) (fl_isDouble _)

end Rodeo.Dbl
