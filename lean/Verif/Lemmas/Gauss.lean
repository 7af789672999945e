import Verif.Model.Acquisition
import Mathlib.Probability.Distributions.Gaussian.Real
import Mathlib.MeasureTheory.Integral.IntegralEqImproper
import Mathlib.Analysis.SpecialFunctions.Gaussian.GaussianIntegral
import Mathlib.Analysis.Real.Pi.Bounds

set_option linter.unusedSectionVars false

/-! # The normal distribution and the error function -/

namespace Rodeo
open MeasureTheory ProbabilityTheory Set Filter Topology

/-- The standard normal density. -/
noncomputable def gphi (x : ℝ) : ℝ := (Real.sqrt (2 * Real.pi))⁻¹ * Real.exp (-x ^ 2 / 2)

/-- The standard normal distribution function. -/
noncomputable def gPhi (z : ℝ) : ℝ := (gaussianReal 0 1).real (Iic z)

theorem gphi_eq (x : ℝ) : gaussianPDFReal 0 1 x = gphi x := by
  simp [gaussianPDFReal, gphi]

theorem gphi_nonneg (x : ℝ) : 0 ≤ gphi x := by unfold gphi; positivity

theorem gphi_integrable : Integrable gphi := by
  have := integrable_gaussianPDFReal 0 1
  exact this.congr (ae_of_all _ gphi_eq)

theorem gphi_continuous : Continuous gphi := by unfold gphi; fun_prop

theorem gPhi_eq (z : ℝ) : gPhi z = ∫ x in Iic z, gphi x := by
  unfold gPhi
  rw [measureReal_def, gaussianReal_apply_eq_integral 0 one_ne_zero,
    ENNReal.toReal_ofReal (integral_nonneg fun x => gaussianPDFReal_nonneg _ _ _)]
  exact integral_congr_ae (ae_of_all _ gphi_eq)

theorem gPhi_zero : gPhi 0 = 1 / 2 := by
  rw [gPhi_eq]
  have h : ∫ x in Iic (0 : ℝ), gphi x = ∫ x in Ioi (0 : ℝ), gphi x := by
    have := integral_comp_neg_Iic (0 : ℝ) gphi
    rw [neg_zero] at this
    rw [← this]
    exact integral_congr_ae (ae_of_all _ fun x => by simp [gphi])
  rw [h]
  have h2 := integral_gaussian_Ioi (1 / 2)
  have h3 : ∫ x in Ioi (0 : ℝ), gphi x = (Real.sqrt (2 * Real.pi))⁻¹ * (Real.sqrt (Real.pi / (1 / 2)) / 2) := by
    rw [← h2, ← integral_const_mul]
    exact integral_congr_ae (ae_of_all _ fun x => by
      simp only [gphi]
      congr 2
      ring)
  rw [h3, show Real.pi / (1 / 2) = 2 * Real.pi by ring]
  have : Real.sqrt (2 * Real.pi) ≠ 0 := by positivity
  field_simp

theorem gPhi_diff (a b : ℝ) : gPhi b - gPhi a = ∫ x in a..b, gphi x := by
  rw [gPhi_eq, gPhi_eq]
  exact intervalIntegral.integral_Iic_sub_Iic gphi_integrable.integrableOn gphi_integrable.integrableOn

/-- The distribution function by the error function. -/
theorem gPhi_erf (z : ℝ) : gPhi z = 1 / 2 * (1 + realErf (z / Real.sqrt 2)) := by
  have h := gPhi_diff 0 z
  rw [gPhi_zero] at h
  have h2 : gPhi z = 1 / 2 + ∫ x in (0 : ℝ)..z, gphi x := by linarith
  rw [h2]
  unfold realErf
  have hs : Real.sqrt 2 ≠ 0 := by positivity
  have h3 := intervalIntegral.integral_comp_div (f := fun t => Real.exp (-t ^ 2)) (a := 0) (b := z) hs
  rw [zero_div, smul_eq_mul] at h3
  have h4 : ∫ x in (0 : ℝ)..z, gphi x =
      (Real.sqrt (2 * Real.pi))⁻¹ * ∫ x in (0 : ℝ)..z, Real.exp (-(x / Real.sqrt 2) ^ 2) := by
    rw [← intervalIntegral.integral_const_mul]
    refine intervalIntegral.integral_congr fun x _ => ?_
    simp only [gphi, div_pow, Real.sq_sqrt (by norm_num : (0 : ℝ) ≤ 2)]
    congr 2
    ring
  rw [h4, h3, Real.sqrt_mul (by norm_num)]
  have : Real.sqrt Real.pi ≠ 0 := by positivity
  field_simp

theorem gPhi_nonneg (z : ℝ) : 0 ≤ gPhi z := measureReal_nonneg

theorem gPhi_le_one (z : ℝ) : gPhi z ≤ 1 := measureReal_le_one

theorem gPhi_mono : Monotone gPhi := fun a b h => measureReal_mono (Iic_subset_Iic.2 h)

theorem realErf_range (x : ℝ) : -1 ≤ realErf x ∧ realErf x ≤ 1 := by
  have h := gPhi_erf (x * Real.sqrt 2)
  rw [mul_div_cancel_right₀ _ (by positivity)] at h
  have h1 := gPhi_nonneg (x * Real.sqrt 2)
  have h2 := gPhi_le_one (x * Real.sqrt 2)
  constructor <;> linarith

theorem gphi_deriv (x : ℝ) : HasDerivAt gphi (-x * gphi x) x := by
  unfold gphi
  have h1 : HasDerivAt (fun x : ℝ => -x ^ 2 / 2) (-x) x := by
    have := ((hasDerivAt_pow 2 x).neg).div_const 2
    refine this.congr_deriv ?_
    simp
    ring
  refine (h1.exp.const_mul _).congr_deriv ?_
  ring

theorem mul_gphi_integrable : Integrable fun x => x * gphi x := by
  have h := integrable_mul_exp_neg_mul_sq (b := 1 / 2) (by norm_num)
  refine (h.const_mul (Real.sqrt (2 * Real.pi))⁻¹).congr (ae_of_all _ fun x => ?_)
  simp only [gphi]
  rw [show -(1 / 2) * x ^ 2 = -x ^ 2 / 2 by ring]
  ring

theorem gphi_tendsto : Tendsto gphi atBot (𝓝 0) := by
  unfold gphi
  rw [show (0 : ℝ) = (Real.sqrt (2 * Real.pi))⁻¹ * 0 by ring]
  refine Tendsto.const_mul _ (Real.tendsto_exp_atBot.comp ?_)
  have : Tendsto (fun x : ℝ => x ^ 2) atBot atTop := by
    have h := (tendsto_pow_atTop (α := ℝ) two_ne_zero).comp tendsto_abs_atBot_atTop
    exact h.congr fun x => by simp
  have h2 := (tendsto_neg_atTop_atBot.comp this).atBot_div_const (r := 2) (by norm_num)
  exact h2

/-- The expected improvement of a standard normal variable. -/
theorem improvement_integral (z : ℝ) : ∫ x in Iic z, (z - x) * gphi x = z * gPhi z + gphi z := by
  have h1 : ∫ x in Iic z, -x * gphi x = gphi z - 0 :=
    integral_Iic_of_hasDerivAt_of_tendsto' (fun x _ => gphi_deriv x)
      (by
        have := mul_gphi_integrable.neg.integrableOn (s := Iic z)
        refine this.congr_fun (fun x _ => ?_) measurableSet_Iic
        simp) gphi_tendsto
  have h2 : ∫ x in Iic z, z * gphi x = z * gPhi z := by rw [integral_const_mul, gPhi_eq]
  rw [sub_zero] at h1
  rw [← h2, ← h1, ← integral_add]
  · exact integral_congr_ae (ae_of_all _ fun x => by ring)
  · exact (gphi_integrable.const_mul z).integrableOn
  · have := mul_gphi_integrable.neg.integrableOn (s := Iic z)
    refine this.congr_fun (fun x _ => ?_) measurableSet_Iic
    simp

theorem improvement_nonneg (z : ℝ) : 0 ≤ z * gPhi z + gphi z := by
  rw [← improvement_integral]
  exact setIntegral_nonneg measurableSet_Iic fun x hx => mul_nonneg (sub_nonneg.2 hx) (gphi_nonneg x)

theorem standard_improvement (z : ℝ) :
    ∫ x, max (z - x) 0 ∂(gaussianReal 0 1) = z * gPhi z + gphi z := by
  rw [integral_gaussianReal_eq_integral_smul one_ne_zero, ← improvement_integral,
    ← integral_indicator measurableSet_Iic]
  refine integral_congr_ae (ae_of_all _ fun x => ?_)
  simp only [smul_eq_mul, gphi_eq, indicator, mem_Iic]
  split_ifs with h
  · rw [max_eq_left (by linarith)]; ring
  · rw [max_eq_right (by linarith)]; ring

theorem gaussian_scale (mu s : ℝ) :
    gaussianReal mu (NNReal.mk (s ^ 2) (sq_nonneg s)) = (gaussianReal 0 1).map (fun x => mu + s * x) := by
  have h1 := gaussianReal_map_const_mul (μ := 0) (v := 1) s
  have h2 := gaussianReal_map_const_add (μ := s * 0) (v := (NNReal.mk (s ^ 2) (sq_nonneg s)) * 1) mu
  rw [← h1, Measure.map_map (by fun_prop) (by fun_prop)] at h2
  rw [show (fun x => mu + s * x) = (fun x => mu + x) ∘ (fun x => s * x) from rfl, h2]
  simp

/-- The expectation of the improvement below `m` of a normal variable. -/
theorem normal_improvement (m mu : ℝ) {s : ℝ} (hs : 0 < s) :
    ∫ y, max (m - y) 0 ∂(gaussianReal mu (NNReal.mk (s ^ 2) (sq_nonneg s))) =
      (m - mu) * gPhi ((m - mu) / s) + s * gphi ((m - mu) / s) := by
  rw [gaussian_scale mu s, integral_map (by fun_prop) (by fun_prop)]
  have h : ∀ x, max (m - (mu + s * x)) 0 = s * max ((m - mu) / s - x) 0 := by
    intro x
    rw [mul_max_of_nonneg _ _ hs.le, mul_zero, mul_sub, mul_div_cancel₀ _ hs.ne']
    congr 1
    ring
  simp_rw [h]
  rw [integral_const_mul, standard_improvement]
  field_simp

/-- The probability that a normal variable is at most `v`. -/
theorem normal_probability (v mu : ℝ) {s : ℝ} (hs : 0 < s) :
    (gaussianReal mu (NNReal.mk (s ^ 2) (sq_nonneg s))).real (Iic v) = gPhi ((v - mu) / s) := by
  rw [gaussian_scale mu s, map_measureReal_apply (by fun_prop) measurableSet_Iic]
  unfold gPhi
  congr 1
  ext x
  simp only [mem_preimage, mem_Iic]
  rw [le_div_iff₀ hs]
  constructor <;> intro h <;> linarith

/-! ## The constants of the source -/

theorem sqrt2_bounds : (cSqrt2 : ℝ) ≤ Real.sqrt 2 ∧ Real.sqrt 2 ≤ cSqrt2 * (1 + 1 / 10 ^ 19) := by
  unfold cSqrt2
  constructor
  · exact Real.le_sqrt_of_sq_le (by norm_num)
  · rw [Real.sqrt_le_left (by norm_num)]
    norm_num

theorem invSqrt2Pi_bounds : (Real.sqrt (2 * Real.pi))⁻¹ ≤ cInvSqrt2Pi ∧
    (cInvSqrt2Pi : ℝ) ≤ (Real.sqrt (2 * Real.pi))⁻¹ + 1 / 10 ^ 16 := by
  have h1 := Real.pi_gt_d20
  have h2 := Real.pi_lt_d20
  have hpos : (0 : ℝ) < Real.sqrt (2 * Real.pi) := by positivity
  unfold cInvSqrt2Pi
  constructor
  · rw [inv_le_comm₀ hpos (by norm_num)]
    exact Real.le_sqrt_of_sq_le (by norm_num; linarith)
  · have : (3989422804014327 / 10 ^ 16 - 1 / 10 ^ 16 : ℝ) ≤ (Real.sqrt (2 * Real.pi))⁻¹ := by
      rw [le_inv_comm₀ (by norm_num) hpos, Real.sqrt_le_left (by norm_num)]
      norm_num
      linarith
    linarith

theorem gphi_le_one (x : ℝ) : gphi x ≤ 1 / 2 := by
  have h1 : Real.exp (-x ^ 2 / 2) ≤ 1 := by
    rw [Real.exp_le_one_iff]
    have := sq_nonneg x
    linarith
  have h2 := invSqrt2Pi_bounds.1
  have h3 : (cInvSqrt2Pi : ℝ) ≤ 1 / 2 := by unfold cInvSqrt2Pi; norm_num
  have h4 : 0 ≤ (Real.sqrt (2 * Real.pi))⁻¹ := by positivity
  unfold gphi
  nlinarith [Real.exp_pos (-x ^ 2 / 2)]

theorem sq_gphi_le (z : ℝ) : z ^ 2 * gphi z ≤ 1 := by
  have h1 : z ^ 2 / 2 + 1 ≤ Real.exp (z ^ 2 / 2) := Real.add_one_le_exp _
  have h2 : Real.exp (-z ^ 2 / 2) * Real.exp (z ^ 2 / 2) = 1 := by
    rw [← Real.exp_add]; ring_nf; exact Real.exp_zero
  have h3 := Real.exp_pos (-z ^ 2 / 2)
  have h4 : z ^ 2 / 2 * Real.exp (-z ^ 2 / 2) ≤ 1 := by nlinarith
  have h5 := invSqrt2Pi_bounds.1
  have h6 : (cInvSqrt2Pi : ℝ) ≤ 1 / 2 := by unfold cInvSqrt2Pi; norm_num
  have h7 : 0 ≤ (Real.sqrt (2 * Real.pi))⁻¹ := by positivity
  have h8 : 0 ≤ z ^ 2 / 2 * Real.exp (-z ^ 2 / 2) := by positivity
  unfold gphi
  nlinarith

theorem abs_gphi_le (z : ℝ) : |z| * gphi z ≤ 1 := by
  have h1 := sq_gphi_le z
  have h2 := gphi_le_one z
  have h3 := gphi_nonneg z
  have h4 : |z| ≤ (1 + z ^ 2) / 2 := by
    rw [← sq_abs]
    nlinarith [sq_nonneg (|z| - 1)]
  nlinarith

theorem gphi_anti {a b : ℝ} (h : |a| ≤ |b|) : gphi b ≤ gphi a := by
  unfold gphi
  have h1 : a ^ 2 ≤ b ^ 2 := sq_le_sq.2 h
  have h4 : 0 ≤ (Real.sqrt (2 * Real.pi))⁻¹ := by positivity
  refine mul_le_mul_of_nonneg_left (Real.exp_le_exp.2 ?_) h4
  linarith

/-- The effect of a relative error of the argument on the distribution function. -/
theorem gPhi_close (z : ℝ) {r : ℝ} (hr : 1 ≤ r) :
    |gPhi (z * r) - gPhi z| ≤ |z| * (r - 1) * gphi z := by
  rw [gPhi_diff]
  have hb : ∀ x ∈ uIoc z (z * r), ‖gphi x‖ ≤ gphi z := by
    intro x hx
    rw [Real.norm_of_nonneg (gphi_nonneg x)]
    apply gphi_anti
    rcases le_total 0 z with h | h
    · have : z ≤ z * r := le_mul_of_one_le_right h hr
      rw [uIoc_of_le this] at hx
      rw [abs_of_nonneg h, abs_of_nonneg (h.trans hx.1.le)]
      exact hx.1.le
    · have : z * r ≤ z := by nlinarith
      rw [uIoc_of_ge this] at hx
      rw [abs_of_nonpos h, abs_of_nonpos (hx.2.trans h)]
      exact neg_le_neg hx.2
  have := intervalIntegral.norm_integral_le_of_norm_le_const hb
  rw [Real.norm_eq_abs] at this
  refine this.trans (le_of_eq ?_)
  rw [show z * r - z = z * (r - 1) by ring, abs_mul, abs_of_nonneg (sub_nonneg.2 hr)]
  ring

/-- The distribution function as the code computes it. -/
noncomputable def codePhi (z : ℝ) : ℝ := 1 / 2 * (1 + realErf (z / cSqrt2))

theorem codePhi_eq (z : ℝ) : codePhi z = gPhi (z * (Real.sqrt 2 / cSqrt2)) := by
  rw [gPhi_erf]
  unfold codePhi
  have : Real.sqrt 2 ≠ 0 := by positivity
  rw [show z * (Real.sqrt 2 / cSqrt2) / Real.sqrt 2 = z / cSqrt2 by field_simp]

theorem ratio_bounds : 1 ≤ Real.sqrt 2 / cSqrt2 ∧ Real.sqrt 2 / cSqrt2 - 1 ≤ 1 / 10 ^ 19 := by
  obtain ⟨h1, h2⟩ := sqrt2_bounds
  have hc : (0 : ℝ) < cSqrt2 := by unfold cSqrt2; norm_num
  constructor
  · rw [le_div_iff₀ hc, one_mul]; exact h1
  · have : Real.sqrt 2 / cSqrt2 ≤ 1 + 1 / 10 ^ 19 := by
      rw [div_le_iff₀ hc, mul_comm]; exact h2
    linarith

theorem codePhi_range (z : ℝ) : 0 ≤ codePhi z ∧ codePhi z ≤ 1 := by
  rw [codePhi_eq]; exact ⟨gPhi_nonneg _, gPhi_le_one _⟩

theorem codePhi_close (z : ℝ) : |codePhi z - gPhi z| ≤ 1 / 10 ^ 19 := by
  rw [codePhi_eq]
  obtain ⟨h1, h2⟩ := ratio_bounds
  refine (gPhi_close z h1).trans ?_
  have := abs_gphi_le z
  have := gphi_nonneg z
  have := abs_nonneg z
  nlinarith [mul_nonneg (abs_nonneg z) (gphi_nonneg z)]

theorem mul_codePhi_close (z : ℝ) : |z * codePhi z - z * gPhi z| ≤ 1 / 10 ^ 19 := by
  rw [codePhi_eq, ← mul_sub, abs_mul]
  obtain ⟨h1, h2⟩ := ratio_bounds
  have h3 := mul_le_mul_of_nonneg_left (gPhi_close z h1) (abs_nonneg z)
  refine h3.trans ?_
  have h4 := sq_gphi_le z
  rw [← sq_abs] at h4
  have h5 : 0 ≤ |z| ^ 2 * gphi z := mul_nonneg (sq_nonneg _) (gphi_nonneg z)
  have : |z| * (|z| * (Real.sqrt 2 / cSqrt2 - 1) * gphi z) =
    (|z| ^ 2 * gphi z) * (Real.sqrt 2 / cSqrt2 - 1) := by ring
  rw [this]
  nlinarith

/-- The code's value is not below the exact one. -/
theorem mul_codePhi_ge (z : ℝ) : z * gPhi z ≤ z * codePhi z := by
  rw [codePhi_eq]
  obtain ⟨h1, -⟩ := ratio_bounds
  rcases le_total 0 z with h | h
  · exact mul_le_mul_of_nonneg_left (gPhi_mono (le_mul_of_one_le_right h h1)) h
  · refine mul_le_mul_of_nonpos_left (gPhi_mono ?_) h
    nlinarith

/-- The density as the code computes it. -/
noncomputable def codephi (z : ℝ) : ℝ := cInvSqrt2Pi * Real.exp (-(1 / 2) * z * z)

theorem codephi_close (z : ℝ) : gphi z ≤ codephi z ∧ codephi z ≤ gphi z + 1 / 10 ^ 16 := by
  unfold codephi gphi
  rw [show -(1 / 2) * z * z = -z ^ 2 / 2 by ring]
  obtain ⟨h1, h2⟩ := invSqrt2Pi_bounds
  have h3 := Real.exp_pos (-z ^ 2 / 2)
  have h4 : Real.exp (-z ^ 2 / 2) ≤ 1 := by
    rw [Real.exp_le_one_iff]
    have := sq_nonneg z
    linarith
  constructor <;> nlinarith

end Rodeo
