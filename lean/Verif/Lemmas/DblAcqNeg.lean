import Verif.Lemmas.DblAcq

set_option linter.unusedSectionVars false

/-! # Numbers for an expected improvement that is negative in doubles -/

namespace Rodeo.Dbl
open Spec

theorem gPhi_piece {a b : ℝ} (hab : a ≤ b) (hb : b ≤ 0) : (b - a) * gphi a ≤ gPhi b - gPhi a := by
  rw [gPhi_diff]
  have h := intervalIntegral.integral_mono_on (μ := MeasureTheory.volume) hab (f := fun _ => gphi a) (g := gphi)
    intervalIntegrable_const (gphi_continuous.intervalIntegrable a b) (fun x hx => gphi_anti (by
      rw [abs_of_nonpos (hx.2.trans hb), abs_of_nonpos (hab.trans hb)]
      linarith [hx.1]))
  simpa using h

theorem exp_low (n : Nat) {x d : ℝ} (hd : 0 ≤ d) (hx : x = n - d) :
    (1 / 2.7182818286 : ℝ) ^ n * (1 + d + d ^ 2 / 2) ≤ Real.exp (-x) := by
  have e : Real.exp (-x) = Real.exp (-1) ^ n * Real.exp d := by
    rw [← Real.exp_nat_mul, ← Real.exp_add]; congr 1; rw [hx]; ring
  rw [e]
  have h1 : (1 / 2.7182818286 : ℝ) ≤ Real.exp (-1) := by
    rw [Real.exp_neg, ← one_div]
    exact one_div_le_one_div_of_le (Real.exp_pos 1) Real.exp_one_lt_d9.le
  exact mul_le_mul (pow_le_pow_left₀ (by norm_num) h1 n) (Real.quadratic_le_exp_of_nonneg hd)
    (by positivity) (by positivity)

theorem gphi_low (n : Nat) {z d : ℝ} (hd : 0 ≤ d) (hx : z ^ 2 / 2 = n - d) :
    398 / 1000 * ((1 / 2.7182818286 : ℝ) ^ n * (1 + d + d ^ 2 / 2)) ≤ gphi z := by
  rw [gphi_exp]
  have h := invSqrt2Pi_bounds.2
  have hc : (0.3981 : ℝ) ≤ cInvSqrt2Pi := by unfold cInvSqrt2Pi; norm_num
  refine mul_le_mul (by norm_num at h hc ⊢; linarith) (exp_low n hd hx) (by positivity) (by positivity)

theorem gPhi_far : (2 : ℝ) ^ (-55 : ℤ) < gPhi (-(8.32)) := by
  have p1 := gPhi_piece (a := -(8.37)) (b := -(8.32)) (by norm_num) (by norm_num)
  have p2 := gPhi_piece (a := -(8.42)) (b := -(8.37)) (by norm_num) (by norm_num)
  have p3 := gPhi_piece (a := -(8.47)) (b := -(8.42)) (by norm_num) (by norm_num)
  have p4 := gPhi_piece (a := -(8.52)) (b := -(8.47)) (by norm_num) (by norm_num)
  have p5 := gPhi_piece (a := -(8.57)) (b := -(8.52)) (by norm_num) (by norm_num)
  have p6 := gPhi_piece (a := -(8.62)) (b := -(8.57)) (by norm_num) (by norm_num)
  have q1 := gphi_low 36 (z := -(8.37)) (d := 36 - 8.37 ^ 2 / 2) (by norm_num) (by push_cast; ring)
  have q2 := gphi_low 36 (z := -(8.42)) (d := 36 - 8.42 ^ 2 / 2) (by norm_num) (by push_cast; ring)
  have q3 := gphi_low 36 (z := -(8.47)) (d := 36 - 8.47 ^ 2 / 2) (by norm_num) (by push_cast; ring)
  have q4 := gphi_low 37 (z := -(8.52)) (d := 37 - 8.52 ^ 2 / 2) (by norm_num) (by push_cast; ring)
  have q5 := gphi_low 37 (z := -(8.57)) (d := 37 - 8.57 ^ 2 / 2) (by norm_num) (by push_cast; ring)
  have q6 := gphi_low 38 (z := -(8.62)) (d := 38 - 8.62 ^ 2 / 2) (by norm_num) (by push_cast; ring)
  have q0 := gPhi_nonneg (-(8.62))
  norm_num at p1 p2 p3 p4 p5 p6 q1 q2 q3 q4 q5 q6 q0 ⊢
  linarith

theorem exp_far {e : ℝ} (h : e ≤ -(34.5)) : Real.exp e ≤ 1.06 / 10 ^ 15 := by
  have e1 : Real.exp (-(34.5)) = (Real.exp 1 ^ 34)⁻¹ * (Real.exp 0.5)⁻¹ := by
    rw [← Real.exp_nat_mul, ← mul_inv, ← Real.exp_add, ← Real.exp_neg]; norm_num
  have h1 : (2.7182818283 : ℝ) ^ 34 ≤ Real.exp 1 ^ 34 :=
    pow_le_pow_left₀ (by norm_num) Real.exp_one_gt_d9.le 34
  have h2 : (1.625 : ℝ) ≤ Real.exp 0.5 := by
    have := Real.quadratic_le_exp_of_nonneg (x := 0.5) (by norm_num)
    norm_num at this ⊢; linarith
  refine (Real.exp_le_exp.2 h).trans ?_
  rw [e1]
  calc (Real.exp 1 ^ 34)⁻¹ * (Real.exp 0.5)⁻¹ ≤ ((2.7182818283 : ℝ) ^ 34)⁻¹ * (1.625 : ℝ)⁻¹ := by
        refine mul_le_mul (inv_anti₀ (by norm_num) h1) (inv_anti₀ (by norm_num) h2) (by positivity) (by positivity)
    _ ≤ _ := by norm_num

end Rodeo.Dbl
