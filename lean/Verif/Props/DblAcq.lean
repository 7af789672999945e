import Verif.Lemmas.DblAcqNeg
import Verif.Props.DblVar
import Verif.Props.Acquisition

/-! # C126: the acquisition function in double arithmetic -/

set_option linter.unusedSectionVars false

namespace Rodeo

open Spec Dbl MeasureTheory ProbabilityTheory

theorem eps32 : 32 * (eps : ℝ) = 1 / 2 ^ 48 := by unfold eps; norm_num

/-- C126: for all doubles up to `2 ^ 300`, the value is a number; it is 0 if the deviation is at most the double
`1e-13`, and otherwise the expected improvement with an error of at most `2 ^ (-48)` times the improvement and
the deviation. -/
theorem C126_value {L : Libm ℝ} (hL : Accurate L) {erf : ℝ → ℝ} (hE : AccurateErf erf) {m f s : ℝ}
    (hm : IsDouble m) (hf : IsDouble f) (hm1 : |m| ≤ 2 ^ (300 : ℤ)) (hf1 : |f| ≤ 2 ^ (300 : ℤ)) (hs0 : 0 ≤ s)
    (hs1 : s ≤ 2 ^ (300 : ℤ)) :
    ∃ v, acqValue L erf m f s = .ok v ∧ IsDouble v ∧ (s ≤ fl (1 / 10 ^ 13) → v = 0) ∧
      (fl (1 / 10 ^ 13) < s → |v - Spec.expectedImprovement m f s| ≤ (|m - f| + s) / 2 ^ 48) := by
  have e : lit (cEpsilon : ℝ) = fl (1 / 10 ^ 13) := by
    unfold lit cEpsilon; congr 1; norm_num
  rcases le_or_gt s (fl (1 / 10 ^ 13)) with h | h
  · refine ⟨0, ?_, isDouble_zero, fun _ => rfl, fun h' => absurd h' (not_lt.2 h)⟩
    unfold acqValue
    rw [if_neg (by rw [abs_of_nonneg hs0, e]; exact not_lt.2 h)]
  · have hp : 0 < s := (fl_nonneg (by norm_num)).trans_lt h
    obtain ⟨v, v1, v2, -, v4⟩ := acqValue_ok hL hE hm hf hm1 hf1 (by rw [e]; exact h) hs1
    refine ⟨v, v1, v2, fun h' => absurd h (not_lt.2 h'), fun _ => ?_⟩
    unfold Spec.expectedImprovement
    rw [normal_improvement m f hp]
    refine v4.trans (le_of_eq ?_)
    rw [eps32]; ring

/-- C126 for a Kriging model: if the number on the diagonal is above the rounding errors and no output is tiny,
the acquisition value of every candidate is a number: the expected improvement, up to rounding, for the estimate
and the deviation that the model reports. -/
theorem C126_kriging {sqrt : ℝ → ℝ} (hs : IsSqrt sqrt) {L : Libm ℝ} (hL : Accurate L) (hL2 : AccurateSquare L)
    {erf : ℝ → ℝ} (hE : AccurateErf erf) {s : Corr.ExpCorr ℝ} {n m : Nat} {F : Nat → Nat → ℝ} (h : ReadyDbl s n m F)
    (hn0 : 0 < n) (hn : n ≤ 10 ^ 6) (hm : m ≤ 1000)
    (hc : 10 / 3 * (((n : ℝ) + 1) * ((n + 2) / 2 ^ 53)) * (1 + 2 * s.base.epsilon) + n * ((m : ℝ) + 10) / 2 ^ 54 ≤
      s.base.epsilon)
    {y : List ℝ} (hy : y.length = n) (hyd : Doubles y)
    (hys : ∀ t ∈ y, |t| ≤ 2 ^ 30 ∧ (t = 0 ∨ 2 ^ (-200 : ℤ) ≤ |t|)) (average : Bool)
    {best factor : ℝ} (hb : IsDouble best) (hb1 : |best| ≤ 2 ^ (300 : ℤ)) (hf0 : 0 < factor)
    (hf1 : factor ≤ 2 ^ (100 : ℤ)) :
    ∃ u, Dbl.update sqrt L s average y = .ok (some u) ∧
      ∀ x : List ℝ, x.length = m → (∀ t ∈ x, IsDouble t ∧ |t| ≤ 2 ^ (100 : ℤ)) →
        ∃ a, Dbl.expectedImprovement sqrt L erf s u best factor x = .ok a ∧
          Dbl.predict sqrt L s u x = .ok (a.objectiveValue, a.sigma) ∧
          (fl (factor * a.sigma) ≤ fl (1 / 10 ^ 13) → a.value = 0) ∧
          (fl (1 / 10 ^ 13) < fl (factor * a.sigma) →
            |a.value - Spec.expectedImprovement best a.objectiveValue (fl (factor * a.sigma))| ≤
              (|best - a.objectiveValue| + fl (factor * a.sigma)) / 2 ^ 48) := by
  obtain ⟨u, u1, u2⟩ := C125_bounds hs hL hL2 h hn0 hn hm hc hy hyd hys average
  refine ⟨u, u1, fun x lx hx => ?_⟩
  obtain ⟨p, v, -, -, v0, q1, q2, q3, q4⟩ := u2 x lx hx
  have g0 : 0 ≤ fl (sqrt v) := fl_nonneg (hs v v0).1
  have g1 : |factor * fl (sqrt v)| ≤ 2 ^ (300 : ℤ) := by
    rw [abs_mul, abs_of_pos hf0, show (300 : ℤ) = 100 + 200 by norm_num, zp_add]
    exact mul_le_mul hf1 q4 (abs_nonneg _) (zp _).le
  have g2 : mul factor (fl (sqrt v)) = .ok (fl (factor * fl (sqrt v))) := dbl_of_le (by norm_num) (by norm_num) g1
  have g3 : 0 ≤ fl (factor * fl (sqrt v)) := fl_nonneg (mul_nonneg hf0.le g0)
  obtain ⟨w, w1, -, w3, w4⟩ := C126_value hL hE hb q2 hb1 (q3.trans (zp_mono (by norm_num))) g3
    ((le_abs_self _).trans (fl_abs_le (by norm_num) g1))
  exact ⟨⟨p, fl (sqrt v), w⟩, bind_eq q1 (bind_eq g2 (bind_eq w1 rfl)), q1, w3, w4⟩

/-- C126, constraints: the computed probabilities that a normal variable with mean `mu` and deviation `s` is below
or above a bound are in `[0, 1]` and have an error of at most `2 ^ (-48)`. -/
theorem C126_probability {erf : ℝ → ℝ} (hE : AccurateErf erf) {bound mu s : ℝ} (hx : IsDouble bound) (hm : IsDouble mu)
    (hx1 : |bound| ≤ 2 ^ (400 : ℤ)) (hm1 : |mu| ≤ 2 ^ (400 : ℤ)) (hs0 : 2 ^ (-400 : ℤ) ≤ s) (hs1 : s ≤ 2 ^ (400 : ℤ)) :
    ∃ p q, Dbl.probabilityLess erf bound mu s = .ok p ∧ Dbl.probabilityGreater erf bound mu s = .ok q ∧
      0 ≤ p ∧ p ≤ 1 ∧ 0 ≤ q ∧ q ≤ 1 ∧
      |p - (gaussianReal mu (NNReal.mk (s ^ 2) (sq_nonneg s))).real (Set.Iic bound)| ≤ 1 / 2 ^ 48 ∧
      |q - (gaussianReal mu (NNReal.mk (s ^ 2) (sq_nonneg s))).real (Set.Ioi bound)| ≤ 1 / 2 ^ 48 := by
  have hs : 0 < s := (zp _).trans_le hs0
  obtain ⟨e0, e1, -⟩ := eps_small
  obtain ⟨c, c1, c2, c3, c4, c5⟩ := cdf_ok hE hx hm hx1 hm1 hs0 hs1
  have d0 : |1 - c| ≤ 1 := abs_le.2 ⟨by linarith, by linarith⟩
  have d1 : sub 1 c = .ok (fl (1 - c)) := dbl_of_le (n := 0) (by norm_num) (by norm_num) (by rw [zpow_zero]; exact d0)
  have d2 := fl_sub_err isDouble_one c2
  have d3 : |1 - c| / 2 ^ 53 ≤ eps := by
    rw [div53]
    have := mul_le_mul_of_nonneg_left d0 e0.le
    linarith
  have hc : (gaussianReal mu (NNReal.mk (s ^ 2) (sq_nonneg s))).real (Set.Ioi bound) =
      1 - gPhi ((bound - mu) / s) := by
    rw [← Set.compl_Iic, probReal_compl_eq_one_sub measurableSet_Iic, normal_probability bound mu hs]
  refine ⟨c, fl (1 - c), c1, bind_eq c1 d1, c3, c4, fl_nonneg (by linarith), fl_le_double isDouble_one (by linarith), ?_, ?_⟩
  · rw [normal_probability bound mu hs, ← eps32]
    linarith
  · rw [hc, ← eps32]
    rw [abs_le] at d2 c5 ⊢
    constructor <;> linarith [d2.1, d2.2, c5.1, c5.2]

/-- C126, constraints: the product with probabilities is a number of the same sign and not of larger size. -/
theorem C126_product : ∀ (ps : List ℝ) (v : ℝ), IsDouble v → |v| ≤ 2 ^ (400 : ℤ) →
    (∀ p ∈ ps, 0 ≤ p ∧ p ≤ 1) →
    ∃ w, timesProbabilities v ps = .ok w ∧ |w| ≤ |v| ∧ (0 ≤ v → 0 ≤ w) ∧ (v ≤ 0 → w ≤ 0)
  | [], v, _, _, _ => ⟨v, rfl, le_rfl, id, id⟩
  | p :: ps, v, hd, hv, h => by
    obtain ⟨h1, h2⟩ := h p (by simp)
    have a1 : |v * p| ≤ |v| := by
      rw [abs_mul, abs_of_nonneg h1]
      exact mul_le_of_le_one_right (abs_nonneg _) h2
    have a2 : |fl (v * p)| ≤ |v| := by
      have hda : IsDouble |v| := by
        rcases abs_choice v with e | e <;> rw [e]
        · exact hd
        · exact isDouble_neg hd
      obtain ⟨b1, b2⟩ := abs_le.1 a1
      exact abs_le.2 ⟨double_le_fl (isDouble_neg hda) b1, fl_le_double hda b2⟩
    have a3 : mul v p = .ok (fl (v * p)) := dbl_of_le (by norm_num) (by norm_num) (a1.trans hv)
    obtain ⟨w, w1, w2, w3, w4⟩ := C126_product ps (fl (v * p)) (fl_isDouble _) (a2.trans hv)
      (fun q hq => h q (by simp [hq]))
    refine ⟨w, bind_eq a3 w1, w2.trans a2, fun h0 => w3 (fl_nonneg (mul_nonneg h0 h1)),
      fun h0 => w4 (fl_le_double isDouble_zero (mul_nonpos_of_nonpos_of_nonneg h0 h1))⟩

/-! ## A case of the theorems -/

/-- The correctly rounded error function. -/
noncomputable def exErf (x : ℝ) : ℝ := fl (realErf x)

theorem exErf_accurate : AccurateErf exErf := by
  intro x _
  obtain ⟨h1, h2⟩ := realErf_range x
  refine ⟨fl_isDouble _, abs_le.2 ⟨double_le_fl (isDouble_neg isDouble_one) h1, fl_le_double isDouble_one h2⟩, ?_⟩
  have h := fl_rel (realErf x)
  have h3 : eps * |realErf x| ≤ |realErf x| / 2 ^ 52 := by
    unfold eps
    rw [div_mul_eq_mul_div, one_mul]
    gcongr <;> norm_num
  refine h.trans (add_le_add h3 ?_)
  unfold eta
  exact zp_mono (by norm_num)

/-! ## The sign -/

/-- The rounding that makes the value negative: the error function at -5.88 is rounded away from -1. -/
theorem exErf_far {i : ℝ} (h : -(8.32) ≤ Real.sqrt 2 * i) : -1 + 2 ^ (-53 : ℤ) ≤ exErf i := by
  have h1 : (2 : ℝ) ^ (-55 : ℤ) < gPhi (Real.sqrt 2 * i) := gPhi_far.trans_le (gPhi_mono h)
  rw [← realErf_gPhi] at h1
  have e54 : (2 : ℝ) ^ (-54 : ℤ) = 2 * 2 ^ (-55 : ℤ) := by
    rw [show (-54 : ℤ) = 1 + -55 by norm_num, zp_add, zpow_one]
  have e53 : (2 : ℝ) ^ (-53 : ℤ) = 2 * 2 ^ (-54 : ℤ) := by
    rw [show (-53 : ℤ) = 1 + -54 by norm_num, zp_add, zpow_one]
  have u0 := zp (K := ℝ) (-55)
  have hd : IsDouble (-1 + (2 : ℝ) ^ (-53 : ℤ)) := by
    refine ⟨-(2 ^ 53 - 1), -53, by norm_num, by norm_num, ?_⟩
    norm_num
  have h6 : ∀ t : ℝ, IsDouble t → t < 1 → t ≤ 1 - 2 ^ (-53 : ℤ) := fun t h1 h2 => double_lt_one h1 h2
  rw [e53, e54] at hd h6 ⊢
  generalize (2 : ℝ) ^ (-55 : ℤ) = u at h1 u0 hd h6 ⊢
  have h2 : -1 + 2 * u < realErf i := by linarith
  unfold exErf
  by_contra hc
  rw [not_le] at hc
  have h3 : fl (realErf i) ≤ -1 := by
    by_contra hg
    have := h6 _ (isDouble_neg (fl_isDouble (realErf i))) (by linarith)
    linarith
  have h4 := double_le_fl (x := realErf i) hd
  rcases le_total (-1 + 2 * (2 * u)) (realErf i) with g | g
  · linarith [h4 g]
  · have h5 := (fl_nearest (realErf i)).2 _ hd
    rw [abs_of_nonpos (by linarith), abs_of_nonneg (by linarith)] at h5
    linarith

/-- The value need not be positive: also with correctly rounded library functions, the expected improvement is
negative for the minimum 0, the estimate 8.3125 and the deviation 1. -/
theorem C126_negative : ∃ v, acqValue exLibm exErf 0 (133 / 16) 1 = .ok v ∧ v < 0 ∧
    0 ≤ Spec.expectedImprovement 0 (133 / 16) 1 := by
  have hf : IsDouble (133 / 16 : ℝ) := ⟨133, -4, by norm_num, by norm_num, by norm_num⟩
  have hZ : IsDouble (-(133 / 16) : ℝ) := isDouble_neg hf
  have big : ∀ n : ℤ, 0 ≤ n → (1 : ℝ) ≤ 2 ^ n := fun n hn => one_le_zpow₀ (by norm_num) hn
  have hf1 : |(133 / 16 : ℝ)| ≤ 2 ^ (300 : ℤ) := by
    rw [abs_of_pos (by norm_num)]
    have : (2 : ℝ) ^ (4 : ℤ) ≤ 2 ^ (300 : ℤ) := zp_mono (by norm_num)
    refine le_trans ?_ this
    norm_num
  obtain ⟨v, v1, -, -, -⟩ := C126_value exLibm_accurate exErf_accurate (m := 0) (f := 133 / 16) (s := 1) isDouble_zero
    hf (by rw [abs_zero]; exact (zp _).le) hf1 (by norm_num) (big _ (by norm_num))
  refine ⟨v, v1, ?_, Spec.expectedImprovement_nonneg _ _ _⟩
  have hlt : lit (cEpsilon : ℝ) < |1| := by
    have : lit (cEpsilon : ℝ) ≤ 2 ^ (-1 : ℤ) :=
      fl_le_double ⟨1, -1, by norm_num, by norm_num, by simp⟩ (by unfold cEpsilon; norm_num)
    rw [zpow_neg_one] at this
    rw [abs_one]
    linarith
  unfold acqValue at v1
  rw [if_pos hlt] at v1
  obtain ⟨imp, i1, v1⟩ := bind_ok_inv v1
  obtain ⟨Z, z1, v1⟩ := bind_ok_inv v1
  obtain ⟨c, c1, v1⟩ := bind_ok_inv v1
  obtain ⟨a, a1, v1⟩ := bind_ok_inv v1
  obtain ⟨p, p1, v1⟩ := bind_ok_inv v1
  obtain ⟨b, b1, vv⟩ := bind_ok_inv v1
  have i2 : imp = -(133 / 16) := by
    rw [Dbl.sub_ok i1, zero_sub, fl_of_double hZ]
  subst i2
  have z2 : Z = -(133 / 16) := by
    rw [(Dbl.div_ok z1).2, div_one, fl_of_double hZ]
  subst z2
  obtain ⟨e0, e1, -⟩ := eps_small
  have h0 := eta_le
  have h00 := eta_pos (K := ℝ)
  obtain ⟨g1, g2⟩ := sqrt2_range
  -- the distribution function is at least 2 ^ (-54)
  have c2 : (2 : ℝ) ^ (-54 : ℤ) ≤ c := by
    unfold cdf at c1
    obtain ⟨d, d1, c1⟩ := bind_ok_inv c1
    obtain ⟨q, q1, c1⟩ := bind_ok_inv c1
    obtain ⟨i, i1, c1⟩ := bind_ok_inv c1
    obtain ⟨t, t1, c1⟩ := bind_ok_inv c1
    have d2 : d = -(133 / 16) := by rw [Dbl.sub_ok d1, sub_zero, fl_of_double hZ]
    have q2 : q = lit cSqrt2 := by
      rw [Dbl.mul_ok q1, one_mul]; unfold lit; rw [fl_of_double (fl_isDouble _)]
    have q3 : |q - Real.sqrt 2| ≤ 3 * eps * Real.sqrt 2 := by
      rw [q2]
      refine sqrt2_lit.trans ?_
      have : 0 ≤ eps * Real.sqrt 2 := by positivity
      linarith
    have i2 : |i - d / q| ≤ eps * |d / q| + eta := by rw [(Dbl.div_ok i1).2]; exact fl_rel _
    have i3 := arg_close (A := -(133 / 16)) (by linarith : 0 < Real.sqrt 2) (by rw [d2, sub_self, abs_zero]; positivity) q3 i2
    have i4 : |-(133 / 16) / Real.sqrt 2| ≤ 9 := by
      rw [abs_div, abs_neg, abs_of_pos (by linarith : 0 < Real.sqrt 2), abs_of_pos (by norm_num : (0 : ℝ) < 133 / 16),
        div_le_iff₀ (by linarith)]
      linarith
    have i5 : -(1 / 10 ^ 10) ≤ i - -(133 / 16) / Real.sqrt 2 := by
      have k : eps * |-(133 / 16) / Real.sqrt 2| ≤ eps * 9 := mul_le_mul_of_nonneg_left i4 e0.le
      have := (abs_le.1 i3).1
      norm_num at e1 ⊢
      linarith
    have i6 : -(8.32) ≤ Real.sqrt 2 * i := by
      have k := mul_le_mul_of_nonneg_left i5 (by linarith : 0 ≤ Real.sqrt 2)
      have k2 : Real.sqrt 2 * (i - -(133 / 16) / Real.sqrt 2) = Real.sqrt 2 * i + 133 / 16 := by
        have : Real.sqrt 2 ≠ 0 := by positivity
        field_simp
        ring
      rw [k2] at k
      norm_num at k ⊢
      linarith
    have h := exErf_far i6
    have t2 : (2 : ℝ) ^ (-53 : ℤ) ≤ t := by
      rw [Dbl.add_ok t1]
      refine double_le_fl ⟨1, -53, by norm_num, by norm_num, by simp⟩ ?_
      generalize (2 : ℝ) ^ (-53 : ℤ) = u at h ⊢
      linarith
    rw [Dbl.mul_ok c1]
    refine double_le_fl ⟨1, -54, by norm_num, by norm_num, by simp⟩ ?_
    rw [show (-53 : ℤ) = 1 + -54 by norm_num, zp_add, zpow_one] at t2
    generalize (2 : ℝ) ^ (-54 : ℤ) = u at t2 ⊢
    linarith
  -- the product with the improvement
  have e58 : (2 : ℝ) ^ (-54 : ℤ) = 16 * 2 ^ (-58 : ℤ) := by
    rw [show (-54 : ℤ) = 4 + -58 by norm_num, zp_add]; norm_num
  have u58 := zp (K := ℝ) (-58)
  have a2 : a ≤ -133 * 2 ^ (-58 : ℤ) := by
    rw [Dbl.mul_ok a1]
    refine fl_le_double ⟨-133, -58, by norm_num, by norm_num, by push_cast; rfl⟩ ?_
    rw [e58] at c2
    generalize (2 : ℝ) ^ (-58 : ℤ) = u at c2 ⊢
    linarith
  -- the density
  have p2 : p ≤ 132 * 2 ^ (-58 : ℤ) := by
    unfold Dbl.pdf at p1
    obtain ⟨d, d1, p1⟩ := bind_ok_inv p1
    obtain ⟨x, x1, p1⟩ := bind_ok_inv p1
    obtain ⟨k, k1, p1⟩ := bind_ok_inv p1
    obtain ⟨h, h1, p1⟩ := bind_ok_inv p1
    obtain ⟨e, e2, p1⟩ := bind_ok_inv p1
    have d2 : d = -(133 / 16) := by rw [Dbl.sub_ok d1, sub_zero, fl_of_double hZ]
    have x2 : x = -(133 / 16) := by rw [(Dbl.div_ok x1).2, div_one, d2, fl_of_double hZ]
    have k2 : k = lit cInvSqrt2Pi := by
      rw [(Dbl.div_ok k1).2, div_one]; unfold lit; rw [fl_of_double (fl_isDouble _)]
    have h2 : h = 133 / 32 := by
      rw [Dbl.mul_ok h1, x2, show -(1 / 2) * -(133 / 16) = (133 / 32 : ℝ) by norm_num]
      exact fl_of_double ⟨133, -5, by norm_num, by norm_num, by norm_num⟩
    have e3 : e = -(17689 / 512) := by
      rw [Dbl.mul_ok e2, x2, h2, show 133 / 32 * -(133 / 16) = (-(17689 / 512) : ℝ) by norm_num]
      exact fl_of_double ⟨-17689, -9, by norm_num, by norm_num, by norm_num⟩
    have x3 : Real.exp e ≤ 1.06 / 10 ^ 15 := exp_far (by rw [e3]; norm_num)
    have x4 : exLibm.exp e ≤ 1.07 / 10 ^ 15 := by
      have hr := fl_rel (Real.exp e)
      rw [abs_of_pos (Real.exp_pos _)] at hr
      have hr2 := (abs_le.1 hr).2
      have k : eps * Real.exp e ≤ eps * (1.06 / 10 ^ 15) := mul_le_mul_of_nonneg_left x3 e0.le
      have e5 : (eps : ℝ) ≤ 1.2 / 10 ^ 16 := by unfold eps; norm_num
      show fl (Real.exp e) ≤ _
      norm_num at hr2 k e5 h0 x3 ⊢
      linarith
    have x5 : 0 ≤ exLibm.exp e := fl_nonneg (Real.exp_pos _).le
    have k3 : k ≤ 0.4 := by
      rw [k2]
      have := (abs_le.1 invSqrt2Pi_lit).2
      have := invSqrt2Pi_bounds.1
      have hc : (cInvSqrt2Pi : ℝ) ≤ 0.39895 := by unfold cInvSqrt2Pi; norm_num
      norm_num at hc e1 ⊢
      linarith
    rw [Dbl.mul_ok p1]
    refine fl_le_double ⟨132, -58, by norm_num, by norm_num, by push_cast; rfl⟩ ?_
    have : k * exLibm.exp e ≤ 0.4 * (1.07 / 10 ^ 15) := mul_le_mul k3 x4 x5 (by norm_num)
    refine this.trans ?_
    norm_num
  have b2 : b ≤ 132 * 2 ^ (-58 : ℤ) := by
    rw [Dbl.mul_ok b1, one_mul]
    exact fl_le_double ⟨132, -58, by norm_num, by norm_num, by push_cast; rfl⟩ p2
  rw [Dbl.add_ok vv]
  have : fl (a + b) ≤ -1 * 2 ^ (-58 : ℤ) := by
    refine fl_le_double ⟨-1, -58, by norm_num, by norm_num, by push_cast; rfl⟩ ?_
    generalize (2 : ℝ) ^ (-58 : ℤ) = u at a2 b2 ⊢
    linarith
  generalize (2 : ℝ) ^ (-58 : ℤ) = u at u58 this
  linarith

/-- Three samples, two of them equal: the expected improvement at a point between them. -/
example : ∃ u, Dbl.update Real.sqrt exLibm (exObject (fl (1 / 10 ^ 12)) [0, 0, 1]) false [0, 1, -1] = .ok (some u) ∧
    ∃ a, Dbl.expectedImprovement Real.sqrt exLibm exErf (exObject (fl (1 / 10 ^ 12)) [0, 0, 1]) u (-1) 1 [1] = .ok a := by
  obtain ⟨u, h1, h2⟩ := C126_kriging isSqrt_real exLibm_accurate exLibm_square exErf_accurate exThree_ready (by norm_num)
    (by norm_num) (by norm_num) exThree_cond rfl exThree_outputs.1 exThree_not_tiny false
    (best := -1) (factor := 1) (isDouble_neg isDouble_one)
    (by rw [abs_neg, abs_one]; exact one_le_zpow₀ (by norm_num) (by norm_num)) (by norm_num)
    (one_le_zpow₀ (by norm_num) (by norm_num))
  obtain ⟨a, a1, -⟩ := h2 [1] rfl (fun t ht => by
    simp only [List.mem_singleton] at ht
    subst ht
    exact ⟨isDouble_one, by rw [abs_one]; exact one_le_zpow₀ (by norm_num) (by norm_num)⟩)
  exact ⟨u, h1, a, a1⟩

/-- Minimum 0, estimate -1, deviation 1. -/
example : ∃ v, acqValue exLibm exErf 0 (-1) 1 = .ok v ∧
    |v - Spec.expectedImprovement 0 (-1) 1| ≤ (|(0 : ℝ) - -1| + 1) / 2 ^ 48 := by
  obtain ⟨v, v1, -, -, v3⟩ := C126_value exLibm_accurate exErf_accurate (m := 0) (f := -1) (s := 1) isDouble_zero
    (isDouble_neg isDouble_one) (by rw [abs_zero]; exact (zp _).le)
    (by rw [abs_neg, abs_one]; exact one_le_zpow₀ (by norm_num) (by norm_num)) (by norm_num)
    (one_le_zpow₀ (by norm_num) (by norm_num))
  refine ⟨v, v1, v3 ?_⟩
  have : fl ((1 : ℝ) / 10 ^ 13) ≤ 2 ^ (-1 : ℤ) :=
    fl_le_double ⟨1, -1, by norm_num, by norm_num, by simp⟩ (by norm_num)
  rw [zpow_neg_one] at this
  linarith

example : ∃ p q, Dbl.probabilityLess exErf 0 (-1) 1 = .ok p ∧ Dbl.probabilityGreater exErf 0 (-1) 1 = .ok q := by
  obtain ⟨p, q, h1, h2, -⟩ := C126_probability exErf_accurate (bound := 0) (mu := -1) (s := 1) isDouble_zero
    (isDouble_neg isDouble_one) (by rw [abs_zero]; exact (zp _).le)
    (by rw [abs_neg, abs_one]; exact one_le_zpow₀ (by norm_num) (by norm_num))
    (zpow_le_one_of_nonpos₀ (by norm_num) (by norm_num)) (one_le_zpow₀ (by norm_num) (by norm_num))
  exact ⟨p, q, h1, h2⟩

example : ∃ w, timesProbabilities (1 : ℝ) [1 / 2, 1, 0] = .ok w ∧ |w| ≤ 1 := by
  obtain ⟨w, h1, h2, -⟩ := C126_product [1 / 2, 1, 0] 1 isDouble_one
    (by rw [abs_one]; exact one_le_zpow₀ (by norm_num) (by norm_num)) (by
      intro p hp
      simp only [List.mem_cons, List.not_mem_nil, or_false] at hp
      rcases hp with rfl | rfl | rfl <;> norm_num)
  exact ⟨w, h1, by rwa [abs_one] at h2⟩

end Rodeo
