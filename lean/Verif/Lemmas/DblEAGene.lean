import Verif.Lemmas.DblEARun

/-! # The normally distributed gene of a child in double arithmetic -/

set_option linter.unusedSectionVars false

namespace Rodeo.DblEA
open Spec Dbl

variable {K : Type} [Field K] [LinearOrder K] [IsStrictOrderedRing K] [FloorRing K]

theorem two_steps {e h D d q : K} {c : K} (he0 : 0 ≤ e) (he : e ≤ 1 / 1000) (hc : 0 ≤ c) (hD : 0 ≤ D)
    (h1 : |d - D| ≤ e * D) (h2 : |q - d * c| ≤ e * (d * c) + h) :
    |q - D * c| ≤ (21 / 10 * e) * (D * c) + h := by
  rw [abs_le] at h1 h2 ⊢
  have hDc : 0 ≤ D * c := mul_nonneg hD hc
  have k1 : d * c ≤ (1 + e) * (D * c) := by nlinarith
  have k2 : (1 - e) * (D * c) ≤ d * c := by nlinarith
  have k3 : e * (d * c) ≤ e * ((1 + e) * (D * c)) := mul_le_mul_of_nonneg_left k1 he0
  have k4 : e * (e * (D * c)) ≤ 1 / 1000 * (e * (D * c)) :=
    mul_le_mul_of_nonneg_right he (mul_nonneg he0 hDc)
  have k5 : 0 ≤ e * (D * c) := mul_nonneg he0 hDc
  constructor <;> nlinarith

theorem gene_alg {e h z σ μ q m t r : K} (he0 : 0 ≤ e) (he : e ≤ 1 / 1000) (hh : 0 ≤ h) (hσ : 0 ≤ σ)
    (h1 : |q - σ| ≤ 21 / 10 * e * σ + h) (h2 : |m - μ| ≤ 21 / 10 * e * |μ| + h)
    (h3 : |t - z * q| ≤ e * |z * q| + h) (h4 : |r - (t + m)| ≤ e * |t + m|) :
    |r - (z * σ + μ)| ≤ 5 * e * (|z| * σ + |μ|) + (2 * |z| + 3) * h := by
  have hz := abs_nonneg z
  have hμ := abs_nonneg μ
  have hzσ : 0 ≤ |z| * σ := mul_nonneg hz hσ
  have hzh : 0 ≤ |z| * h := mul_nonneg hz hh
  -- the scaled draw
  have a1 : |z * q - z * σ| ≤ |z| * (21 / 10 * e * σ + h) := by
    rw [← mul_sub, abs_mul]; exact mul_le_mul_of_nonneg_left h1 hz
  have a2 : |z * q| ≤ |z| * σ + |z| * (21 / 10 * e * σ + h) := by
    have : |z * σ| = |z| * σ := by rw [abs_mul, abs_of_nonneg hσ]
    have h5 := abs_add_le (z * q - z * σ) (z * σ)
    rw [sub_add_cancel, this] at h5
    linarith
  have a3 : e * |z * q| ≤ e * (|z| * σ + |z| * (21 / 10 * e * σ + h)) := mul_le_mul_of_nonneg_left a2 he0
  have a4 : |t - z * σ| ≤ |t - z * q| + |z * q - z * σ| := abs_sub_le _ _ _
  have b1 : 0 ≤ e * (|z| * σ) := mul_nonneg he0 hzσ
  have b2 : e * (e * (|z| * σ)) ≤ 1 / 1000 * (e * (|z| * σ)) := mul_le_mul_of_nonneg_right he b1
  have b3 : e * (|z| * h) ≤ 1 / 1000 * (|z| * h) := mul_le_mul_of_nonneg_right he hzh
  have a5 : |t - z * σ| ≤ 32 / 10 * (e * (|z| * σ)) + 101 / 100 * (|z| * h) + h := by
    nlinarith
  -- the sum
  have c1 : |t + m - (z * σ + μ)| ≤ |t - z * σ| + |m - μ| := by
    have := abs_add_le (t - z * σ) (m - μ)
    rwa [show t - z * σ + (m - μ) = t + m - (z * σ + μ) by ring] at this
  have b4 : 0 ≤ e * |μ| := mul_nonneg he0 hμ
  have c2 : |t + m - (z * σ + μ)| ≤ 32 / 10 * (e * (|z| * σ)) + 101 / 100 * (|z| * h) + 2 * h +
      21 / 10 * (e * |μ|) := by linarith
  have c3 : |z * σ + μ| ≤ |z| * σ + |μ| := by
    have := abs_add_le (z * σ) μ
    rwa [abs_mul, abs_of_nonneg hσ] at this
  have c4 : |t + m| ≤ |t + m - (z * σ + μ)| + |z * σ + μ| := by
    have := abs_add_le (t + m - (z * σ + μ)) (z * σ + μ)
    rwa [sub_add_cancel] at this
  have c5 : |r - (z * σ + μ)| ≤ |r - (t + m)| + |t + m - (z * σ + μ)| := abs_sub_le _ _ _
  have c6 : e * |t + m| ≤ e * (|t + m - (z * σ + μ)| + (|z| * σ + |μ|)) :=
    mul_le_mul_of_nonneg_left (by linarith) he0
  have c7 : e * |t + m - (z * σ + μ)| ≤ 1 / 1000 * |t + m - (z * σ + μ)| :=
    mul_le_mul_of_nonneg_right he (abs_nonneg _)
  nlinarith

theorem half_le {x : K} (h : 0 ≤ x) : x / 2 ≤ x := by linarith

theorem low_alg {a D d c : K} (hc : 0 < c) (ha : 2 * c ≤ D) (h1 : D - d ≤ a * D) (h2 : a * D ≤ 1 / 1000 * D) :
    c ≤ d := by linarith

theorem low_alg2 {d c : K} (hc : 0 < c) (h : 8 * c ≤ d) : c ≤ d / 6 := by linarith

theorem eps_small : (eps : K) ≤ 1 / 1000 := by unfold eps; norm_num

theorem isDouble_zpow {n : ℤ} (h : -1074 ≤ n) : IsDouble (2 ^ n : K) := ⟨1, n, by norm_num, h, by simp⟩

/-- The draw of a gene returns, and up to rounding it is the mean of the parents' genes plus `z` times a sixth
of their distance. -/
theorem normalDraw_total {xs xe z : K} (hs : IsDouble xs) (he : IsDouble xe) (_hz : IsDouble z)
    (bs : |xs| ≤ 2 ^ (1000 : ℤ)) (be : |xe| ≤ 2 ^ (1000 : ℤ)) (bz : |z| ≤ 2 ^ (10 : ℤ))
    (hd : xe = xs ∨ 2 ^ (-1000 : ℤ) ≤ |xe - xs|) :
    ∃ r, normalDraw xs xe z = .ok r ∧ IsDouble r ∧
      |r - (z * (if xe = xs then 1 else |xe - xs| / 6) + (xe + xs) / 2)| ≤
        5 * eps * (|z| * (if xe = xs then 1 else |xe - xs| / 6) + |(xe + xs) / 2|) + (2 * |z| + 3) * eta := by
  have e0 := eps_pos (K := K)
  have h0 := eta_pos (K := K)
  have p1001 : (2 : K) ^ (1000 : ℤ) + 2 ^ (1000 : ℤ) = 2 ^ (1001 : ℤ) := by
    rw [show (1001 : ℤ) = 1000 + 1 by norm_num, zp_add, zpow_one]; ring
  -- distance
  have bD : |xe - xs| ≤ 2 ^ (1001 : ℤ) := by
    rw [← p1001]
    exact (abs_sub xe xs).trans (add_le_add be bs)
  have eD : Dbl.sub xe xs = .ok (fl (xe - xs)) := dbl_of_le (n := 1001) (by norm_num) (by norm_num) bD
  have rD : |fl (xe - xs) - (xe - xs)| ≤ eps * |xe - xs| := by
    have := fl_add_rel he (isDouble_neg hs)
    rwa [← sub_eq_add_neg] at this
  have bd : |fl (xe - xs)| ≤ 2 ^ (1001 : ℤ) := fl_abs_le (by norm_num) bD
  have six : ∀ {x : K}, 0 ≤ x → x / 6 ≤ x := by intro x hx; linarith
  have bq0 : |(|fl (xe - xs)| / 6)| ≤ 2 ^ (1001 : ℤ) := by
    rw [abs_of_nonneg (by positivity)]
    exact (six (abs_nonneg _)).trans bd
  have eq : Dbl.div |fl (xe - xs)| 6 = .ok (fl (|fl (xe - xs)| / 6)) := by
    unfold Dbl.div
    rw [if_neg (by norm_num)]
    exact dbl_of_le (n := 1001) (by norm_num) (by norm_num) bq0
  have rq := fl_rel (|fl (xe - xs)| / 6)
  have bq := fl_abs_le (by norm_num) bq0
  -- mean
  have bS : |xe + xs| ≤ 2 ^ (1001 : ℤ) := by
    rw [← p1001]
    exact (abs_add_le xe xs).trans (add_le_add be bs)
  have eS : Dbl.add xe xs = .ok (fl (xe + xs)) := dbl_of_le (n := 1001) (by norm_num) (by norm_num) bS
  have rS := fl_add_rel he hs
  have bs' : |fl (xe + xs)| ≤ 2 ^ (1001 : ℤ) := fl_abs_le (by norm_num) bS
  have bm0 : |fl (xe + xs) / 2| ≤ 2 ^ (1001 : ℤ) := by
    rw [abs_div, abs_of_pos (two_pos : (0 : K) < 2)]
    exact (half_le (abs_nonneg _)).trans bs'
  have em : Dbl.div (fl (xe + xs)) 2 = .ok (fl (fl (xe + xs) / 2)) := by
    unfold Dbl.div
    rw [if_neg (by norm_num)]
    exact dbl_of_le (n := 1001) (by norm_num) (by norm_num) bm0
  have rm := fl_rel (fl (xe + xs) / 2)
  have bm := fl_abs_le (by norm_num) bm0
  have hmean : |fl (fl (xe + xs) / 2) - (xe + xs) / 2| ≤ 21 / 10 * eps * |(xe + xs) / 2| + eta := by
    have a1 : |fl (xe + xs) / 2 - (xe + xs) / 2| ≤ eps * |(xe + xs) / 2| := by
      rw [← sub_div, abs_div, abs_div, abs_of_pos (two_pos : (0 : K) < 2)]
      linarith
    have a2 : |fl (xe + xs) / 2| ≤ |fl (xe + xs) / 2 - (xe + xs) / 2| + |(xe + xs) / 2| := by
      have := abs_add_le (fl (xe + xs) / 2 - (xe + xs) / 2) ((xe + xs) / 2)
      rwa [sub_add_cancel] at this
    have a3 := abs_sub_le (fl (fl (xe + xs) / 2)) (fl (xe + xs) / 2) ((xe + xs) / 2)
    have a4 : eps * |fl (xe + xs) / 2| ≤ eps * (eps * |(xe + xs) / 2| + |(xe + xs) / 2|) :=
      mul_le_mul_of_nonneg_left (by linarith) e0.le
    have a5 : eps * (eps * |(xe + xs) / 2|) ≤ 1 / 1000 * (eps * |(xe + xs) / 2|) :=
      mul_le_mul_of_nonneg_right eps_small (mul_nonneg e0.le (abs_nonneg _))
    have a6 := mul_nonneg e0.le (abs_nonneg ((xe + xs) / 2))
    nlinarith
  -- standard deviation
  obtain ⟨q, hq, hq0, hqb, hqe⟩ : ∃ q : K, q = (if fl (|fl (xe - xs)| / 6) = 0 then 1 else
      fl (|fl (xe - xs)| / 6)) ∧ IsDouble q ∧ |q| ≤ 2 ^ (1001 : ℤ) ∧
      |q - (if xe = xs then 1 else |xe - xs| / 6)| ≤
        21 / 10 * eps * (if xe = xs then 1 else |xe - xs| / 6) + eta := by
    refine ⟨_, rfl, ?_⟩
    by_cases hx : xe = xs
    · have z0 : fl (|fl (xe - xs)| / 6) = 0 := by
        rw [hx, sub_self, fl_of_double isDouble_zero, abs_zero, zero_div, fl_of_double isDouble_zero]
      rw [if_pos z0, if_pos hx]
      refine ⟨isDouble_one, ?_, ?_⟩
      · rw [abs_one]
        have := zp_mono (K := K) (a := 0) (b := 1001) (by norm_num)
        rwa [zpow_zero] at this
      · rw [sub_self, abs_zero]
        positivity
    · have hd' := hd.resolve_left hx
      have low : (2 : K) ^ (-1001 : ℤ) ≤ |fl (xe - xs)| := by
        have e1 : (2 : K) ^ (-1000 : ℤ) = 2 * 2 ^ (-1001 : ℤ) := by
          rw [show (-1000 : ℤ) = 1 + (-1001) by norm_num, zp_add, zpow_one]
        have a1 := abs_sub_abs_le_abs_sub (xe - xs) (fl (xe - xs))
        rw [abs_sub_comm (xe - xs)] at a1
        have a2 : eps * |xe - xs| ≤ 1 / 1000 * |xe - xs| :=
          mul_le_mul_of_nonneg_right eps_small (abs_nonneg _)
        exact low_alg (zp _) (e1 ▸ hd') (a1.trans rD) a2
      have low2 : (2 : K) ^ (-1004 : ℤ) ≤ |fl (xe - xs)| / 6 := by
        have e1 : (2 : K) ^ (-1001 : ℤ) = 8 * 2 ^ (-1004 : ℤ) := by
          rw [show (-1001 : ℤ) = 3 + (-1004) by norm_num, zp_add]; norm_num
        exact low_alg2 (zp _) (e1 ▸ low)
      have low3 := double_le_fl (isDouble_zpow (K := K) (n := -1004) (by norm_num)) low2
      have ne : fl (|fl (xe - xs)| / 6) ≠ 0 := (lt_of_lt_of_le (zp (K := K) (-1004)) low3).ne'
      rw [if_neg ne, if_neg hx]
      refine ⟨fl_isDouble _, bq, ?_⟩
      have k1 : |(|fl (xe - xs)| - |xe - xs|)| ≤ eps * |xe - xs| := (abs_abs_sub_abs_le _ _).trans rD
      rw [abs_of_nonneg (a := |fl (xe - xs)| / 6) (by positivity)] at rq
      have k2 := two_steps (c := 1 / 6) e0.le eps_small (by norm_num) (abs_nonneg _) k1
        (q := fl (|fl (xe - xs)| / 6)) (h := eta) (by rw [mul_one_div]; exact rq)
      rwa [mul_one_div] at k2
  -- the draw
  have bt0 : |z * q| ≤ 2 ^ (1011 : ℤ) := by
    rw [abs_mul, show (1011 : ℤ) = 10 + 1001 by norm_num, zp_add]
    exact mul_le_mul bz hqb (abs_nonneg _) (zp _).le
  have et : Dbl.mul z q = .ok (fl (z * q)) := dbl_of_le (n := 1011) (by norm_num) (by norm_num) bt0
  have rt := fl_rel (z * q)
  have bt := fl_abs_le (by norm_num) bt0
  have br0 : |fl (z * q) + fl (fl (xe + xs) / 2)| ≤ 2 ^ (1012 : ℤ) := by
    have a1 := abs_add_le (fl (z * q)) (fl (fl (xe + xs) / 2))
    have a2 := zp_mono (K := K) (a := 1001) (b := 1011) (by norm_num)
    have a3 : (2 : K) ^ (1012 : ℤ) = 2 ^ (1011 : ℤ) + 2 ^ (1011 : ℤ) := by
      rw [show (1012 : ℤ) = 1011 + 1 by norm_num, zp_add, zpow_one]; ring
    rw [a3]
    exact a1.trans (add_le_add bt (bm.trans a2))
  have er : Dbl.add (fl (z * q)) (fl (fl (xe + xs) / 2)) = .ok (fl (fl (z * q) + fl (fl (xe + xs) / 2))) :=
    dbl_of_le (n := 1012) (by norm_num) (by norm_num) br0
  have rr := fl_add_rel (fl_isDouble (z * q)) (fl_isDouble (fl (xe + xs) / 2))
  refine ⟨_, ?_, fl_isDouble _, gene_alg e0.le eps_small h0.le ?_ hqe hmean rt rr⟩
  · unfold normalDraw
    refine bind_eq eD (bind_eq eq (bind_eq eS (bind_eq em (bind_eq ?_ er))))
    rw [← hq]; exact et
  · split_ifs
    · exact zero_le_one
    · positivity

end Rodeo.DblEA
