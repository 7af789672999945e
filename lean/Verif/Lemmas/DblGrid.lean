import Verif.Lemmas.DblSearch

set_option linter.unusedSectionVars false

namespace Rodeo.Dbl

open Spec

variable {K : Type} [Field K] [LinearOrder K] [IsStrictOrderedRing K] [FloorRing K]

theorem eps_pos : (0 : K) < eps := by unfold eps; positivity

theorem div53 (x : K) : x / 2 ^ 53 = eps * x := by unfold eps; ring

theorem tiny_le {d : K} (hd : 2 ^ (-1000 : ℤ) ≤ d) : (2 : K) ^ (-1075 : ℤ) ≤ eps * d := by
  have e : (eps : K) = 2 ^ (-53 : ℤ) := by unfold eps; rw [zpow_neg]; norm_num
  have h1 : (2 : K) ^ (-1075 : ℤ) ≤ 2 ^ (-53 : ℤ) * 2 ^ (-1000 : ℤ) := by
    rw [← zp_add]; exact zp_mono (by norm_num)
  rw [e]
  exact h1.trans (mul_le_mul_of_nonneg_left hd (zp _).le)

/-- Reading a decimal number. -/
theorem lit_err {x d : K} (hd : 2 ^ (-1000 : ℤ) ≤ d) : |fl x - x| ≤ eps * |x| + eps * d := by
  have h := fl_err x
  have h1 := tiny_le hd
  have h2 : 0 ≤ eps * |x| := mul_nonneg eps_pos.le (abs_nonneg _)
  have h3 : (0 : K) ≤ eps * d := (zp _).le.trans h1
  refine h.trans (max_le ?_ (h1.trans (by linarith)))
  rw [div53]; linarith

theorem lit_rel {x : K} (hd : 2 ^ (-1000 : ℤ) ≤ |x|) : |fl x - x| ≤ eps * |x| := by
  refine (fl_err x).trans (max_le ?_ (tiny_le hd))
  rw [div53]

/-- The computed number of steps. -/
theorem steps_near {lb ub dx : K} {m : Nat} (hm : 1 ≤ m) (hub : ub = lb + m * dx)
    (hdx : 2 ^ (-1000 : ℤ) ≤ dx) (hS : |lb| + |ub| ≤ 2 ^ 47 * dx) :
    |fl (fl (fl ub - fl lb) / fl dx) - m| ≤ 1 / 2 := by
  have hdx0 : 0 < dx := (zp _).trans_le hdx
  set S := |lb| + |ub| with hSd
  have hmS : (m : K) * dx ≤ S := by
    have h1 := le_abs_self ub; have h2 := neg_abs_le lb; linarith
  have hm1 : (1 : K) ≤ m := by exact_mod_cast hm
  have hdS : dx ≤ S := by
    have : 1 * dx ≤ m * dx := mul_le_mul_of_nonneg_right hm1 hdx0.le
    linarith
  have hS0 : 0 < S := hdx0.trans_le hdS
  have he := eps_pos (K := K)
  have he1 : (eps : K) ≤ 1 / 2 ^ 53 := le_of_eq rfl
  have heS : 0 < eps * S := mul_pos he hS0
  have hedS : eps * dx ≤ eps * S := mul_le_mul_of_nonneg_left hdS he.le
  have a1 := lit_err (x := lb) hdx
  have a2 := lit_err (x := ub) hdx
  have a3 : eps * |lb| + eps * |ub| = eps * S := by rw [hSd]; ring
  set L := fl lb with hL
  set U := fl ub with hU
  have b1 : |(U - L) - m * dx| ≤ 3 * (eps * S) := by
    have : (U - L) - m * dx = (U - ub) - (L - lb) := by rw [hub]; ring
    rw [this]
    have := abs_sub (U - ub) (L - lb)
    linarith
  have heS1 : 3 * (eps * S) ≤ S := by
    have : eps * S ≤ 1 / 2 ^ 53 * S := mul_le_mul_of_nonneg_right he1 hS0.le
    have h3 : (1 : K) / 2 ^ 53 * S ≤ 1 / 3 * S := mul_le_mul_of_nonneg_right (by norm_num) hS0.le
    linarith
  have hmd0 : 0 ≤ (m : K) * dx := by positivity
  have b2 : |U - L| ≤ 2 * S := by
    have := abs_le.1 b1
    rw [abs_le]; constructor <;> linarith
  have b3 := fl_sub_err (fl_isDouble ub) (fl_isDouble lb)
  rw [← hL, ← hU, div53] at b3
  set D := fl (U - L) with hD
  have b4 : |D - m * dx| ≤ 5 * (eps * S) := by
    have e : D - m * dx = (D - (U - L)) + ((U - L) - m * dx) := by ring
    rw [e]
    refine (abs_add_le _ _).trans ?_
    have : eps * |U - L| ≤ eps * (2 * S) := mul_le_mul_of_nonneg_left b2 he.le
    linarith
  have hadx : |dx| = dx := abs_of_pos hdx0
  have c1 := lit_rel (x := dx) (by rw [hadx]; exact hdx)
  rw [hadx] at c1
  set d := fl dx with hd
  have c2 : dx / 2 ≤ d := by
    have := (abs_le.1 c1).1
    have h3 : eps * dx ≤ 1 / 2 * dx := mul_le_mul_of_nonneg_right (by unfold eps; norm_num) hdx0.le
    linarith
  have hd0 : 0 < d := by linarith
  have c3 : |D - m * d| ≤ 6 * (eps * S) := by
    have e : D - m * d = (D - m * dx) - m * (d - dx) := by ring
    rw [e]
    refine (abs_sub _ _).trans ?_
    rw [abs_mul, abs_of_nonneg (by positivity : (0 : K) ≤ m)]
    have h1 : (m : K) * |d - dx| ≤ m * (eps * dx) := mul_le_mul_of_nonneg_left c1 (by positivity)
    have h2 : (m : K) * (eps * dx) = eps * (m * dx) := by ring
    have h3 : eps * (m * dx) ≤ eps * S := mul_le_mul_of_nonneg_left hmS he.le
    linarith
  have hq : 12 * (eps * S) ≤ 3 / 16 * dx := by
    have : eps * S ≤ eps * (2 ^ 47 * dx) := mul_le_mul_of_nonneg_left hS he.le
    have e : eps * (2 ^ 47 * dx) = 1 / 64 * dx := by unfold eps; ring
    linarith
  have c4 : |D / d - m| ≤ 3 / 16 := by
    have e : D / d - m = (D - m * d) / d := by field_simp
    rw [e, abs_div, abs_of_pos hd0, div_le_iff₀ hd0]
    linarith
  have hmb : (m : K) ≤ 2 ^ 47 := by
    have : (m : K) * dx ≤ 2 ^ 47 * dx := hmS.trans hS
    exact le_of_mul_le_mul_right this hdx0
  have c5 : |D / d| ≤ 2 ^ 47 + 1 := by
    have := abs_le.1 c4
    rw [abs_le]; constructor <;> linarith
  have c6 : |fl (D / d) - D / d| ≤ 1 / 16 := by
    refine (fl_err _).trans (max_le ?_ ?_)
    · refine (div_le_div_of_nonneg_right c5 (by positivity)).trans ?_
      norm_num
    · have : (2 : K) ^ (-1075 : ℤ) ≤ 2 ^ (-4 : ℤ) := zp_mono (by norm_num)
      refine this.trans (le_of_eq ?_)
      rw [zpow_neg]; norm_num
  have e : fl (D / d) - m = (fl (D / d) - D / d) + (D / d - m) := by ring
  rw [e]
  refine (abs_add_le _ _).trans ?_
  linarith

/-- The computed values. -/
theorem value_near {lb ub dx : K} {m k : Nat} (hm : 1 ≤ m) (hk : k ≤ m) (hub : ub = lb + m * dx)
    (hdx : 2 ^ (-1000 : ℤ) ≤ dx) :
    |fl (fl lb + fl ((k : K) * fl dx)) - (lb + k * dx)| ≤ (|lb| + |ub|) / 2 ^ 50 := by
  have hdx0 : 0 < dx := (zp _).trans_le hdx
  set S := |lb| + |ub| with hSd
  have hm1 : (1 : K) ≤ m := by exact_mod_cast hm
  have hkm : (k : K) ≤ m := by exact_mod_cast hk
  have hmS : (m : K) * dx ≤ S := by
    have h1 := le_abs_self ub; have h2 := neg_abs_le lb; linarith
  have hkS : (k : K) * dx ≤ S := (mul_le_mul_of_nonneg_right hkm hdx0.le).trans hmS
  have hk0 : (0 : K) ≤ k := by positivity
  have hkd0 : 0 ≤ (k : K) * dx := by positivity
  have hdS : dx ≤ S := by
    have : 1 * dx ≤ m * dx := mul_le_mul_of_nonneg_right hm1 hdx0.le
    linarith
  have hS0 : 0 < S := hdx0.trans_le hdS
  have he := eps_pos (K := K)
  have heS : 0 < eps * S := mul_pos he hS0
  have heS2 : eps * S ≤ 1 / 100 * S := mul_le_mul_of_nonneg_right (by unfold eps; norm_num) hS0.le
  have hlS : |lb| ≤ S := by have := abs_nonneg ub; linarith
  have a1 : |fl lb - lb| ≤ 2 * (eps * S) := by
    refine (lit_err (x := lb) hdx).trans ?_
    have h1 : eps * |lb| ≤ eps * S := mul_le_mul_of_nonneg_left hlS he.le
    have h2 : eps * dx ≤ eps * S := mul_le_mul_of_nonneg_left hdS he.le
    linarith
  have hadx : |dx| = dx := abs_of_pos hdx0
  have c1 := lit_rel (x := dx) (by rw [hadx]; exact hdx)
  rw [hadx] at c1
  have a2 : |(k : K) * fl dx - k * dx| ≤ eps * S := by
    rw [← mul_sub, abs_mul, abs_of_nonneg hk0]
    have h1 : (k : K) * |fl dx - dx| ≤ k * (eps * dx) := mul_le_mul_of_nonneg_left c1 hk0
    have h2 : (k : K) * (eps * dx) = eps * (k * dx) := by ring
    have h3 : eps * (k * dx) ≤ eps * S := mul_le_mul_of_nonneg_left hkS he.le
    linarith
  have a3 := fl_nat_mul_err k (fl_isDouble dx)
  rw [div53] at a3
  have a4 : |(k : K) * fl dx| ≤ 101 / 100 * S := by
    have := abs_le.1 a2
    rw [abs_le]; constructor <;> linarith
  have a5 : eps * |(k : K) * fl dx| ≤ 101 / 100 * (eps * S) := by
    have := mul_le_mul_of_nonneg_left a4 he.le
    linarith
  set p := fl ((k : K) * fl dx) with hp
  have a6 : |p - k * dx| ≤ 201 / 100 * (eps * S) := by
    have e : p - k * dx = (p - k * fl dx) + (k * fl dx - k * dx) := by ring
    rw [e]
    refine (abs_add_le _ _).trans ?_
    linarith
  have a7 := fl_add_err (fl_isDouble lb) (fl_isDouble ((k : K) * fl dx))
  rw [← hp, div53] at a7
  have a8 : |fl lb + p - (lb + k * dx)| ≤ 401 / 100 * (eps * S) := by
    have e : fl lb + p - (lb + k * dx) = (fl lb - lb) + (p - k * dx) := by ring
    rw [e]
    refine (abs_add_le _ _).trans ?_
    linarith
  have a9 : |fl lb + p| ≤ 3 * S := by
    have h1 := abs_le.1 a8
    have h2 := abs_le.1 hlS
    rw [abs_le]; constructor <;> linarith
  have a10 : eps * |fl lb + p| ≤ 3 * (eps * S) := by
    have := mul_le_mul_of_nonneg_left a9 he.le
    linarith
  have e : fl (fl lb + p) - (lb + k * dx)
      = (fl (fl lb + p) - (fl lb + p)) + (fl lb + p - (lb + k * dx)) := by ring
  rw [e]
  refine (abs_add_le _ _).trans ?_
  have e2 : S / 2 ^ 50 = 8 * (eps * S) := by unfold eps; ring
  rw [e2]
  linarith

end Rodeo.Dbl
