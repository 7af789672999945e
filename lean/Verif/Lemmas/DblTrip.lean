import Verif.Lemmas.DblGrid

set_option linter.unusedSectionVars false

namespace Rodeo.Dbl

open Spec

variable {K : Type} [Field K] [LinearOrder K] [IsStrictOrderedRing K] [FloorRing K]

theorem fl_nonneg {x : K} (h : 0 ≤ x) : 0 ≤ fl x := double_le_fl isDouble_zero h

theorem fl_abs_le {x : K} {n : ℤ} (hn : -1074 ≤ n) (h : |x| ≤ 2 ^ n) : |fl x| ≤ 2 ^ n := by
  have hd : IsDouble ((2 : K) ^ n) := ⟨1, n, by norm_num, hn, by simp⟩
  have := abs_le.1 h
  exact abs_le.2 ⟨double_le_fl (isDouble_neg hd) this.1, fl_le_double hd this.2⟩

theorem dbl_of_le {x : K} {n : ℤ} (hn : -1074 ≤ n) (hn2 : n ≤ 1023) (h : |x| ≤ 2 ^ n) :
    dbl x = .ok (fl x) := by
  unfold dbl
  rw [if_pos]
  refine (fl_abs_le hn h).trans_lt ?_
  have : (2 : K) ^ n < 2 ^ (1024 : ℤ) := zpow_lt_zpow_right₀ (by norm_num) (by omega)
  rw [← zp_nat]
  exact_mod_cast this

/-- The error of one rounded operation with nonnegative result. -/
theorem fl_err_pos {x : K} (h : 0 ≤ x) : |fl x - x| ≤ eps * x + 2 ^ (-1075 : ℤ) := by
  refine (fl_err x).trans (max_le ?_ ?_)
  · rw [div53, abs_of_nonneg h]
    have := zp (K := K) (-1075); linarith
  · have := mul_nonneg (eps_pos (K := K)).le h; linarith

theorem trip_le {A D x : K} {k : Nat} (hk : k ≤ 6) (hD : 0 < D) (hA : A ≤ D)
    (h : |x - A| ≤ 2 * k * (eps * D)) : x ≤ 3 / 2 * D := by
  have heD : 0 < eps * D := mul_pos eps_pos hD
  have hk' : (k : K) ≤ 6 := by exact_mod_cast hk
  have h12 : 2 * (k : K) * (eps * D) ≤ 12 * (eps * D) :=
    mul_le_mul_of_nonneg_right (by linarith) heD.le
  have he : 12 * (eps * D) ≤ D / 2 := by
    have e : (eps : K) * D = 1 / 2 ^ 53 * D := rfl
    have : (1 : K) / 2 ^ 53 * D ≤ 1 / 24 * D := mul_le_mul_of_nonneg_right (by norm_num) hD.le
    rw [e]; linarith
  have := (abs_le.1 h).2
  linarith

/-- One step of the round trip: the value `y` with the scale `c` becomes `fl y * c`. -/
theorem trip_step {A D y c : K} {k : Nat} (hk : k ≤ 6) (hc : 0 ≤ c) (hD : 0 < D) (hy : 0 ≤ y)
    (hA : A ≤ D) (h : |y * c - A| ≤ 2 * k * (eps * D))
    (hη : 2 ^ (-1075 : ℤ) * c ≤ eps * D / 2) : |fl y * c - A| ≤ 2 * (k + 1 : Nat) * (eps * D) := by
  have h1 := fl_err_pos hy
  have h2 : |fl y * c - y * c| ≤ eps * (y * c) + 2 ^ (-1075 : ℤ) * c := by
    rw [← sub_mul, abs_mul, abs_of_nonneg hc]
    calc |fl y - y| * c ≤ (eps * y + 2 ^ (-1075 : ℤ)) * c := mul_le_mul_of_nonneg_right h1 hc
      _ = _ := by ring
  have h3 : eps * (y * c) ≤ 3 / 2 * (eps * D) := by
    have := mul_le_mul_of_nonneg_left (trip_le hk hD hA h) (eps_pos (K := K)).le
    linarith
  have e : fl y * c - A = (fl y * c - y * c) + (y * c - A) := by ring
  rw [e]
  refine (abs_add_le _ _).trans ?_
  push_cast
  linarith

/-- Normalizing and denormalizing one value. -/
theorem trip {l h v : K} {n : Nat} (hl : IsDouble l) (hh : IsDouble h) (hlv : l ≤ v)
    (hvh : v ≤ h) (hn : 0 < n) (hn32 : n < 2 ^ 32) (hD : 2 ^ (-900 : ℤ) ≤ h - l)
    (hbig : |l| + |h| ≤ 2 ^ (1000 : ℤ)) :
    ∃ f a p d z t m r, div 1 (n : K) = .ok f ∧ sub v l = .ok a ∧ mul f a = .ok p ∧ sub h l = .ok d ∧
      div p d = .ok z ∧ mul z (n : K) = .ok t ∧ mul t d = .ok m ∧ add m l = .ok r ∧
      |r - v| ≤ 14 * eps * (|l| + |h|) ∧ (v = l → r = l) := by
  set D := h - l with hDd
  have hD0 : 0 < D := (zp _).trans_le hD
  set S := |l| + |h| with hS
  have hDS : D ≤ S := by have := le_abs_self h; have := neg_abs_le l; linarith
  have hn1 : (1 : K) ≤ n := by exact_mod_cast hn
  have hn0 : (0 : K) < n := by linarith
  have hnb : (n : K) ≤ 2 ^ (32 : ℤ) := by
    have : (n : K) ≤ ((2 ^ 32 : Nat) : K) := by exact_mod_cast hn32.le
    refine this.trans (le_of_eq ?_)
    norm_num
  have he := eps_pos (K := K)
  have hepsv : (eps : K) = 2 ^ (-53 : ℤ) := by unfold eps; rw [zpow_neg]; norm_num
  have heD : 0 < eps * D := mul_pos he hD0
  -- the tiny errors
  have hη : ∀ c : K, c ≤ 2 ^ (40 : ℤ) → (2 : K) ^ (-1075 : ℤ) * c ≤ eps * D / 2 := by
    intro c hc
    have h1 : (2 : K) ^ (-1075 : ℤ) * c ≤ 2 ^ (-1075 : ℤ) * 2 ^ (40 : ℤ) :=
      mul_le_mul_of_nonneg_left hc (zp _).le
    have h2 : (2 : K) ^ (-1075 : ℤ) * 2 ^ (40 : ℤ) ≤ 2 ^ (-53 : ℤ) * 2 ^ (-900 : ℤ) * 2 ^ (-1 : ℤ) := by
      rw [← zp_add, ← zp_add, ← zp_add]; exact zp_mono (by norm_num)
    have h3 : (2 : K) ^ (-53 : ℤ) * 2 ^ (-900 : ℤ) * 2 ^ (-1 : ℤ) ≤ eps * D / 2 := by
      rw [hepsv, zpow_neg_one, ← div_eq_mul_inv]
      have := mul_le_mul_of_nonneg_left hD (zp (K := K) (-53)).le
      linarith
    exact h1.trans (h2.trans h3)
  have hηD : ∀ c : K, c ≤ 2 ^ (40 : ℤ) * D → (2 : K) ^ (-1075 : ℤ) * c ≤ eps * D / 2 := by
    intro c hc
    have h1 : (2 : K) ^ (-1075 : ℤ) * c ≤ 2 ^ (-1075 : ℤ) * (2 ^ (40 : ℤ) * D) :=
      mul_le_mul_of_nonneg_left hc (zp _).le
    have h2 : (2 : K) ^ (-1075 : ℤ) * 2 ^ (40 : ℤ) ≤ 2 ^ (-53 : ℤ) * 2 ^ (-1 : ℤ) := by
      rw [← zp_add, ← zp_add]; exact zp_mono (by norm_num)
    have h3 := mul_le_mul_of_nonneg_right h2 hD0.le
    rw [← hepsv, zpow_neg_one] at h3
    have e : (2 : K) ^ (-1075 : ℤ) * (2 ^ (40 : ℤ) * D) = 2 ^ (-1075 : ℤ) * 2 ^ (40 : ℤ) * D := by ring
    rw [e] at h1
    refine h1.trans (h3.trans (le_of_eq ?_))
    ring
  have h40 : (1 : K) ≤ 2 ^ (40 : ℤ) := by norm_num
  have hn40 : (n : K) ≤ 2 ^ (40 : ℤ) := hnb.trans (zp_mono (by norm_num))
  have hDb : D ≤ 2 ^ (1000 : ℤ) := hDS.trans hbig
  -- 1 / n
  have hin0 : (0 : K) < 1 / n := by positivity
  have hin1 : (1 : K) / n ≤ 1 := by rw [div_le_one hn0]; exact hn1
  have hinb : (2 : K) ^ (-1000 : ℤ) ≤ |1 / (n : K)| := by
    rw [abs_of_pos hin0]
    refine (zp_mono (K := K) (a := -1000) (b := -32) (by norm_num)).trans ?_
    rw [zpow_neg, ← one_div]
    exact one_div_le_one_div_of_le hn0 hnb
  have hf := lit_rel hinb
  rw [abs_of_pos hin0] at hf
  have hf1 : div 1 (n : K) = .ok (fl (1 / (n : K))) := by
    unfold div
    rw [if_neg hn0.ne']
    refine dbl_of_le (n := 0) (by norm_num) (by norm_num) ?_
    rw [abs_of_pos hin0, zpow_zero]; exact hin1
  have hfle : fl (1 / (n : K)) ≤ 1 := fl_le_double isDouble_one hin1
  have hf0 : 0 ≤ fl (1 / (n : K)) := fl_nonneg hin0.le
  set f := fl (1 / (n : K)) with hfd
  have hfn : |f * n - 1| ≤ eps := by
    have e : f * n - 1 = (f - 1 / n) * n := by field_simp
    rw [e, abs_mul, abs_of_pos hn0]
    calc |f - 1 / n| * n ≤ eps * (1 / n) * n := mul_le_mul_of_nonneg_right hf hn0.le
      _ = eps := by field_simp
  -- v - l
  set A := v - l with hA
  have hA0 : 0 ≤ A := by linarith
  have hAD : A ≤ D := by linarith
  have hAb : |A| ≤ 2 ^ (1000 : ℤ) := by rw [abs_of_nonneg hA0]; exact hAD.trans hDb
  have ha1 : sub v l = .ok (fl A) := dbl_of_le (by norm_num) (by norm_num) hAb
  have ha0 : 0 ≤ fl A := fl_nonneg hA0
  have sa : |fl A * 1 - A| ≤ 2 * (0 + 1 : Nat) * (eps * D) :=
    trip_step (by norm_num) (by norm_num) hD0 hA0 hAD (by simp) (hη 1 h40)
  rw [mul_one] at sa
  have hab := fl_abs_le (K := K) (n := 1000) (by norm_num) hAb
  have ha32 := trip_le (by norm_num) hD0 hAD sa
  set a := fl A with had
  -- f * a
  have sp0 : |f * a * n - A| ≤ 2 * (2 : Nat) * (eps * D) := by
    have e : f * a * n - A = (f * n - 1) * a + (a - A) := by ring
    rw [e]
    refine (abs_add_le _ _).trans ?_
    rw [abs_mul, abs_of_nonneg ha0]
    have : |f * n - 1| * a ≤ eps * (3 / 2 * D) := mul_le_mul hfn ha32 ha0 he.le
    push_cast at sa ⊢
    linarith
  have hfa0 : 0 ≤ f * a := mul_nonneg hf0 ha0
  have hfa : |f * a| ≤ 2 ^ (1000 : ℤ) := by
    rw [abs_of_nonneg hfa0]
    have : f * a ≤ 1 * a := mul_le_mul_of_nonneg_right hfle ha0
    rw [abs_of_nonneg ha0] at hab
    linarith
  have hp1 : mul f a = .ok (fl (f * a)) := dbl_of_le (by norm_num) (by norm_num) hfa
  have hp0 : 0 ≤ fl (f * a) := fl_nonneg hfa0
  have sp : |fl (f * a) * n - A| ≤ 2 * (2 + 1 : Nat) * (eps * D) :=
    trip_step (by norm_num) hn0.le hD0 hfa0 hAD sp0 (hη _ hn40)
  set p := fl (f * a) with hpd
  -- h - l
  have hd1 : sub h l = .ok (fl D) := by
    refine dbl_of_le (n := 1000) (by norm_num) (by norm_num) ?_
    rw [← hDd, abs_of_pos hD0]; exact hDb
  have hde := fl_sub_err hh hl
  rw [← hDd, div53, abs_of_pos hD0] at hde
  have heh : eps * D ≤ 1 / 2 * D := mul_le_mul_of_nonneg_right (by unfold eps; norm_num) hD0.le
  have hdlo : D / 2 ≤ fl D := by have := (abs_le.1 hde).1; linarith
  have hdhi : fl D ≤ 2 * D := by have := (abs_le.1 hde).2; linarith
  set d := fl D with hdd
  have hd0 : 0 < d := by linarith
  have hdn0 : 0 < d * n := mul_pos hd0 hn0
  have hsmall : ∀ x : K, x * d ≤ 3 / 2 * D → x ≤ 2 ^ (2 : ℤ) := by
    intro x hx
    have h4 : (2 : K) ^ (2 : ℤ) = 4 := by norm_num
    rw [h4]
    by_contra hc
    push Not at hc
    have : 4 * d < x * d := mul_lt_mul_of_pos_right hc hd0
    linarith
  -- p / d
  have hz00 : 0 ≤ p / d := div_nonneg hp0 hd0.le
  have e1 : p / d * (d * n) = p * n := by field_simp
  have hz1 : div p d = .ok (fl (p / d)) := by
    unfold div
    rw [if_neg hd0.ne']
    refine dbl_of_le (n := 2) (by norm_num) (by norm_num) ?_
    rw [abs_of_nonneg hz00]
    refine hsmall _ ?_
    have h1 := trip_le (by norm_num) hD0 hAD sp
    have h2 : p / d * d = p := by field_simp
    have h3 : p * 1 ≤ p * n := mul_le_mul_of_nonneg_left hn1 hp0
    rw [h2]; linarith
  have hz0 : 0 ≤ fl (p / d) := fl_nonneg hz00
  have hdn : d * n ≤ 2 ^ (40 : ℤ) * D := by
    calc d * n ≤ 2 * D * 2 ^ (32 : ℤ) := mul_le_mul hdhi hnb hn0.le (by linarith)
      _ ≤ 2 ^ (40 : ℤ) * D := by
        have : (2 : K) * 2 ^ (32 : ℤ) ≤ 2 ^ (40 : ℤ) := by norm_num
        have := mul_le_mul_of_nonneg_right this hD0.le
        linarith
  have sz : |fl (p / d) * (d * n) - A| ≤ 2 * (3 + 1 : Nat) * (eps * D) :=
    trip_step (by norm_num) hdn0.le hD0 hz00 hAD (by rw [e1]; exact sp) (hηD _ hdn)
  set z := fl (p / d) with hzd
  -- z * n
  have e2 : z * n * d = z * (d * n) := by ring
  have hzn0 : 0 ≤ z * n := mul_nonneg hz0 hn0.le
  have ht1 : mul z (n : K) = .ok (fl (z * n)) := by
    refine dbl_of_le (n := 2) (by norm_num) (by norm_num) ?_
    rw [abs_of_nonneg hzn0]
    refine hsmall _ ?_
    rw [e2]
    exact trip_le (by norm_num) hD0 hAD sz
  have hd40 : d ≤ 2 ^ (40 : ℤ) * D := by
    have := mul_le_mul_of_nonneg_left hn1 hd0.le
    linarith
  have st : |fl (z * n) * d - A| ≤ 2 * (4 + 1 : Nat) * (eps * D) :=
    trip_step (by norm_num) hd0.le hD0 hzn0 hAD (by rw [e2]; exact sz) (hηD _ hd40)
  have ht0 : 0 ≤ fl (z * n) := fl_nonneg hzn0
  set t := fl (z * n) with htd
  -- t * d
  have htd0 : 0 ≤ t * d := mul_nonneg ht0 hd0.le
  have e1001 : (2 : K) ^ (1001 : ℤ) = 2 ^ (1000 : ℤ) + 2 ^ (1000 : ℤ) := by
    have : (1001 : ℤ) = 1000 + 1 := by norm_num
    rw [this, zp_add, zpow_one]; ring
  have htd2 := trip_le (by norm_num) hD0 hAD st
  have hm1 : mul t d = .ok (fl (t * d)) := by
    refine dbl_of_le (n := 1001) (by norm_num) (by norm_num) ?_
    rw [abs_of_nonneg htd0, e1001]
    exact htd2.trans ((by linarith : 3 / 2 * D ≤ D + D).trans (add_le_add hDb hDb))
  have sm : |fl (t * d) * 1 - A| ≤ 2 * (5 + 1 : Nat) * (eps * D) :=
    trip_step (by norm_num) (by norm_num) hD0 htd0 hAD (by rw [mul_one]; exact st) (hη 1 h40)
  rw [mul_one] at sm
  have hm0 : 0 ≤ fl (t * d) := fl_nonneg htd0
  have hmd : IsDouble (fl (t * d)) := fl_isDouble _
  set m := fl (t * d) with hmdd
  -- m + l
  have hvS : |v| ≤ S := by
    rw [abs_le]
    have := neg_abs_le l; have := le_abs_self h; have := abs_nonneg l; have := abs_nonneg h
    constructor <;> linarith
  have hS0 : 0 < S := hD0.trans_le hDS
  have heS : 12 * (eps * D) ≤ S / 2 := by
    have e : (eps : K) * D = 1 / 2 ^ 53 * D := rfl
    have : (1 : K) / 2 ^ 53 * D ≤ 1 / 24 * D := mul_le_mul_of_nonneg_right (by norm_num) hD0.le
    rw [e]; linarith
  have hml : |m + l - v| ≤ 12 * (eps * D) := by
    have : m + l - v = m - A := by rw [hA]; ring
    rw [this]
    push_cast at sm
    linarith
  have hml2 : |m + l| ≤ 3 / 2 * S := by
    have h1 := abs_le.1 hml
    have h2 := abs_le.1 hvS
    rw [abs_le]
    constructor <;> linarith
  have hr1 : add m l = .ok (fl (m + l)) := by
    refine dbl_of_le (n := 1001) (by norm_num) (by norm_num) ?_
    rw [e1001]
    exact hml2.trans ((by linarith : 3 / 2 * S ≤ S + S).trans (add_le_add hbig hbig))
  have hre := fl_add_err hmd hl
  rw [div53] at hre
  refine ⟨f, a, p, d, z, t, m, fl (m + l), hf1, ha1, hp1, hd1, hz1, ht1, hm1, hr1, ?_, ?_⟩
  · have e : fl (m + l) - v = (fl (m + l) - (m + l)) + (m + l - v) := by ring
    rw [e]
    refine (abs_add_le _ _).trans ?_
    have h1 : eps * |m + l| ≤ eps * (3 / 2 * S) := mul_le_mul_of_nonneg_left hml2 he.le
    have h2 : eps * D ≤ eps * S := mul_le_mul_of_nonneg_left hDS he.le
    have h3 : 0 < eps * S := mul_pos he hS0
    linarith
  · intro hvl
    have z1 : A = 0 := by rw [hA, hvl, sub_self]
    have z2 : a = 0 := by rw [had, z1, fl_zero]
    have z3 : p = 0 := by rw [hpd, z2, mul_zero, fl_zero]
    have z4 : z = 0 := by rw [hzd, z3, zero_div, fl_zero]
    have z5 : t = 0 := by rw [htd, z4, zero_mul, fl_zero]
    have z6 : m = 0 := by rw [hmdd, z5, zero_mul, fl_zero]
    rw [z6, zero_add, fl_of_double hl]

end Rodeo.Dbl
