import Verif.Model.DblDoE
import Verif.Spec.DblDoE
import Verif.Lemmas.DblSum
import Verif.Lemmas.DblTrip
import Verif.Lemmas.DblSearch
import Verif.Lemmas.DblEA

set_option linter.unusedSectionVars false

namespace Rodeo.Dbl

open Spec

variable {K : Type} [Field K] [LinearOrder K] [IsStrictOrderedRing K] [FloorRing K]

/-- The computed cut points. -/
def flCut (n : Nat) (l h : K) (r : Nat) : K := fl (l + fl ((r : K) * fl (fl (h - l) / (n : K))))

theorem flSize_nonneg {n : Nat} {l h : K} (hlh : l ≤ h) : 0 ≤ fl (fl (h - l) / (n : K)) :=
  fl_nonneg (div_nonneg (fl_nonneg (by linarith)) (Nat.cast_nonneg n))

theorem flCut_zero {n : Nat} {l h : K} (hl : IsDouble l) : flCut n l h 0 = l := by
  unfold flCut
  rw [Nat.cast_zero, zero_mul, fl_zero, add_zero, fl_of_double hl]

theorem flCut_mono {n : Nat} {l h : K} (hlh : l ≤ h) {r s : Nat} (h1 : r ≤ s) :
    flCut n l h r ≤ flCut n l h s := by
  unfold flCut
  refine fl_mono (add_le_add le_rfl (fl_mono (mul_le_mul_of_nonneg_right ?_ (flSize_nonneg hlh))))
  exact_mod_cast h1

theorem isDouble_flCut (n : Nat) (l h : K) (r : Nat) : IsDouble (flCut n l h r) := fl_isDouble _

/-- The algebra of the next lemma: `w` the exact width, `d` the computed one, `p`, `q` the products of a
fraction with `w` and `d`, `s` with the computed step. -/
theorem cut_alg {l w d p q s t c S E : K} (hw : 0 ≤ w) (hS : w ≤ S) (hl : |l| ≤ S) (hE : 0 ≤ E)
    (h1 : d ≤ w + w / 2 ^ 53) (hp : |q - p| ≤ w / 2 ^ 53) (hq : 0 ≤ q ∧ q ≤ d)
    (h2 : |s - q| ≤ d / 2 ^ 53 + E) (h3 : |t - s| ≤ |s| / 2 ^ 53) (h4 : |c - (l + t)| ≤ |l + t| / 2 ^ 53) :
    |s| ≤ S + S / 2 ^ 51 + E ∧ |t| ≤ S + S / 2 ^ 51 + 2 * E ∧ |c - (l + p)| ≤ S / 2 ^ 50 + 4 * E := by
  have hs : |s| ≤ d + d / 2 ^ 53 + E := by
    rw [abs_le] at h2 ⊢
    constructor <;> linarith [h2.1, h2.2, hq.1, hq.2]
  have a1 : |t - p| ≤ |t - s| + |s - q| + |q - p| := by
    rw [show t - p = (t - s) + (s - q) + (q - p) by ring]
    exact abs_add_three _ _ _
  have a2 : |t| ≤ |t - s| + |s| := by
    have := abs_add_le (t - s) s
    rwa [sub_add_cancel] at this
  have a3 : |l + t| ≤ |l| + |t| := abs_add_le _ _
  have a4 : |c - (l + p)| ≤ |c - (l + t)| + |t - p| := by
    have := abs_add_le (c - (l + t)) (t - p)
    rwa [show c - (l + t) + (t - p) = c - (l + p) by ring] at this
  have e1 : d ≤ S + S / 2 ^ 53 := by linarith
  refine ⟨by linarith, by linarith, by linarith⟩

theorem sampleError_eq (l h : K) : sampleError l h = (|l| + |h|) / 2 ^ 50 + 4 * 2 ^ (-1042 : ℤ) := by
  unfold sampleError
  rw [show (-1040 : ℤ) = 2 + (-1042) from rfl, zp_add]
  norm_num

theorem cut_facts {n r : Nat} {l h : K} (hl : IsDouble l) (hh : IsDouble h) (hlh : l ≤ h) (h0 : 0 < n)
    (hn : n < 2 ^ 32) (hr : r ≤ n) :
    |(r : K) * fl (fl (h - l) / (n : K))| ≤ (|l| + |h|) + (|l| + |h|) / 2 ^ 51 + 2 ^ (-1042 : ℤ) ∧
    |fl ((r : K) * fl (fl (h - l) / (n : K)))| ≤ (|l| + |h|) + (|l| + |h|) / 2 ^ 51 + 2 * 2 ^ (-1042 : ℤ) ∧
    |flCut n l h r - (l + (r : K) * ((h - l) / (n : K)))| ≤ sampleError l h := by
  have hnK : (0 : K) < n := by exact_mod_cast h0
  have hw : 0 ≤ h - l := by linarith
  have hD0 : 0 ≤ fl (h - l) := fl_nonneg hw
  have hD := fl_sub_err hh hl
  rw [abs_of_nonneg hw] at hD
  have hfr : (0 : K) ≤ (r : K) / n ∧ (r : K) / n ≤ 1 := by
    refine ⟨by positivity, ?_⟩
    rw [div_le_one hnK]
    exact_mod_cast hr
  have hs := fl_rel (fl (h - l) / (n : K))
  rw [abs_of_nonneg (div_nonneg hD0 hnK.le)] at hs
  have hsd : |(r : K) * fl (fl (h - l) / (n : K)) - (r : K) / n * fl (h - l)| ≤
      fl (h - l) / 2 ^ 53 + 2 ^ (-1042 : ℤ) := by
    have e : (r : K) * fl (fl (h - l) / (n : K)) - (r : K) / n * fl (h - l) =
        (r : K) * (fl (fl (h - l) / (n : K)) - fl (h - l) / (n : K)) := by ring
    rw [e, abs_mul, Nat.abs_cast]
    have h1 : (r : K) * |fl (fl (h - l) / (n : K)) - fl (h - l) / (n : K)| ≤
        (r : K) * (eps * (fl (h - l) / (n : K)) + eta) :=
      mul_le_mul_of_nonneg_left hs (Nat.cast_nonneg r)
    have h2 : (r : K) * (eps * (fl (h - l) / (n : K)) + eta) =
        (r : K) / n * (fl (h - l) / 2 ^ 53) + r * eta := by
      rw [div53]; ring
    have h3 : (r : K) / n * (fl (h - l) / 2 ^ 53) ≤ fl (h - l) / 2 ^ 53 :=
      mul_le_of_le_one_left (by positivity) hfr.2
    have h4 : (r : K) * eta ≤ 2 ^ (-1042 : ℤ) := by
      have h5 : (r : K) ≤ 2 ^ (32 : ℤ) := by
        have : (r : K) ≤ ((2 ^ 32 : Nat) : K) := by exact_mod_cast (by omega : r ≤ 2 ^ 32)
        refine this.trans (le_of_eq ?_)
        rw [show (32 : ℤ) = ((32 : ℕ) : ℤ) from rfl, zpow_natCast]
        norm_num
      refine (mul_le_mul_of_nonneg_right h5 (eta_pos (K := K)).le).trans ?_
      unfold eta
      rw [← zp_add]
      exact zp_mono (by norm_num)
    linarith
  have hE : (0 : K) ≤ 2 ^ (-1042 : ℤ) := (zp _).le
  have hwS : h - l ≤ |l| + |h| := by
    have := neg_abs_le l
    have := le_abs_self h
    linarith
  have hlS : |l| ≤ |l| + |h| := by linarith [abs_nonneg h]
  have hDw : fl (h - l) ≤ (h - l) + (h - l) / 2 ^ 53 := by linarith [(abs_le.1 hD).2]
  have key := cut_alg (l := l) (w := h - l) (d := fl (h - l)) (p := (r : K) / n * (h - l))
    (q := (r : K) / n * fl (h - l)) (s := (r : K) * fl (fl (h - l) / (n : K)))
    (t := fl ((r : K) * fl (fl (h - l) / (n : K)))) (c := flCut n l h r) (S := |l| + |h|)
    (E := 2 ^ (-1042 : ℤ)) hw hwS hlS hE hDw
    (by
      rw [← mul_sub, abs_mul, abs_of_nonneg hfr.1]
      exact (mul_le_of_le_one_left (abs_nonneg _) hfr.2).trans hD)
    ⟨mul_nonneg hfr.1 hD0, mul_le_of_le_one_left hD0 hfr.2⟩ hsd
    (fl_nat_mul_err r (fl_isDouble _)) (fl_add_err hl (fl_isDouble _))
  refine ⟨key.1, key.2.1, ?_⟩
  rw [sampleError_eq, show (r : K) * ((h - l) / (n : K)) = (r : K) / n * (h - l) by ring]
  exact key.2.2

theorem cutPoint_ok' {l size c : K} {r : Nat} (h : cutPoint l size r = .ok c) :
    c = fl (l + fl ((r : K) * size)) := by
  unfold cutPoint at h
  obtain ⟨t, e1, h⟩ := bind_ok_inv h
  obtain rfl := mul_ok e1
  exact add_ok h

/-- The samples of one column lie between the computed cut points. -/
theorem strata_post {n : Nat} {l h : K} {u : Nat → K} (hlh : l ≤ h)
    (hu : Draws u) : Post (strata n l h u) (fun xs => xs.length = n ∧
      ∀ r x, xs[r]? = some x → IsDouble x ∧ flCut n l h r ≤ x ∧ x ≤ flCut n l h (r + 1)) := by
  intro xs hxs
  unfold strata at hxs
  split_ifs at hxs with h0
  · subst h0
    cases hxs
    exact ⟨rfl, fun r x hx => by simp at hx⟩
  obtain ⟨d, e1, hxs⟩ := bind_ok_inv hxs
  obtain ⟨s, e2, hxs⟩ := bind_ok_inv hxs
  obtain rfl := sub_ok e1
  obtain ⟨-, rfl⟩ := div_ok e2
  obtain ⟨h1, h2⟩ := tab_inv hxs
  refine ⟨h1, fun r x hx => ?_⟩
  have hr : r < n := by
    have := (List.getElem?_eq_some_iff.1 hx).1; omega
  obtain ⟨x', e3, e4⟩ := h2 r hr
  rw [hx] at e4
  obtain rfl := Option.some.inj e4
  obtain ⟨a, e5, e3⟩ := bind_ok_inv e3
  obtain ⟨b, e6, e3⟩ := bind_ok_inv e3
  obtain rfl := cutPoint_ok' e5
  obtain rfl := cutPoint_ok' e6
  exact uniformReal_post (isDouble_flCut n l h r) (isDouble_flCut n l h (r + 1))
    (flCut_mono hlh (Nat.le_succ r)) (hu r).1 (hu r).2.1 (hu r).2.2 _ e3

theorem uniformReal_okP {a b u : K} (ha : IsDouble a) (hb : IsDouble b) (hab : a ≤ b) (hu : IsDouble u)
    (h0 : 0 ≤ u) (h1 : u < 1) (hA : |a| ≤ 2 ^ (1022 : ℤ)) (hB : |b| ≤ 2 ^ (1022 : ℤ)) :
    ∃ r, uniformReal a b u = .ok r := by
  have h22 : (2 : K) ^ (1023 : ℤ) = 2 * 2 ^ (1022 : ℤ) := by
    rw [show (1023 : ℤ) = 1 + 1022 from rfl, zp_add]; norm_num
  have hd : |b - a| ≤ 2 ^ (1023 : ℤ) := by
    rw [h22]
    have := abs_sub b a
    linarith
  have hm : |u * fl (b - a)| ≤ 2 ^ (1023 : ℤ) := by
    rw [abs_mul, abs_of_nonneg h0]
    exact (mul_le_of_le_one_left (abs_nonneg _) h1.le).trans (fl_abs_le (by norm_num) hd)
  have hb' := between ha hb hab hu h0 h1
  refine ⟨fl (fl (u * fl (b - a)) + a), bind_eq (dbl_of_le (by norm_num) (by norm_num) hd)
    (bind_eq (dbl_of_le (by norm_num) (by norm_num) hm) ?_)⟩
  · unfold add dbl
    rw [if_pos]
    have hlt : (2 : K) ^ (1022 : ℤ) < 2 ^ 1024 := by
      rw [← zp_nat]; exact zpow_lt_zpow_right₀ (by norm_num) (by norm_num)
    refine lt_of_le_of_lt (abs_le.2 ⟨?_, ?_⟩) hlt
    · exact (neg_le_neg hA).trans ((neg_abs_le a).trans hb'.1)
    · exact hb'.2.trans ((le_abs_self b).trans hB)

theorem cut_big {a b s t P E : K} (h0 : 0 ≤ a) (ha : a ≤ P) (hb : b ≤ P) (hE : E ≤ P)
    (h1 : s ≤ a + b + (a + b) / 2 ^ 51 + E) (h2 : t ≤ a + b + (a + b) / 2 ^ 51 + 2 * E) :
    s ≤ 8 * P ∧ a + t ≤ 16 * P := by
  constructor <;> linarith

/-- Nothing overflows unless the bounds are huge. -/
theorem strata_ok' {n : Nat} {l h : K} {u : Nat → K} (hl : IsDouble l) (hh : IsDouble h) (hlh : l ≤ h)
    (hn : n < 2 ^ 32) (hu : Draws u) (hL : |l| ≤ 2 ^ (1018 : ℤ)) (hH : |h| ≤ 2 ^ (1018 : ℤ)) :
    ∃ xs, strata n l h u = .ok xs := by
  unfold strata
  split_ifs with h0
  · exact ⟨_, rfl⟩
  have hnK : (1 : K) ≤ n := by exact_mod_cast (by omega : 1 ≤ n)
  have p1 : (2 : K) ^ (1019 : ℤ) = 2 * 2 ^ (1018 : ℤ) := by
    rw [show (1019 : ℤ) = 1 + 1018 from rfl, zp_add]; norm_num
  have p2 : (2 : K) ^ (1021 : ℤ) = 8 * 2 ^ (1018 : ℤ) := by
    rw [show (1021 : ℤ) = 3 + 1018 from rfl, zp_add]; norm_num
  have p3 : (2 : K) ^ (1022 : ℤ) = 16 * 2 ^ (1018 : ℤ) := by
    rw [show (1022 : ℤ) = 4 + 1018 from rfl, zp_add]; norm_num
  have pE : (2 : K) ^ (-1042 : ℤ) ≤ 2 ^ (1018 : ℤ) := zp_mono (by norm_num)
  have hd : |h - l| ≤ 2 ^ (1019 : ℤ) := by
    rw [p1]; have := abs_sub h l; linarith
  have hd' := fl_abs_le (by norm_num) hd
  have hq : |fl (h - l) / (n : K)| ≤ 2 ^ (1019 : ℤ) := by
    rw [abs_div, Nat.abs_cast]
    exact (div_le_self (abs_nonneg _) hnK).trans hd'
  have hcut : ∀ r, r ≤ n → cutPoint l (fl (fl (h - l) / (n : K))) r = .ok (flCut n l h r) ∧
      |flCut n l h r| ≤ 2 ^ (1022 : ℤ) := by
    intro r hr
    obtain ⟨f1, f2, -⟩ := cut_facts hl hh hlh (by omega) hn hr
    obtain ⟨b1, b2⟩ := cut_big (abs_nonneg l) hL hH pE f1 f2
    have g1 : |(r : K) * fl (fl (h - l) / (n : K))| ≤ 2 ^ (1021 : ℤ) := by
      rw [p2]; exact b1
    have g2 : |l + fl ((r : K) * fl (fl (h - l) / (n : K)))| ≤ 2 ^ (1022 : ℤ) := by
      refine (abs_add_le _ _).trans ?_
      rw [p3]; exact b2
    exact ⟨bind_eq (dbl_of_le (by norm_num) (by norm_num) g1) (dbl_of_le (by norm_num) (by norm_num) g2),
      fl_abs_le (by norm_num) g2⟩
  have hdraw : ∀ r, r < n → ∃ x, uniformReal (flCut n l h r) (flCut n l h (r + 1)) (u r) = .ok x :=
    fun r hr => uniformReal_okP (isDouble_flCut _ _ _ _) (isDouble_flCut _ _ _ _)
      (flCut_mono hlh (Nat.le_succ r)) (hu r).1 (hu r).2.1 (hu r).2.2 (hcut r hr.le).2 (hcut (r + 1) hr).2
  choose! x hx using hdraw
  refine ⟨(List.range n).map x, bind_eq (dbl_of_le (by norm_num) (by norm_num) hd) (bind_eq
    (a := fl (fl (h - l) / (n : K))) ?_ ?_)⟩
  · unfold div
    rw [if_neg (by positivity)]
    exact dbl_of_le (by norm_num) (by norm_num) hq
  · refine tab_ok fun r hr => ?_
    exact bind_eq (hcut r hr.le).1 (bind_eq (hcut (r + 1) hr).1 (hx r hr))

end Rodeo.Dbl
