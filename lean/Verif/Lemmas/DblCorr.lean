import Verif.Spec.DblCorr
import Verif.Lemmas.DblSolveOk
import Verif.Lemmas.Corr
import Mathlib.Analysis.SpecialFunctions.Pow.Real
import Mathlib.Analysis.SpecialFunctions.Exponential
import Mathlib.Analysis.Complex.ExponentialBounds

/-! # The error of a correlation computed in doubles -/

set_option linter.unusedSectionVars false

namespace Rodeo.Dbl

open Spec Finset

theorem exp_sub_le (a b : ℝ) : Real.exp (-a) - Real.exp (-b) ≤ (b - a) * Real.exp (-a) := by
  have h1 := Real.add_one_le_exp (a - b)
  have h2 : Real.exp (-b) = Real.exp (a - b) * Real.exp (-a) := by rw [← Real.exp_add]; congr 1; ring
  rw [h2]
  have h3 := mul_le_mul_of_nonneg_right h1 (Real.exp_pos (-a)).le
  linarith

theorem mul_exp_le (t : ℝ) : t * Real.exp (-t) ≤ 2 / 5 * (1 - 1 / 50) := by
  have h1 := Real.add_one_le_exp (t - 1)
  have h2 : t * Real.exp (-t) ≤ Real.exp (t - 1) * Real.exp (-t) :=
    mul_le_mul_of_nonneg_right (by linarith) (Real.exp_pos _).le
  rw [← Real.exp_add, show t - 1 + -t = -1 by ring] at h2
  have h3 := Real.exp_neg_one_lt_d9
  norm_num at h3 ⊢
  linarith

/-- An error of the exponent that is relative to it. -/
theorem exp_diff {s S η τ : ℝ} (hS : 0 ≤ S) (h : |s - S| ≤ η * S + τ) (hη : 0 ≤ η) (hη2 : η ≤ 1 / 2 ^ 10)
    (hτ : 0 ≤ τ) (hτ2 : τ ≤ 1 / 2 ^ 10) : |Real.exp (-s) - Real.exp (-S)| ≤ 2 / 5 * η + 2 * τ := by
  have hb := abs_le.1 h
  have hηS : 0 ≤ η * S := mul_nonneg hη hS
  set low := S * (1 - η) - τ with hlow
  have l1 : low ≤ s := by rw [hlow]; linarith
  have l2 : low ≤ S := by rw [hlow]; linarith
  have hE := Real.exp_pos (-low)
  have h1 : |Real.exp (-s) - Real.exp (-S)| ≤ (η * S + τ) * Real.exp (-low) := by
    rcases le_total s S with hs | hs
    · rw [abs_of_nonneg (sub_nonneg.2 (Real.exp_le_exp.2 (neg_le_neg hs)))]
      refine (exp_sub_le _ _).trans ?_
      exact mul_le_mul (by linarith) (Real.exp_le_exp.2 (neg_le_neg l1)) (Real.exp_pos _).le (by linarith)
    · rw [abs_sub_comm, abs_of_nonneg (sub_nonneg.2 (Real.exp_le_exp.2 (neg_le_neg hs)))]
      refine (exp_sub_le _ _).trans ?_
      exact mul_le_mul (by linarith) (Real.exp_le_exp.2 (neg_le_neg l2)) (Real.exp_pos _).le (by linarith)
  have h2 : Real.exp (-low) = Real.exp (-(S * (1 - η))) * Real.exp τ := by
    rw [← Real.exp_add]; congr 1; rw [hlow]; ring
  have h3 : Real.exp τ ≤ 1 + 1 / 2 ^ 8 := by
    have e1 := Real.add_one_le_exp (-τ)
    have e2 : Real.exp τ * Real.exp (-τ) = 1 := by rw [← Real.exp_add]; simp
    have e3 := mul_le_mul_of_nonneg_left e1 (Real.exp_pos τ).le
    have e4 : Real.exp τ * τ ≤ Real.exp τ * (1 / 2 ^ 10) := mul_le_mul_of_nonneg_left hτ2 (Real.exp_pos τ).le
    have : Real.exp τ * (1 - 1 / 2 ^ 10) ≤ 1 := by linarith
    norm_num at this ⊢
    linarith
  have h4 := mul_exp_le (S * (1 - η))
  have h5 : Real.exp (-(S * (1 - η))) ≤ 1 := Real.exp_le_one_iff.2 (by
    have := mul_nonneg hS (show 0 ≤ 1 - η by norm_num at hη2; linarith)
    linarith)
  set E := Real.exp (-(S * (1 - η))) with hEdef
  have hE0 : 0 < E := Real.exp_pos _
  have h6 : η * S * E ≤ η * (2 / 5 * (1 - 1 / 100)) := by
    have a1 : S * E * (1 - η) ≤ 2 / 5 * (1 - 1 / 50) := by linarith
    have a2 : S * E * η ≤ S * E * (1 / 2 ^ 10) := mul_le_mul_of_nonneg_left hη2 (by positivity)
    have a3 : S * E ≤ 2 / 5 * (1 - 1 / 100) := by norm_num at a1 a2 ⊢; linarith
    have := mul_le_mul_of_nonneg_left a3 hη
    linarith
  have h7 : (η * S + τ) * E ≤ η * (2 / 5 * (1 - 1 / 100)) + τ := by
    have := mul_le_mul_of_nonneg_left h5 hτ
    linarith
  refine h1.trans ?_
  rw [h2, ← mul_assoc]
  refine (mul_le_mul h7 h3 (Real.exp_pos _).le (by positivity)).trans ?_
  norm_num
  linarith

/-- The power of a rounded difference. -/
theorem rpow_near {d D g : ℝ} (hD : 0 ≤ D) (h : |d - D| ≤ eps * D) (hg : 0 ≤ g) (hg2 : g ≤ 2) (hd : 0 ≤ d) :
    |d ^ g - D ^ g| ≤ gam 2 * D ^ g := by
  have he := eps_pos (K := ℝ)
  have he1 : (eps : ℝ) ≤ 1 / 2 := by unfold eps; norm_num
  have hb := abs_le.1 h
  have hX := Real.rpow_nonneg hD g
  have up : d ^ g ≤ D ^ g * (1 + eps) ^ 2 := by
    have h1 : d ^ g ≤ (D * (1 + eps)) ^ g := Real.rpow_le_rpow hd (by linarith) hg
    rw [Real.mul_rpow hD (by linarith)] at h1
    refine h1.trans (mul_le_mul_of_nonneg_left ?_ hX)
    have := Real.rpow_le_rpow_of_exponent_le (x := 1 + eps) (by linarith) hg2
    rwa [show (2 : ℝ) = ((2 : ℕ) : ℝ) by norm_num, Real.rpow_natCast] at this
  have lo : D ^ g * (1 - eps) ^ 2 ≤ d ^ g := by
    have h1 : (D * (1 - eps)) ^ g ≤ d ^ g :=
      Real.rpow_le_rpow (mul_nonneg hD (by linarith)) (by linarith) hg
    rw [Real.mul_rpow hD (by linarith)] at h1
    refine le_trans (mul_le_mul_of_nonneg_left ?_ hX) h1
    have := Real.rpow_le_rpow_of_exponent_ge (x := 1 - eps) (by linarith) (by linarith) hg2
    rwa [show (2 : ℝ) = ((2 : ℕ) : ℝ) by norm_num, Real.rpow_natCast] at this
  rw [gam_two]
  have hq : 0 ≤ D ^ g * (eps * eps) := by positivity
  rw [abs_le]
  constructor <;> nlinarith

/-- One term of the exponent. -/
theorem term_near {L : Libm ℝ} (hL : Accurate L) {a b t g : ℝ} (ha : IsDouble a) (hb : IsDouble b)
    (hg : IsDouble g) (ha2 : |a| ≤ 2 ^ (100 : ℤ)) (hb2 : |b| ≤ 2 ^ (100 : ℤ)) (ht0 : 0 ≤ t)
    (ht2 : t ≤ 2 ^ (100 : ℤ)) (hg0 : 0 ≤ g) (hg2 : g ≤ 2) :
    ∃ v, (do
      let d ← sub a b
      let e ← L.pow |d| g
      mul t e) = .ok v ∧ IsDouble v ∧ 0 ≤ v ∧ v ≤ 2 ^ (400 : ℤ) ∧
      |v - t * |a - b| ^ g| ≤ gam 5 * (t * |a - b| ^ g) + 2 ^ (-970 : ℤ) := by
  have he := eps_pos (K := ℝ)
  have heta := eta_pos (K := ℝ)
  have hdiff : |a - b| ≤ 2 ^ (101 : ℤ) := by
    refine (abs_sub _ _).trans ?_
    rw [show (101 : ℤ) = 1 + 100 by norm_num, zp_add, zpow_one]
    linarith
  have e1 : sub a b = .ok (fl (a - b)) := dbl_of_le (n := 101) (by norm_num) (by norm_num) hdiff
  set d := fl (a - b) with hd
  have hdd : IsDouble |d| := by
    rcases abs_choice d with h | h <;> rw [h]
    · exact fl_isDouble _
    · exact isDouble_neg (fl_isDouble _)
  have hd101 : |d| ≤ 2 ^ (101 : ℤ) := fl_abs_le (by norm_num) hdiff
  obtain ⟨e, e2, he1, he0, herr⟩ := hL.pow |d| g hdd hg (abs_nonneg _)
    (hd101.trans (zp_mono (by norm_num))) hg0 hg2
  set D := |a - b| with hD
  have hD0 : 0 ≤ D := abs_nonneg _
  have hnear : |(|d|) - D| ≤ eps * D := by
    refine (abs_abs_sub_abs_le _ _).trans ?_
    have := fl_sub_err ha hb
    rwa [div53] at this
  have hp := rpow_near hD0 hnear hg0 hg2 (abs_nonneg _)
  set X := D ^ g with hX
  set p := |d| ^ g with hpdef
  have hX0 : 0 ≤ X := Real.rpow_nonneg hD0 g
  have hp0 : 0 ≤ p := Real.rpow_nonneg (abs_nonneg _) g
  have hetaz : (2 : ℝ) ^ (-1074 : ℤ) = 2 * eta := by
    unfold eta
    rw [show (-1074 : ℤ) = 1 + -1075 by norm_num, zp_add, zpow_one]
  have herr' : |e - p| ≤ 2 * eps * p + 2 * eta := by
    rw [← hetaz]
    refine herr.trans (le_of_eq ?_)
    unfold eps; ring
  have hp1 := (abs_le.1 hp).2
  have heX : |e - X| ≤ gam 4 * X + 2 * eta := by
    have h1 : |e - X| ≤ |e - p| + |p - X| := by
      have := abs_add_le (e - p) (p - X)
      rwa [show e - p + (p - X) = e - X by ring] at this
    have h2 : 2 * eps * p ≤ 2 * eps * ((1 + gam 2) * X) := mul_le_mul_of_nonneg_left (by linarith) (by linarith)
    have h3 : (gam 4 : ℝ) = (1 + gam 2) * (1 + gam 2) - 1 := by unfold gam; ring
    have h4 : 2 * eps ≤ (gam 2 : ℝ) := by rw [gam_two]; nlinarith
    have h5 := gam_nonneg (K := ℝ) 2
    have h6 : 2 * eps * ((1 + gam 2) * X) ≤ gam 2 * ((1 + gam 2) * X) :=
      mul_le_mul_of_nonneg_right h4 (by positivity)
    rw [h3]
    linarith
  have hX202 : X ≤ 2 ^ (202 : ℤ) := by
    rcases le_total D 1 with h | h
    · have : X ≤ 1 := Real.rpow_le_one hD0 h hg0
      refine this.trans ?_
      have := zp_mono (K := ℝ) (show (0 : ℤ) ≤ 202 by norm_num)
      rwa [zpow_zero] at this
    · have h1 : X ≤ D ^ (2 : ℝ) := Real.rpow_le_rpow_of_exponent_le h hg2
      rw [show (2 : ℝ) = ((2 : ℕ) : ℝ) by norm_num, Real.rpow_natCast, sq] at h1
      refine h1.trans ((mul_le_mul hdiff hdiff hD0 (zp _).le).trans (le_of_eq ?_))
      rw [← zp_add]; norm_num
  have hg4 : (gam 4 : ℝ) ≤ 1 := by
    have := pow_eps_le (K := ℝ) (n := 4) (by norm_num)
    unfold gam; linarith
  have he204 : e ≤ 2 ^ (204 : ℤ) := by
    have h1 := (abs_le.1 heX).2
    have h2 : gam 4 * X ≤ 1 * X := mul_le_mul_of_nonneg_right hg4 hX0
    have h3 : (2 : ℝ) ^ (204 : ℤ) = 4 * 2 ^ (202 : ℤ) := by
      rw [show (204 : ℤ) = 2 + 202 by norm_num, zp_add]; norm_num
    have h4 : (eta : ℝ) ≤ 2 ^ (202 : ℤ) := by unfold eta; exact zp_mono (by norm_num)
    rw [h3]
    linarith
  have hte : |t * e| ≤ 2 ^ (400 : ℤ) := by
    rw [abs_of_nonneg (mul_nonneg ht0 he0)]
    refine (mul_le_mul ht2 he204 he0 (zp _).le).trans ?_
    rw [← zp_add]; exact zp_mono (by norm_num)
  refine ⟨fl (t * e), ?_, fl_isDouble _, fl_nonneg (mul_nonneg ht0 he0), ?_, ?_⟩
  · refine bind_eq e1 (bind_eq e2 ?_)
    exact dbl_of_le (n := 400) (by norm_num) (by norm_num) hte
  · exact (le_abs_self _).trans (fl_abs_le (by norm_num) hte)
  · have h1 := fl_rel (t * e)
    rw [abs_of_nonneg (mul_nonneg ht0 he0)] at h1
    have h2 : |t * e - t * X| ≤ t * (gam 4 * X + 2 * eta) := by
      rw [← mul_sub, abs_mul, abs_of_nonneg ht0]
      exact mul_le_mul_of_nonneg_left heX ht0
    have h3 := (abs_le.1 h2).2
    have h4 : |fl (t * e) - t * X| ≤ |fl (t * e) - t * e| + |t * e - t * X| := by
      have := abs_add_le (fl (t * e) - t * e) (t * e - t * X)
      rwa [show fl (t * e) - t * e + (t * e - t * X) = fl (t * e) - t * X by ring] at this
    have h5 : eps * (t * e) ≤ eps * (t * X + t * (gam 4 * X + 2 * eta)) :=
      mul_le_mul_of_nonneg_left (by linarith) he.le
    rw [gam_succ]
    have h6 : eps * (t * (2 * eta)) + t * (2 * eta) + eta ≤ (2 : ℝ) ^ (-970 : ℤ) := by
      have a1 : (eps : ℝ) ≤ 1 := by unfold eps; norm_num
      have a2 : t * (2 * eta) ≤ 2 ^ (100 : ℤ) * (2 * eta) := mul_le_mul_of_nonneg_right ht2 (by linarith)
      have a3 : eps * (t * (2 * eta)) ≤ 1 * (t * (2 * eta)) := mul_le_mul_of_nonneg_right a1 (by positivity)
      have a4 : (2 : ℝ) ^ (100 : ℤ) * (2 * eta) = 2 ^ (-974 : ℤ) := by
        unfold eta
        rw [show (-974 : ℤ) = 100 + (1 + -1075) by norm_num, zp_add, zp_add, zpow_one]
      have a5 : (eta : ℝ) ≤ 2 ^ (-974 : ℤ) := by unfold eta; exact zp_mono (by norm_num)
      have a6 : (2 : ℝ) ^ (-970 : ℤ) = 16 * 2 ^ (-974 : ℤ) := by
        rw [show (-970 : ℤ) = 4 + -974 by norm_num, zp_add]; norm_num
      rw [a6]
      have := zp (K := ℝ) (-974)
      linarith
    linarith

theorem okBind {α β : Type} {a : α} {f : α → Res β} : ((Except.ok a : Res α) >>= f) = f a := rfl

theorem z70 : (2 : ℝ) ^ (-70 : ℤ) = 1 / 2 ^ 70 := by rw [zpow_neg, one_div, ← zp_nat]; rfl

/-- A whole correlation. -/
theorem exponential_near {L : Libm ℝ} (hL : Accurate L) {m : Nat} (hm : m ≤ 2 ^ 32) {v1 v2 theta gamma : List ℝ}
    (l1 : m ≤ v1.length) (l2 : m ≤ v2.length) (l3 : m ≤ theta.length) (l4 : m ≤ gamma.length)
    (h1 : ∀ k, k < m → IsDouble (vecFun v1 k) ∧ |vecFun v1 k| ≤ 2 ^ (100 : ℤ))
    (h2 : ∀ k, k < m → IsDouble (vecFun v2 k) ∧ |vecFun v2 k| ≤ 2 ^ (100 : ℤ))
    (h3 : ∀ k, k < m → 0 ≤ vecFun theta k ∧ vecFun theta k ≤ 2 ^ (100 : ℤ))
    (h4 : ∀ k, k < m → IsDouble (vecFun gamma k) ∧ 0 ≤ vecFun gamma k ∧ vecFun gamma k ≤ 2) :
    ∃ r, exponential L v1 v2 theta gamma m = .ok r ∧ IsDouble r ∧ 0 ≤ r ∧
      |r - expCorr m (vecFun theta) (vecFun gamma) (vecFun v1) (vecFun v2)| ≤ ((m : ℝ) + 10) / 2 ^ 54 := by
  have terms : ∀ k, ∃ v, k < m → (do
      let a ← rawAt v1 k
      let b ← rawAt v2 k
      let d ← sub a b
      let g ← rawAt gamma k
      let e ← L.pow |d| g
      let t ← rawAt theta k
      mul t e) = .ok v ∧ IsDouble v ∧ 0 ≤ v ∧ v ≤ 2 ^ (400 : ℤ) ∧
      |v - vecFun theta k * |vecFun v1 k - vecFun v2 k| ^ vecFun gamma k| ≤
        gam 5 * (vecFun theta k * |vecFun v1 k - vecFun v2 k| ^ vecFun gamma k) + 2 ^ (-970 : ℤ) := by
    intro k
    by_cases hk : k < m
    · obtain ⟨v, e, rest⟩ := term_near hL (h1 k hk).1 (h2 k hk).1 (h4 k hk).1 (h1 k hk).2 (h2 k hk).2
        (h3 k hk).1 (h3 k hk).2 (h4 k hk).2.1 (h4 k hk).2.2
      refine ⟨v, fun _ => ⟨?_, rest⟩⟩
      have r1 : rawAt v1 k = .ok (vecFun v1 k) := Corr.rawAt_vecFun (by omega)
      have r2 : rawAt v2 k = .ok (vecFun v2 k) := Corr.rawAt_vecFun (by omega)
      have r3 : rawAt gamma k = .ok (vecFun gamma k) := Corr.rawAt_vecFun (by omega)
      have r4 : rawAt theta k = .ok (vecFun theta k) := Corr.rawAt_vecFun (by omega)
      simp only [r1, r2, r3, r4, okBind]
      exact e
    · exact ⟨0, fun h => absurd h hk⟩
  choose v hv using terms
  set S := ∑ k ∈ range m, vecFun theta k * |vecFun v1 k - vecFun v2 k| ^ vecFun gamma k with hS
  have hX0 : ∀ k, k < m → 0 ≤ vecFun theta k * |vecFun v1 k - vecFun v2 k| ^ vecFun gamma k := fun k hk =>
    mul_nonneg (h3 k hk).1 (Real.rpow_nonneg (abs_nonneg _) _)
  have hS0 : 0 ≤ S := sum_nonneg fun k hk => hX0 k (mem_range.1 hk)
  have hmr : (m : ℝ) ≤ 2 ^ (32 : ℤ) := by
    rw [show (2 : ℝ) ^ (32 : ℤ) = 2 ^ 32 from (two_pow_cast 32).symm]
    exact_mod_cast hm
  have hV : ∑ k ∈ range m, |v k| = ∑ k ∈ range m, v k :=
    sum_congr rfl fun k hk => abs_of_nonneg (hv k (mem_range.1 hk)).2.2.1
  have hV0 : 0 ≤ ∑ k ∈ range m, v k := sum_nonneg fun k hk => (hv k (mem_range.1 hk)).2.2.1
  have hVb : ∑ k ∈ range m, v k ≤ 2 ^ (432 : ℤ) := by
    have : ∑ k ∈ range m, v k ≤ ∑ _k ∈ range m, (2 : ℝ) ^ (400 : ℤ) :=
      sum_le_sum fun k hk => (hv k (mem_range.1 hk)).2.2.2.1
    rw [sum_const, card_range, nsmul_eq_mul] at this
    refine this.trans ((mul_le_mul_of_nonneg_right hmr (zp _).le).trans (le_of_eq ?_))
    rw [← zp_add]; norm_num
  obtain ⟨s, es⟩ := sum_total (x := v) (Nat.zero_le m) (by omega) (fun k _ hk => (hv k hk).1)
    (fun k _ hk => (hv k hk).2.1) (by
      rw [← range_eq_Ico, hV]
      exact hVb.trans (zp_mono (by norm_num)))
  obtain ⟨hsd, hsum⟩ := sum_post (x := v) (Nat.zero_le m)
    (fun k _ hk => by rw [(hv k hk).1]; exact Post.ok rfl) (fun k _ hk => (hv k hk).2.1) s es
  rw [Nat.sub_zero, ← range_eq_Ico, hV] at hsum
  have hgm : gam m ≤ (1 : ℝ) := by
    have := pow_eps_le (K := ℝ) (n := m) (by omega)
    unfold gam; linarith
  have hgm0 := gam_nonneg (K := ℝ) m
  have hg5 := gam_nonneg (K := ℝ) 5
  have hs0 : 0 ≤ s := by
    have h := (abs_le.1 hsum).1
    have h' := mul_le_mul_of_nonneg_right hgm hV0
    linarith
  have hVS : |∑ k ∈ range m, v k - S| ≤ gam 5 * S + m * 2 ^ (-970 : ℤ) := by
    rw [hS, ← sum_sub_distrib]
    refine (abs_sum_le_sum_abs _ _).trans ?_
    refine (sum_le_sum fun k hk => (hv k (mem_range.1 hk)).2.2.2.2).trans (le_of_eq ?_)
    rw [sum_add_distrib, ← mul_sum, sum_const, card_range, nsmul_eq_mul]
  have htail : (m : ℝ) * 2 ^ (-970 : ℤ) ≤ 2 ^ (-938 : ℤ) := by
    refine (mul_le_mul_of_nonneg_right hmr (zp _).le).trans (le_of_eq ?_)
    rw [← zp_add]; norm_num
  have e937 : (2 : ℝ) ^ (-937 : ℤ) = 2 * 2 ^ (-938 : ℤ) := by
    rw [show (-937 : ℤ) = 1 + -938 by norm_num, zp_add, zpow_one]
  have hsS : |s - S| ≤ gam (m + 5) * S + 2 ^ (-937 : ℤ) := by
    have a1 : |s - S| ≤ |s - ∑ k ∈ range m, v k| + |∑ k ∈ range m, v k - S| := by
      have := abs_add_le (s - ∑ k ∈ range m, v k) (∑ k ∈ range m, v k - S)
      rwa [show s - ∑ k ∈ range m, v k + (∑ k ∈ range m, v k - S) = s - S by ring] at this
    have a2 : ∑ k ∈ range m, v k ≤ S + (gam 5 * S + 2 ^ (-938 : ℤ)) := by
      have := (abs_le.1 hVS).2; linarith
    have a3 := mul_le_mul_of_nonneg_left a2 hgm0
    have a4 : gam m * (2 : ℝ) ^ (-938 : ℤ) ≤ 1 * 2 ^ (-938 : ℤ) := mul_le_mul_of_nonneg_right hgm (zp _).le
    have a5 : (gam (m + 5) : ℝ) = gam m * (1 + gam 5) + gam 5 := by unfold gam; rw [pow_add]; ring
    rw [a5, e937]
    linarith
  have hgm5 := gam_le2 (K := ℝ) (n := m + 5) (by omega)
  have hg5' := gam_le (K := ℝ) (n := m + 5) (by omega)
  have hm1 : ((m : ℝ) + 5) ≤ 2 ^ 33 := by
    have : (m : ℝ) ≤ 2 ^ 32 := by exact_mod_cast hm
    norm_num at this ⊢
    linarith
  have t1 : (2 : ℝ) ^ (-937 : ℤ) ≤ 1 / 2 ^ 70 := by
    have : (2 : ℝ) ^ (-937 : ℤ) ≤ 2 ^ (-70 : ℤ) := zp_mono (by norm_num)
    rwa [z70] at this
  have hE := exp_diff hS0 hsS (gam_nonneg _) (by
    push_cast at hg5'
    refine hg5'.trans ?_
    rw [div_le_iff₀ (by norm_num)]
    refine hm1.trans ?_
    norm_num) (zp _).le (t1.trans (by norm_num))
  obtain ⟨x1, x2, x3⟩ := hL.exp s hsd hs0
  refine ⟨L.exp (-s), ?_, x1, x2, ?_⟩
  · unfold exponential
    exact bind_eq es rfl
  · unfold expCorr
    rw [← hS]
    have b1 : |L.exp (-s) - Real.exp (-S)| ≤ |L.exp (-s) - Real.exp (-s)| + |Real.exp (-s) - Real.exp (-S)| := by
      have := abs_add_le (L.exp (-s) - Real.exp (-s)) (Real.exp (-s) - Real.exp (-S))
      rwa [show L.exp (-s) - Real.exp (-s) + (Real.exp (-s) - Real.exp (-S)) = L.exp (-s) - Real.exp (-S) by ring] at this
    have b2 : Real.exp (-s) ≤ 1 := Real.exp_le_one_iff.2 (by linarith)
    have b3 : (2 : ℝ) ^ (-1074 : ℤ) ≤ 1 / 2 ^ 70 := by
      have : (2 : ℝ) ^ (-1074 : ℤ) ≤ 2 ^ (-70 : ℤ) := zp_mono (by norm_num)
      rwa [z70] at this
    have b4 : Real.exp (-s) / 2 ^ 52 ≤ 1 / 2 ^ 52 := div_le_div_of_nonneg_right b2 (by norm_num)
    have b5 : (0 : ℝ) ≤ m := Nat.cast_nonneg _
    push_cast at hgm5
    clear hsS e937 htail hVS
    generalize (2 : ℝ) ^ (-937 : ℤ) = z at t1 hE
    generalize (2 : ℝ) ^ (-1074 : ℤ) = z2 at b3 x3
    norm_num at t1 b3 b4 hgm5 hE b1 x3 ⊢
    linarith

/-- The nugget on the diagonal. -/
theorem addEpsilonToDiagonal_ok {A : Mat ℝ} {n : Nat} {F : Nat → Nat → ℝ} (hA : IsMat A n n F) (e : ℝ)
    (h : ∀ i, i < n → dbl (F i i + e) = .ok (fl (F i i + e))) : OkP (addEpsilonToDiagonal A e)
      (fun B => IsMat B n n (fun i j => if i = j then fl (F i j + e) else F i j)) := by
  obtain ⟨hr, hc, hl, hb⟩ := Mat.isMat_iff.1 hA
  unfold addEpsilonToDiagonal
  rw [hr, hc, Nat.min_self]
  refine OkP.bind (Mat.okP_for (fun k d => Rep2 d n n (fun i j =>
      if i = j ∧ i < k then some (fl (F i j + e)) else some (F i j))) ?_ ?_) ?_
  · exact (rep2_map_some hl hb).start (by omega)
  · intro i d hi hd
    refine bind_okP (hd.rd (i := i) (j := i) (v := F i i) hi hi rfl ?_) ?_
    · rw [if_neg (by omega)]
    · refine bind_okP (h i hi) ?_
      exact hd.wr_next (T := fun i j => some (fl (F i j + e))) i i hi hi rfl rfl (by omega)
  · intro d hd
    have : Rep2 d n n (fun i j => some (if i = j then fl (F i j + e) else F i j)) := by
      refine hd.congr (fun i j hi _ => ?_)
      by_cases h : i = j
      · rw [if_pos ⟨h, hi⟩, if_pos h]
      · rw [if_neg (by omega), if_neg h]
    refine OkP.bind (Mat.okP_freeze this) ?_
    intro l hl
    exact okP_ok hl

theorem vecFun_all {v : List ℝ} {P : ℝ → Prop} (h : ∀ t ∈ v, P t) {k : Nat} (hk : k < v.length) : P (vecFun v k) := by
  have : vecFun v k = v[k] := by simp [vecFun, hk]
  rw [this]; exact h _ (List.getElem_mem hk)

/-- The computed matrix. -/
theorem correlationMatrix_near {L : Libm ℝ} (hL : Accurate L) {s : Corr.ExpCorr ℝ} {n m : Nat} {F : Nat → Nat → ℝ}
    (h : ReadyDbl s n m F) (hm : m ≤ 2 ^ 32) :
    ∃ R G, correlationMatrix L s = .ok R ∧ IsMat R n n G ∧ Symm n G ∧
      (∀ i j, i < n → j < n → IsDouble (G i j) ∧ 0 ≤ G i j) ∧
      (∀ i, i < n → G i i = fl (1 + s.base.epsilon)) ∧
      (∀ i j, i < n → j < i →
        exponential L ((List.range m).map (F i)) ((List.range m).map (F j)) s.theta s.gamma m = .ok (G i j)) ∧
      ∀ i j, i < n → j < n → i ≠ j →
        |G i j - expCorr m (vecFun s.theta) (vecFun s.gamma) (F i) (F j)| ≤ ((m : ℝ) + 10) / 2 ^ 54 := by
  have hc : s.base.X.ncols = m := h.samples.2.1
  have pair : ∀ i j, ∃ r, i < n → j < n →
      exponential L ((List.range m).map (F i)) ((List.range m).map (F j)) s.theta s.gamma m = .ok r ∧ IsDouble r ∧
      0 ≤ r ∧ |r - expCorr m (vecFun s.theta) (vecFun s.gamma) (F i) (F j)| ≤ ((m : ℝ) + 10) / 2 ^ 54 := by
    intro i j
    by_cases hij : i < n ∧ j < n
    · obtain ⟨r, e1, e2, e3, e4⟩ := exponential_near hL hm (v1 := (List.range m).map (F i))
        (v2 := (List.range m).map (F j)) (theta := s.theta) (gamma := s.gamma) (by simp) (by simp)
        h.theta_len.ge h.gamma_len.ge
        (fun k hk => by rw [Corr.vecFun_map _ hk]; exact h.sample_doubles i k hij.1 hk)
        (fun k hk => by rw [Corr.vecFun_map _ hk]; exact h.sample_doubles j k hij.2 hk)
        (fun k hk => (vecFun_all h.theta_range (by rw [h.theta_len]; exact hk)).2)
        (fun k hk => vecFun_all h.gamma_range (by rw [h.gamma_len]; exact hk))
      refine ⟨r, fun _ _ => ⟨e1, e2, e3, ?_⟩⟩
      have e5 : expCorr m (vecFun s.theta) (vecFun s.gamma) (vecFun ((List.range m).map (F i)))
          (vecFun ((List.range m).map (F j))) = expCorr m (vecFun s.theta) (vecFun s.gamma) (F i) (F j) := by
        unfold expCorr
        congr 2
        refine sum_congr rfl fun k hk => ?_
        rw [mem_range] at hk
        rw [Corr.vecFun_map _ hk, Corr.vecFun_map _ hk]
      rwa [e5] at e4
    · exact ⟨0, fun h1 h2 => absurd ⟨h1, h2⟩ hij⟩
  choose C hC using pair
  obtain ⟨R, e1, e2⟩ := Corr.corrMatrixNaive_ok h.samples
    (corr := fun a b => exponential L a b s.theta s.gamma m) (C := C)
    (fun i j hi hj => (hC i j hi (by omega)).1)
  have he := h.epsilon_range
  obtain ⟨R', f1, f2⟩ := addEpsilonToDiagonal_ok e2 s.base.epsilon (by
    intro i _
    rw [if_pos rfl]
    refine dbl_of_le (n := 1) (by norm_num) (by norm_num) ?_
    rw [abs_of_nonneg (by linarith), zpow_one]
    linarith)
  refine ⟨R', _, ?_, f2, ?_, ?_, ?_, ?_, ?_⟩
  · unfold correlationMatrix
    rw [if_neg (by rw [h.set]; simp), hc]
    exact bind_eq e1 f1
  · intro i j _ _
    rcases lt_trichotomy i j with hij | hij | hij
    · simp only [if_neg (show ¬ i = j by omega), if_neg (show ¬ j = i by omega), if_neg (show ¬ j < i by omega),
        if_pos hij]
    · subst hij; rfl
    · simp only [if_neg (show ¬ i = j by omega), if_neg (show ¬ j = i by omega), if_neg (show ¬ i < j by omega),
        if_pos hij]
  · intro i j hi hj
    by_cases hij : i = j
    · rw [if_pos hij, if_pos hij]
      exact ⟨fl_isDouble _, fl_nonneg (by linarith)⟩
    · rw [if_neg hij, if_neg hij]
      by_cases hji : j < i
      · rw [if_pos hji]; exact ⟨(hC i j hi hj).2.1, (hC i j hi hj).2.2.1⟩
      · rw [if_neg hji]; exact ⟨(hC j i hj hi).2.1, (hC j i hj hi).2.2.1⟩
  · intro i _
    rw [if_pos rfl, if_pos rfl]
  · intro i j hi hj
    rw [if_neg (by omega), if_neg (by omega), if_pos hj]
    exact (hC i j hi (by omega)).1
  · intro i j hi hj hij
    rw [if_neg hij, if_neg hij]
    by_cases hji : j < i
    · rw [if_pos hji]; exact (hC i j hi hj).2.2.2
    · rw [if_neg hji]
      have := (hC j i hj hi).2.2.2
      have e : expCorr m (vecFun s.theta) (vecFun s.gamma) (F i) (F j) =
          expCorr m (vecFun s.theta) (vecFun s.gamma) (F j) (F i) := by
        unfold expCorr
        congr 2
        exact sum_congr rfl fun k _ => by rw [abs_sub_comm]
      rwa [e]

end Rodeo.Dbl
