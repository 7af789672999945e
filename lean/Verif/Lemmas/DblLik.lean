import Verif.Lemmas.DblVar
import Verif.Props.Solve
import Verif.Lemmas.KrigingLive
import Verif.Spec.DblLik
import Verif.Model.DblLik

set_option linter.unusedSectionVars false

/-! # The pivots of nearby matrices, and the rounding errors of the likelihood -/

namespace Rodeo.Dbl

open Spec Finset

/-! ## Pivots -/

/-- If the form of `A A^T` is at most `c` times that of `B B^T`, so are the squares of the pivots. -/
theorem pivot_le {n : Nat} {A B : Nat → Nat → ℝ} {c : ℝ} (hA : ∀ i j, i < j → A i j = 0)
    (hB : ∀ i j, i < j → B i j = 0) (hd : ∀ i, i < n → B i i ≠ 0)
    (h : ∀ x : Nat → ℝ, ∑ k ∈ range n, (∑ p ∈ range n, x p * A p k) ^ 2 ≤
      c * ∑ k ∈ range n, (∑ p ∈ range n, x p * B p k) ^ 2) {i : Nat} (hi : i < n) :
    A i i ^ 2 ≤ c * B i i ^ 2 := by
  obtain ⟨x, hx⟩ := upper_solve (fun l j => B j l) (i + 1) (fun l hl => hd l (by omega))
    (fun l => if l = i then B i i else 0)
  have hxi : x i = 1 := by
    have := hx i (by omega)
    rw [sum_range_succ, if_pos rfl, if_pos le_rfl] at this
    rw [sum_eq_zero (fun j hj => by rw [mem_range] at hj; rw [if_neg (by omega)]), zero_add] at this
    exact mul_left_cancel₀ (hd i hi) (by rw [this, mul_one])
  have h1 := h (fun p => if p < i + 1 then x p else 0)
  have trunc : ∀ (f : Nat → ℝ), ∑ p ∈ range n, (if p < i + 1 then x p else 0) * f p =
      ∑ p ∈ range (i + 1), x p * f p := fun f => by
    rw [← sum_if_lt (show i + 1 ≤ n by omega)]
    refine sum_congr rfl fun p _ => ?_
    split_ifs <;> ring
  simp only [trunc] at h1
  have eB : ∀ k ∈ range n, (∑ p ∈ range (i + 1), x p * B p k) ^ 2 = if k = i then B i i ^ 2 else 0 := by
    intro k _
    by_cases hk : k < i + 1
    · have := hx k hk
      have e : ∑ p ∈ range (i + 1), x p * B p k = if k = i then B i i else 0 := by
        rw [← this]
        refine sum_congr rfl fun p _ => ?_
        split_ifs with hkp
        · ring
        · rw [hB p k (by omega), mul_zero]
      rw [e]
      split_ifs <;> ring
    · rw [if_neg (by omega), sum_eq_zero, sq, mul_zero]
      intro p hp
      rw [mem_range] at hp
      rw [hB p k (by omega), mul_zero]
  rw [sum_congr rfl eB, sum_ite_eq' (range n) i, if_pos (mem_range.2 hi)] at h1
  have hA2 : ∑ p ∈ range (i + 1), x p * A p i = A i i := by
    rw [sum_range_succ, sum_eq_zero, zero_add, hxi, one_mul]
    intro p hp
    rw [mem_range] at hp
    rw [hA p i hp, mul_zero]
  refine le_trans ?_ h1
  have := single_le_sum (f := fun k => (∑ p ∈ range (i + 1), x p * A p k) ^ 2) (fun k _ => sq_nonneg _)
    (mem_range.2 hi)
  rwa [hA2] at this

/-- The exact factor of a positive definite matrix. -/
theorem exact_factor {n : Nat} {F : Nat → Nat → ℝ} (hS : Symm n F) (hP : PosDef n F) :
    ∃ C : Nat → Nat → ℝ, (∀ i j, i < j → C i j = 0) ∧ (∀ i, i < n → 0 < C i i) ∧
      (∀ i j, i < n → j < n → ∑ k ∈ range n, C i k * C j k = F i j) := by
  obtain ⟨A, hA⟩ := exists_isMat n n F
  rcases Mat.cholesky_ok isSqrt_real hA hS with ⟨-, x, a, ha, hx1, hx2⟩ | ⟨⟨L, ret⟩, h1, h2⟩
  · have := hP x ⟨a, ha, by rw [hx1]; exact one_ne_zero⟩
    rw [hx2] at this
    exact absurd this (lt_irrefl _)
  rcases h2 with ⟨-, G, h3, h4⟩ | ⟨-, x, a, ha, hx1, hx2⟩
  · refine ⟨lowerPart G, fun i j hij => if_neg (by omega), fun i hi => ?_, chol_product hS h4⟩
    simp only [lowerPart, le_refl, if_true]
    exact chol_diag_pos hS h4 hP i hi
  · have := hP x ⟨a, ha, by rw [hx1]; exact one_ne_zero⟩
    exact absurd this (not_lt.2 hx2.le)

theorem log_gap {ρ a b : ℝ} (h0 : 0 ≤ ρ) (h1 : ρ < 1) (ha : 0 < a) (hb : 0 < b) (l : (1 - ρ) * b ^ 2 ≤ a ^ 2)
    (u : a ^ 2 ≤ (1 + ρ) * b ^ 2) : |Real.log a - Real.log b| ≤ 1 / 2 * (ρ / (1 - ρ)) := by
  have e : Real.log a - Real.log b = 1 / 2 * Real.log (a ^ 2 / b ^ 2) := by
    rw [Real.log_div (by positivity) (by positivity), Real.log_pow, Real.log_pow]
    push_cast
    ring
  have hr : 0 < a ^ 2 / b ^ 2 := by positivity
  have h2 : a ^ 2 / b ^ 2 ≤ 1 + ρ := by rw [div_le_iff₀ (by positivity)]; exact u
  have h3 : 1 - ρ ≤ a ^ 2 / b ^ 2 := by rw [le_div_iff₀ (by positivity)]; exact l
  have h4 := Real.log_le_sub_one_of_pos hr
  have h5 := Real.one_sub_inv_le_log_of_pos hr
  have h6 : (a ^ 2 / b ^ 2)⁻¹ ≤ (1 - ρ)⁻¹ := inv_anti₀ (by linarith) h3
  have h7 : (1 - ρ)⁻¹ = 1 + ρ / (1 - ρ) := by
    have : 1 - ρ ≠ 0 := by linarith
    rw [inv_eq_one_div, div_eq_iff this, add_mul, div_mul_cancel₀ _ this]
    ring
  have h8 : ρ ≤ ρ / (1 - ρ) := by
    rw [le_div_iff₀ (by linarith)]
    nlinarith
  rw [e, abs_mul, abs_of_pos (by norm_num : (0 : ℝ) < 1 / 2)]
  refine mul_le_mul_of_nonneg_left (abs_le.2 ⟨?_, ?_⟩) (by norm_num)
  · rw [h7] at h6; linarith
  · linarith

/-- The logarithm of a determinant from the pivots of a nearby matrix. -/
theorem logdet_near {n : Nat} {F G : Nat → Nat → ℝ} {e δ : ℝ} (he : 0 < e) (hδ : 0 ≤ δ) (hS : Symm n F)
    (hF : ∀ x : Nat → ℝ, e * ∑ p ∈ range n, x p ^ 2 ≤ quadForm n F x)
    (hd : ∀ i, i < n → 0 < G i i)
    (near : ∀ p q, p < n → q < n → |∑ k ∈ range n, lowerPart G p k * lowerPart G q k - F p q| ≤ δ)
    (hρ : n * δ / e < 1) :
    |∑ i ∈ range n, Real.log (G i i) - 1 / 2 * Real.log (toMatrix n F).det| ≤
      n / 2 * (n * δ / e / (1 - n * δ / e)) := by
  have hP : PosDef n F := by
    rintro x ⟨a, ha, hx⟩
    refine lt_of_lt_of_le ?_ (hF x)
    refine mul_pos he (sum_pos' (fun _ _ => sq_nonneg _) ⟨a, mem_range.2 ha, by positivity⟩)
  obtain ⟨C, c1, c2, c3⟩ := exact_factor hS hP
  set ρ := n * δ / e with hρd
  have hρ0 : 0 ≤ ρ := by positivity
  have hnδ : (n : ℝ) * δ = ρ * e := by rw [hρd]; field_simp
  have low : ∀ i j, i < j → lowerPart G i j = 0 := fun i j hij => if_neg (by omega)
  have diag : ∀ i, lowerPart G i i = G i i := fun i => if_pos le_rfl
  have qG : ∀ x : Nat → ℝ, quadForm n (fun p q => ∑ k ∈ range n, lowerPart G p k * lowerPart G q k) x =
      ∑ k ∈ range n, (∑ p ∈ range n, x p * lowerPart G p k) ^ 2 := fun x => quadForm_gram (fun _ _ _ _ => rfl) x
  have qF : ∀ x : Nat → ℝ, quadForm n F x = ∑ k ∈ range n, (∑ p ∈ range n, x p * C p k) ^ 2 :=
    fun x => quadForm_gram c3 x
  have slack : ∀ x : Nat → ℝ, δ * (n * ∑ p ∈ range n, x p ^ 2) ≤ ρ * quadForm n F x := fun x => by
    have := mul_le_mul_of_nonneg_left (hF x) hρ0
    calc δ * (n * ∑ p ∈ range n, x p ^ 2) = n * δ * ∑ p ∈ range n, x p ^ 2 := by ring
      _ = ρ * (e * ∑ p ∈ range n, x p ^ 2) := by rw [hnδ]; ring
      _ ≤ _ := this
  have up : ∀ i, i < n → G i i ^ 2 ≤ (1 + ρ) * C i i ^ 2 := fun i hi => by
    have := pivot_le (n := n) (A := lowerPart G) (B := C) (c := 1 + ρ) low c1 (fun i hi => (c2 i hi).ne') (fun x => by
      rw [← qG, ← qF]
      have h1 := quadForm_diff hδ near x
      have h2 := slack x
      linarith) hi
    rwa [diag] at this
  have dn : ∀ i, i < n → (1 - ρ) * C i i ^ 2 ≤ G i i ^ 2 := fun i hi => by
    have := pivot_le (n := n) (A := C) (B := lowerPart G) (c := 1 / (1 - ρ)) c1 low
      (fun i hi => by rw [diag]; exact (hd i hi).ne') (fun x => by
      rw [← qG, ← qF]
      have h1 := quadForm_diff hδ (fun p q hp hq => by rw [abs_sub_comm]; exact near p q hp hq) x
      have h2 := slack x
      rw [one_div, ← div_eq_inv_mul, le_div_iff₀ (by linarith)]
      linarith) hi
    rw [diag, one_div, ← div_eq_inv_mul, le_div_iff₀ (by linarith)] at this
    linarith
  have det : 1 / 2 * Real.log (toMatrix n F).det = ∑ i ∈ range n, Real.log (C i i) := by
    rw [det_gram (fun i j _ _ hij => c1 i j hij) c3, Real.log_pow,
      Real.log_prod (fun i hi => (c2 i (mem_range.1 hi)).ne')]
    push_cast
    ring
  rw [det, ← sum_sub_distrib]
  refine (abs_sum_le_sum_abs _ _).trans ?_
  refine (sum_le_sum fun i hi => log_gap hρ0 hρ (hd i (mem_range.1 hi)) (c2 i (mem_range.1 hi))
    (dn i (mem_range.1 hi)) (up i (mem_range.1 hi))).trans (le_of_eq ?_)
  rw [sum_const, card_range, nsmul_eq_mul]
  ring

/-! ## Rounding -/

theorem sigma_double {sqrt : ℝ → ℝ} {L : Libm ℝ} {s : Corr.ExpCorr ℝ} {average : Bool} {y : List ℝ} {f : Fit ℝ}
    (h : fit sqrt L s average y = .ok (some f)) : IsDouble f.sigmaSquared := by
  unfold fit at h
  obtain ⟨R, -, h⟩ := bind_ok_inv h
  obtain ⟨r, -, h⟩ := bind_ok_inv h
  split_ifs at h with hc
  · cases h
  obtain ⟨b, -, h⟩ := bind_ok_inv h
  obtain ⟨d, -, h⟩ := bind_ok_inv h
  obtain ⟨w, -, h⟩ := bind_ok_inv h
  obtain ⟨t, -, h⟩ := bind_ok_inv h
  obtain ⟨i, -, h⟩ := bind_ok_inv h
  obtain ⟨q, hq, h⟩ := bind_ok_inv h
  cases h
  rw [dbl_ok hq]
  exact fl_isDouble _

theorem log_two_le : Real.log 2 ≤ 7 / 10 := by
  have := Real.log_two_lt_d9
  linarith

/-- The logarithm between powers of two. -/
theorem log_range {x : ℝ} {a b : ℤ} (hx : 2 ^ a ≤ x) (hx2 : x ≤ 2 ^ b) (ha : a ≤ 0) (hb : 0 ≤ b) :
    7 / 10 * (a : ℝ) ≤ Real.log x ∧ Real.log x ≤ 7 / 10 * b := by
  have h0 : 0 < x := (zp _).trans_le hx
  have h1 := Real.log_le_log (zp _) hx
  have h2 := Real.log_le_log h0 hx2
  rw [Real.log_zpow] at h1 h2
  have l0 : 0 ≤ Real.log 2 := Real.log_nonneg (by norm_num)
  have l1 := log_two_le
  have ha' : (a : ℝ) ≤ 0 := by exact_mod_cast ha
  have hb' : (0 : ℝ) ≤ b := by exact_mod_cast hb
  constructor <;> nlinarith

/-- The computed logarithm of a number of known size. -/
theorem log_close {log : ℝ → ℝ} (hl : AccurateLog log) {x B : ℝ} (hx : IsDouble x) (h0 : 0 < x)
    (hB : |Real.log x| ≤ B) :
    IsDouble (log x) ∧ |log x - Real.log x| ≤ (B + 1) / 2 ^ 52 ∧ |log x| ≤ B + (B + 1) / 2 ^ 52 := by
  obtain ⟨h1, h2⟩ := hl x hx h0
  have tiny : (2 : ℝ) ^ (-1074 : ℤ) ≤ 1 / 2 ^ 52 := by
    have : (2 : ℝ) ^ (-52 : ℤ) = 1 / 2 ^ 52 := by rw [zpow_neg, one_div, ← zp_nat]; rfl
    rw [← this]
    exact zp_mono (by norm_num)
  have h3 : |log x - Real.log x| ≤ (B + 1) / 2 ^ 52 := by
    refine h2.trans ?_
    rw [add_div]
    exact add_le_add (div_le_div_of_nonneg_right hB (by positivity)) tiny
  refine ⟨h1, h3, ?_⟩
  have := abs_add_le (log x - Real.log x) (Real.log x)
  rw [sub_add_cancel] at this
  linarith

theorem fl_close {x B : ℝ} (h : |x| ≤ B) : |fl x - x| ≤ (B + 1) / 2 ^ 53 := by
  have h2 := fl_rel x
  have tiny : (eta : ℝ) ≤ 1 / 2 ^ 53 := by
    have : (2 : ℝ) ^ (-53 : ℤ) = 1 / 2 ^ 53 := by rw [zpow_neg, one_div, ← zp_nat]; rfl
    rw [← this]
    unfold eta
    exact zp_mono (by norm_num)
  have h3 : (eps : ℝ) * |x| ≤ B / 2 ^ 53 := by
    rw [div53]
    exact mul_le_mul_of_nonneg_left h (by unfold eps; positivity)
  rw [add_div]
  linarith

theorem dbl_close {x B : ℝ} (hB : B ≤ 2 ^ 60) (h : |x| ≤ B) :
    dbl x = .ok (fl x) ∧ |fl x - x| ≤ (B + 1) / 2 ^ 53 :=
  ⟨dbl_of_le (n := 60) (by norm_num) (by norm_num) (by
    have : (2 : ℝ) ^ (60 : ℤ) = 2 ^ 60 := zp_nat 60
    rw [this]
    exact h.trans hB), fl_close h⟩

/-- The log determinant of a factor with known pivots. -/
theorem logDeterminant_ok {log : ℝ → ℝ} (hl : AccurateLog log) {Lf : Mat ℝ} {n : Nat} {G : Nat → Nat → ℝ}
    (hn0 : 0 < n) (hn : n < 2 ^ 32) (hL : IsMat Lf n n (lowerPart G)) (hd : ∀ i, i < n → IsDouble (G i i))
    (h1 : ∀ i, i < n → 2 ^ (-75 : ℤ) ≤ G i i) (h2 : ∀ i, i < n → G i i ≤ 2 ^ (2 : ℤ)) :
    ∃ v, logDeterminant log Lf n = .ok v ∧ IsDouble v ∧
      |v - 2 * ∑ i ∈ range n, Real.log (G i i)| ≤ (108 * n ^ 2 + 220 * n) / 2 ^ 52 ∧ |v| ≤ 107 * n := by
  have hn1 : (1 : ℝ) ≤ n := by exact_mod_cast hn0
  have hn2 : (n : ℝ) ≤ 4294967296 := by exact_mod_cast hn.le
  have hpos : ∀ i, i < n → 0 < G i i := fun i hi => (zp _).trans_le (h1 i hi)
  have hlog : ∀ i, i < n → |Real.log (G i i)| ≤ 105 / 2 := fun i hi => by
    obtain ⟨a, b⟩ := log_range (h1 i hi) (h2 i hi) (by norm_num) (by norm_num)
    norm_num at a b
    exact abs_le.2 ⟨by linarith, by linarith⟩
  have hc : ∀ i, i < n → IsDouble (log (G i i)) ∧ |log (G i i) - Real.log (G i i)| ≤ (105 / 2 + 1) / 2 ^ 52 ∧
      |log (G i i)| ≤ 105 / 2 + (105 / 2 + 1) / 2 ^ 52 := fun i hi =>
    log_close hl (hd i hi) (hpos i hi) (hlog i hi)
  set f : Nat → Res ℝ := fun i => do
    let v ← vat ((List.range n).map fun i => lowerPart G i i) i
    if v ≤ 0 then .error .nonFinite else .ok (log v) with hf
  have ef : ∀ k, 0 ≤ k → k < n → f k = .ok (log (G k k)) := fun k _ hk => by
    have e : vat ((List.range n).map fun i => lowerPart G i i) k = .ok (G k k) := by
      simp [vat, hk, lowerPart]
    rw [hf]
    dsimp only
    rw [e, okBind, if_neg (not_le.2 (hpos k hk))]
  have hT : ∑ k ∈ Ico 0 n, |log (G k k)| ≤ 53 * n := by
    have : ∑ k ∈ Ico 0 n, |log (G k k)| ≤ ∑ _k ∈ Ico 0 n, (53 : ℝ) := sum_le_sum fun k hk => by
      have := (hc k (mem_Ico.1 hk).2).2.2
      norm_num at this ⊢
      linarith
    rw [sum_const, Nat.card_Ico, nsmul_eq_mul, Nat.sub_zero] at this
    linarith
  obtain ⟨t, ht⟩ := sum_total (f := f) (x := fun k => log (G k k)) (Nat.zero_le n) (by omega) ef
    (fun k _ hk => (hc k hk).1) (hT.trans (by
      have : (2 : ℝ) ^ (60 : ℤ) ≤ 2 ^ (1021 : ℤ) := zp_mono (by norm_num)
      refine le_trans ?_ this
      rw [show (2 : ℝ) ^ (60 : ℤ) = 2 ^ 60 from zp_nat 60]
      norm_num
      linarith))
  obtain ⟨-, hs⟩ := sum_post (f := f) (x := fun k => log (G k k)) (Nat.zero_le n)
    (fun k h hk v hv => by rw [ef k h hk] at hv; exact (Except.ok.inj hv).symm) (fun k _ hk => (hc k hk).1) t ht
  have hg := gam_le (K := ℝ) (n := n) (by omega)
  rw [Nat.sub_zero] at hs
  have hs2 : |t - ∑ k ∈ range n, log (G k k)| ≤ 53 * n ^ 2 / 2 ^ 52 := by
    rw [range_eq_Ico]
    refine hs.trans ((mul_le_mul hg hT (sum_nonneg fun _ _ => abs_nonneg _) (by positivity)).trans (le_of_eq ?_))
    ring
  have hs3 : |∑ k ∈ range n, log (G k k) - ∑ k ∈ range n, Real.log (G k k)| ≤ n * (54 / 2 ^ 52) := by
    rw [← sum_sub_distrib]
    refine (abs_sum_le_sum_abs _ _).trans ?_
    have : ∑ k ∈ range n, |log (G k k) - Real.log (G k k)| ≤ ∑ _k ∈ range n, (54 / 2 ^ 52 : ℝ) :=
      sum_le_sum fun k hk => ((hc k (mem_range.1 hk)).2.1).trans (by norm_num)
    rwa [sum_const, card_range, nsmul_eq_mul] at this
  have hs4 : |∑ k ∈ range n, Real.log (G k k)| ≤ n * (105 / 2) := by
    refine (abs_sum_le_sum_abs _ _).trans ?_
    have : ∑ k ∈ range n, |Real.log (G k k)| ≤ ∑ _k ∈ range n, (105 / 2 : ℝ) :=
      sum_le_sum fun k hk => hlog k (mem_range.1 hk)
    rwa [sum_const, card_range, nsmul_eq_mul] at this
  have hsq : (n : ℝ) ^ 2 / 2 ^ 52 ≤ n / 2 ^ 20 := by
    rw [sq, div_le_div_iff₀ (by positivity) (by positivity)]
    have := mul_le_mul_of_nonneg_left hn2 (by linarith : (0 : ℝ) ≤ n)
    nlinarith
  generalize ∑ k ∈ range n, log (G k k) = Sl at *
  generalize ∑ k ∈ range n, Real.log (G k k) = Sr at *
  have a1 := abs_le.1 hs2
  have a2 := abs_le.1 hs3
  have a3 := abs_le.1 hs4
  have ht2 : |2 * t| ≤ 106 * n := abs_le.2 ⟨by linarith, by linarith⟩
  obtain ⟨d1, d2⟩ := dbl_close (x := 2 * t) (B := 106 * n) (by norm_num; linarith) ht2
  refine ⟨fl (2 * t), ?_, fl_isDouble _, ?_, ?_⟩
  · unfold logDeterminant
    rw [Mat.diag_ok hL (by omega), okBind]
    show (do let sum ← sumFrom 0 n f; mul 2 sum) = _
    rw [ht, okBind]
    exact d1
  · have a4 := abs_le.1 d2
    refine abs_le.2 ⟨?_, ?_⟩ <;> linarith
  · have a4 := abs_le.1 d2
    have a5 := abs_le.1 ht2
    refine abs_le.2 ⟨?_, ?_⟩ <;> linarith

/-- The likelihood from a factor with known pivots. -/
theorem likelihoodOf_ok {log : ℝ → ℝ} (hl : AccurateLog log) {u : Updated ℝ} {n : Nat} {G : Nat → Nat → ℝ}
    (hn0 : 0 < n) (hn : n < 2 ^ 32) (hL : IsMat u.factor n n (lowerPart G)) (hd : ∀ i, i < n → IsDouble (G i i))
    (h1 : ∀ i, i < n → 2 ^ (-75 : ℤ) ≤ G i i) (h2 : ∀ i, i < n → G i i ≤ 2 ^ (2 : ℤ))
    (hs : IsDouble u.fit.sigmaSquared) (hs2 : u.fit.sigmaSquared ≤ 2 ^ 249) :
    ∃ v, likelihoodOf log n (some u) = .ok v ∧
      (¬ 0 < u.fit.sigmaSquared → v = -dblMax) ∧
      (0 < u.fit.sigmaSquared → IsDouble v ∧ |v| ≤ 2 ^ 60 ∧
        |v + (n / 2 * Real.log u.fit.sigmaSquared + ∑ i ∈ range n, Real.log (G i i))| ≤ n * (n + 6) / 2 ^ 44) := by
  have hn1 : (1 : ℝ) ≤ n := by exact_mod_cast hn0
  have hn2 : (n : ℝ) ≤ 4294967296 := by exact_mod_cast hn.le
  obtain ⟨ld, l1, l2, l3, l4⟩ := logDeterminant_ok hl hn0 hn hL hd h1 h2
  have hhalf : div (n : ℝ) 2 = .ok (n / 2) := by
    have e : IsDouble ((n : ℝ) / 2) := by
      refine ⟨n, -1, ?_, by norm_num, ?_⟩
      · rw [abs_of_nonneg (by positivity)]
        have : n < 2 ^ 53 := by omega
        exact_mod_cast this
      · rw [zpow_neg, zpow_one, Int.cast_natCast]; ring
    unfold Dbl.div
    rw [if_neg (by norm_num), dbl_of_le (n := 60) (by norm_num) (by norm_num), fl_of_double e]
    rw [abs_of_nonneg (by positivity), show (2 : ℝ) ^ (60 : ℤ) = 2 ^ 60 from zp_nat 60]
    norm_num
    linarith
  have start : likelihoodOf log n (some u) = (if u.fit.sigmaSquared > 0 then do
      let v ← mul (-((n : ℝ) / 2)) (log u.fit.sigmaSquared)
      let w ← mul (1 / 2) ld
      sub v w
    else .ok (-dblMax)) := by
    unfold likelihoodOf
    dsimp only
    rw [l1, okBind, hhalf, okBind]
  rw [start]
  by_cases hp : u.fit.sigmaSquared > 0
  swap
  · rw [if_neg hp]
    exact ⟨_, rfl, fun _ => rfl, fun h => absurd h hp⟩
  rw [if_pos hp]
  have hlog : |Real.log u.fit.sigmaSquared| ≤ 752 := by
    obtain ⟨a, b⟩ := log_range (double_pos_ge hs hp) (hs2.trans (le_of_eq (zp_nat 249).symm)) (by norm_num)
      (by norm_num)
    norm_num at a b
    exact abs_le.2 ⟨by linarith, by linarith⟩
  obtain ⟨-, g1, g2⟩ := log_close hl hs hp hlog
  generalize log u.fit.sigmaSquared = g at *
  generalize Real.log u.fit.sigmaSquared = r at *
  generalize ∑ i ∈ range n, Real.log (G i i) = S at *
  have hg : |-((n : ℝ) / 2) * g| ≤ 377 * n := by
    rw [abs_mul, abs_neg, abs_of_nonneg (by positivity)]
    have : (n : ℝ) / 2 * |g| ≤ n / 2 * 754 := by
      refine mul_le_mul_of_nonneg_left ?_ (by positivity)
      norm_num at g2 ⊢
      linarith
    linarith
  have hgr : |-((n : ℝ) / 2) * g + n / 2 * r| ≤ 377 * n / 2 ^ 52 := by
    rw [show -((n : ℝ) / 2) * g + n / 2 * r = -(n / 2) * (g - r) by ring, abs_mul, abs_neg,
      abs_of_nonneg (by positivity)]
    have := mul_le_mul_of_nonneg_left g1 (show (0 : ℝ) ≤ n / 2 by positivity)
    refine this.trans ?_
    norm_num
    linarith
  obtain ⟨v1, v2⟩ := dbl_close (by norm_num; linarith) hg
  have hw : |1 / 2 * ld| ≤ 54 * n := by
    rw [abs_mul, abs_of_pos (by norm_num)]
    linarith
  obtain ⟨w1, w2⟩ := dbl_close (by norm_num; linarith) hw
  have c0 := abs_le.1 hg
  have c1 := abs_le.1 v2
  have c2 := abs_le.1 hw
  have c3 := abs_le.1 w2
  have hz : |fl (-((n : ℝ) / 2) * g) - fl (1 / 2 * ld)| ≤ 432 * n := by
    generalize fl (-((n : ℝ) / 2) * g) = p at *
    generalize fl (1 / 2 * ld) = q at *
    generalize -((n : ℝ) / 2) * g = p0 at *
    refine abs_le.2 ⟨?_, ?_⟩ <;> linarith
  obtain ⟨z1, z2⟩ := dbl_close (by norm_num; linarith) hz
  refine ⟨_, by rw [show mul (-((n : ℝ) / 2)) g = _ from v1, okBind, show mul (1 / 2) ld = _ from w1, okBind]; exact z1,
    fun h => absurd hp h, fun _ => ⟨fl_isDouble _, ?_, ?_⟩⟩
  · have c4 := abs_le.1 hz
    have c5 := abs_le.1 z2
    generalize fl (fl (-((n : ℝ) / 2) * g) - fl (1 / 2 * ld)) = z at *
    generalize fl (-((n : ℝ) / 2) * g) - fl (1 / 2 * ld) = z0 at *
    refine abs_le.2 ⟨?_, ?_⟩ <;> linarith
  · have c5 := abs_le.1 z2
    have c6 := abs_le.1 hgr
    have c7 := abs_le.1 l3
    generalize fl (fl (-((n : ℝ) / 2) * g) - fl (1 / 2 * ld)) = z at *
    generalize fl (-((n : ℝ) / 2) * g) = p at *
    generalize fl (1 / 2 * ld) = q at *
    generalize -((n : ℝ) / 2) * g = p0 at *
    generalize (n : ℝ) / 2 * r = rr at *
    have e : (n : ℝ) * (n + 6) / 2 ^ 44 = (256 * n ^ 2 + 1536 * n) / 2 ^ 52 := by norm_num; ring
    have hsq : 0 ≤ (n : ℝ) ^ 2 := sq_nonneg _
    rw [e]
    generalize (n : ℝ) ^ 2 = n2 at *
    refine abs_le.2 ⟨?_, ?_⟩ <;> linarith

end Rodeo.Dbl
