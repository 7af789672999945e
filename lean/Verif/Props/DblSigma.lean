import Verif.Lemmas.DblSigma
import Verif.Props.DblCrowd
import Mathlib.Data.Rat.Floor

/-! # C139: the exploration factor in double arithmetic -/

set_option linter.unusedSectionVars false

namespace Rodeo
open Spec

variable {K : Type} [Field K] [LinearOrder K] [IsStrictOrderedRing K] [FloorRing K]

/-- **C139**, limits: with rounding, underflow and overflow the factor stays a number between its limits, unless
the coefficient and the crowding factor both vanish. -/
theorem C139_limits {coefficient crowding multiplier : K} {draw : Int × K} {lo hi : K}
    (hc : coefficient ≠ 0 ∨ crowding ≠ 0) (hm : 0 < multiplier) (hd : 0 < draw.2) (h : lo ≤ hi) :
    ∃ x, Dbl.sigmaFactorOf coefficient crowding multiplier draw lo hi = .fin x ∧ lo ≤ x ∧ x ≤ hi := by
  have h1 := Dbl.extScale_ne_nan hm (Dbl.extDiv_ne_nan hc)
  have h2 : (if draw.1 % 5 = 0 then
      Dbl.extScale draw.2 (Dbl.extScale multiplier (Dbl.extDiv coefficient crowding))
      else Dbl.extScale multiplier (Dbl.extDiv coefficient crowding)) ≠ .nan := by
    by_cases h5 : draw.1 % 5 = 0
    · rw [if_pos h5]; exact Dbl.extScale_ne_nan hd h1
    · rw [if_neg h5]; exact h1
  obtain ⟨x, e, a, b, -⟩ := Dbl.extClamp h2 h
  exact ⟨x, e, a, b⟩

/-- **C139**, value: for a positive crowding factor the result differs from the exact product, limited to the
interval from 1 to 100, by at most `2 ^ -40`, even if an intermediate result underflows or overflows. -/
theorem C139_value {coefficient crowding multiplier : K} {draw : Int × K}
    (hc0 : 0 ≤ coefficient) (hc : 0 < crowding) (hm : 1 ≤ multiplier) (hm2 : multiplier ≤ 2 ^ (900 : ℤ))
    (hd : 2 ≤ draw.2) (hd2 : draw.2 ≤ 3) :
    ∃ x, Dbl.sigmaFactorOf coefficient crowding multiplier draw 1 100 = .fin x ∧ 1 ≤ x ∧ x ≤ 100 ∧
      |x - max 1 (min 100 ((if draw.1 % 5 = 0 then draw.2 else 1) *
        (multiplier * (coefficient / crowding))))| ≤ 1 / 2 ^ 40 := by
  have he := Dbl.eps_pos (K := K)
  have hq : 0 ≤ coefficient / crowding := div_nonneg hc0 hc.le
  have heps : (Dbl.eps : K) = 1 / 2 ^ 53 := rfl
  have heta : (Dbl.eta : K) = 2 ^ (-1075 : ℤ) := rfl
  have hmq : 0 ≤ multiplier * (coefficient / crowding) := mul_nonneg (by linarith) hq
  have hmt : multiplier * Dbl.eta ≤ 2 ^ (-175 : ℤ) := by
    rw [heta]
    refine (mul_le_mul_of_nonneg_right hm2 (Dbl.zp _).le).trans ?_
    rw [← Dbl.zp_add]; exact Dbl.zp_mono (by norm_num)
  have hsmall : (2 : K) ^ (-175 : ℤ) ≤ 1 / 2 ^ 60 := by
    have : (2 : K) ^ (-175 : ℤ) ≤ 2 ^ (-60 : ℤ) := Dbl.zp_mono (by norm_num)
    refine this.trans (le_of_eq ?_)
    rw [zpow_neg]; norm_num
  have hetas : (Dbl.eta : K) ≤ 1 / 2 ^ 60 := by
    rw [heta]; exact (Dbl.zp_mono (by norm_num)).trans hsmall
  have hmt1 : multiplier * Dbl.eta ≤ 1 / 2 ^ 60 := hmt.trans hsmall
  have h1 := (Dbl.App.div hc0 hc).scale (m := multiplier) (t' := 1 / 2 ^ 58) hq hm
    (by rw [heps]; norm_num) (hmt1.trans (by norm_num)) (by
      have h2 : (1 + Dbl.eps) * (multiplier * Dbl.eta) ≤ 2 * (1 / 2 ^ 60 : K) := by
        refine mul_le_mul (by rw [heps]; norm_num) hmt1
          (mul_nonneg (by linarith) (Dbl.eta_pos).le) (by norm_num)
      have h3 : 2 * (1 / 2 ^ 60 : K) + 1 / 2 ^ 60 ≤ 1 / 2 ^ 58 := by norm_num
      linarith)
  have hfin : ∀ {y : Ext K} {e d t : K}, 0 ≤ e → d ≤ 1 / 2 ^ 50 → t ≤ 1 / 2 ^ 50 → Dbl.App d t y e →
      ∃ x, (if (if y.lt 1 then Ext.fin 1 else y).gt 100 then Ext.fin 100 else (if y.lt 1 then .fin 1 else y)) =
        .fin x ∧ 1 ≤ x ∧ x ≤ 100 ∧ |x - max 1 (min 100 e)| ≤ 1 / 2 ^ 40 := by
    intro y e d t h0 hd ht hA
    have hy : y ≠ .nan := by rintro rfl; exact hA
    obtain ⟨x, e1, a, b, c1, c2⟩ := Dbl.extClamp hy (show (1 : K) ≤ 100 by norm_num)
    refine ⟨x, e1, a, b, ?_⟩
    cases y with
    | nan => exact hA.elim
    | ninf => exact hA.elim
    | pinf =>
      have hA : (2 : K) ^ (1000 : ℤ) ≤ e := hA
      have h100 : (100 : K) ≤ 2 ^ (1000 : ℤ) := by
        have : (2 : K) ^ (7 : ℤ) ≤ 2 ^ (1000 : ℤ) := Dbl.zp_mono (by norm_num)
        exact le_trans (by norm_num) this
      rw [c2 rfl, min_eq_left (h100.trans hA), max_eq_right (by norm_num), sub_self, abs_zero]
      positivity
    | fin v =>
      rw [c1 v rfl]
      exact Dbl.clamp_alg h0 hd ht hA.2
  unfold Dbl.sigmaFactorOf
  dsimp only
  by_cases h5 : draw.1 % 5 = 0
  · rw [if_pos h5, if_pos h5]
    have h2 := h1.scale (m := draw.2) (t' := 1 / 2 ^ 50) hmq (by linarith)
      (by rw [heps]; norm_num) (by
        have : draw.2 * (1 / 2 ^ 58 : K) ≤ 3 * (1 / 2 ^ 58) := mul_le_mul_of_nonneg_right hd2 (by positivity)
        exact this.trans (by norm_num)) (by
        have h6 : draw.2 * (1 / 2 ^ 58 : K) ≤ 3 * (1 / 2 ^ 58) := mul_le_mul_of_nonneg_right hd2 (by positivity)
        have h7 : (1 + Dbl.eps) * (draw.2 * (1 / 2 ^ 58)) ≤ 2 * (3 * (1 / 2 ^ 58) : K) := by
          refine mul_le_mul (by rw [heps]; norm_num) h6 (mul_nonneg (by linarith) (by positivity)) (by norm_num)
        have h8 : 2 * (3 * (1 / 2 ^ 58) : K) + 1 / 2 ^ 60 ≤ 1 / 2 ^ 50 := by norm_num
        linarith)
    exact hfin (mul_nonneg (by linarith) hmq) (by rw [heps]; norm_num) le_rfl h2
  · rw [if_neg h5, if_neg h5, one_mul]
    exact hfin hmq (by rw [heps]; norm_num) (by norm_num) h1

/-- C139: if the recent designs are all the same and the initial ones were not, the factor is the largest
one. -/
theorem C139_crowded {coefficient multiplier : K} {draw : Int × K} (hc : 0 < coefficient) (hm : 0 < multiplier)
    (hd : 0 < draw.2) : Dbl.sigmaFactorOf coefficient 0 multiplier draw 1 100 = .fin 100 := by
  unfold Dbl.sigmaFactorOf Dbl.extDiv
  by_cases h : draw.1 % 5 = 0 <;> simp [h, Dbl.extScale, Ext.lt, Ext.gt, hc, hm, hd]

/-- C139: without a reset the multiplier stays in the range of `C139_value` for 31500 iterations. -/
theorem C139_multiplier {k : Nat} (hk : k ≤ 31500) :
    ∃ m : K, Dbl.multiplierAfter k = .ok m ∧ 1 ≤ m ∧ m ≤ 2 ^ (900 : ℤ) := by
  have hbound : ∀ j : Nat, j ≤ 31500 → (102 / 100 : K) ^ j ≤ 2 ^ (900 : ℤ) := by
    intro j hj
    have h1 : (1 : K) ≤ 102 / 100 := by norm_num
    calc (102 / 100 : K) ^ j ≤ (102 / 100) ^ (35 * 900) := pow_le_pow_right₀ h1 (by omega)
      _ = ((102 / 100) ^ 35) ^ 900 := pow_mul _ _ _
      _ ≤ 2 ^ 900 := by
          apply pow_le_pow_left₀ (by positivity)
          norm_num
      _ = 2 ^ (900 : ℤ) := by rw [← zpow_natCast]; rfl
  have hl : (1 : K) ≤ Dbl.lit (101 / 100) ∧ Dbl.lit (101 / 100) ≤ (1015 / 1000 : K) := by
    refine ⟨Dbl.double_le_fl Dbl.isDouble_one (by norm_num), ?_⟩
    have h := (abs_le.1 (Dbl.fl_rel (101 / 100 : K))).2
    have h2 : (Dbl.eta : K) ≤ 1 / 1000 := by
      have : (Dbl.eta : K) ≤ 2 ^ (-10 : ℤ) := Dbl.zp_mono (by norm_num)
      exact this.trans (by norm_num)
    have h3 : Dbl.eps * |(101 / 100 : K)| ≤ 1 / 1000 := by
      rw [abs_of_pos (by norm_num)]; unfold Dbl.eps; norm_num
    unfold Dbl.lit
    linarith
  have key : ∀ j : Nat, j ≤ 31500 → ∃ m : K, Dbl.multiplierAfter j = .ok m ∧ 1 ≤ m ∧ m ≤ (102 / 100) ^ j := by
    intro j
    induction j with
    | zero => intro _; exact ⟨1, rfl, le_rfl, by simp⟩
    | succ j ih =>
      intro hj
      obtain ⟨m, e, h1, h2⟩ := ih (by omega)
      have hp1 : 1 ≤ m * Dbl.lit (101 / 100) := by
        calc (1 : K) = 1 * 1 := by ring
          _ ≤ m * Dbl.lit (101 / 100) := mul_le_mul h1 hl.1 zero_le_one (by linarith)
      have hp2 : m * Dbl.lit (101 / 100) ≤ m * (1015 / 1000) := mul_le_mul_of_nonneg_left hl.2 (by linarith)
      have hp3 : m * (102 / 100) ≤ (102 / 100) ^ (j + 1) := by
        rw [pow_succ]; exact mul_le_mul_of_nonneg_right h2 (by norm_num)
      have hb := hbound (j + 1) hj
      refine ⟨Dbl.fl (m * Dbl.lit (101 / 100)), ?_, Dbl.double_le_fl Dbl.isDouble_one hp1, ?_⟩
      · show (Dbl.multiplierAfter j >>= fun m => Dbl.mul m (Dbl.lit (101 / 100))) = _
        refine bind_eq e ?_
        refine Dbl.dbl_of_le (n := 900) (by norm_num) (by norm_num) ?_
        rw [abs_of_nonneg (by linarith)]
        refine le_trans ?_ (hp3.trans hb)
        linarith
      · refine le_trans ?_ hp3
        have h := (abs_le.1 (Dbl.fl_rel (m * Dbl.lit (101 / 100)))).2
        rw [abs_of_nonneg (by linarith)] at h
        have h3 : (Dbl.eta : K) ≤ 1 / 1000 := by
          have : (Dbl.eta : K) ≤ 2 ^ (-10 : ℤ) := Dbl.zp_mono (by norm_num)
          exact this.trans (by norm_num)
        have h4 : Dbl.eps * (m * Dbl.lit (101 / 100)) ≤ 1 / 1000 * (m * (1015 / 1000) : K) := by
          refine mul_le_mul (by unfold Dbl.eps; norm_num) hp2 (by linarith) (by norm_num)
        linarith
  obtain ⟨m, e, h1, h2⟩ := key k hk
  exact ⟨m, e, h1, h2.trans (hbound k hk)⟩

/-- C139: two vanishing distances give NaN. -/
theorem C139_nan (multiplier : K) (draw : Int × K) (lo hi : K) :
    Dbl.sigmaFactorOf 0 0 multiplier draw lo hi = .nan := by
  unfold Dbl.sigmaFactorOf Dbl.extDiv
  by_cases h : draw.1 % 5 = 0 <;> simp [h, Dbl.extScale, Ext.lt, Ext.gt]

/-- C139 for the whole call, on a history as in `C138_mean` and with a positive coefficient: it completes, changes
nothing but the crowding factor, and the factor is between 1 and 100; it is 100 if the recent designs are all
the same, and otherwise, if the multiplier is at most `2 ^ 900` and the crowding factor is not rounded to zero, it
is the limited product of multiplier, quotient and increase up to `2 ^ -40`. -/
theorem C139_adjust {h : History K} {n m : Nat} {F : Nat → Nat → K} (hA : IsMat h.data n m F)
    (hd : h.dimension ≠ 0) (hm : h.dimension < m) (hs : h.numberOfDoESamples ≠ 0)
    (hn : h.numberOfDoESamples ≤ n) (h32 : h.numberOfDoESamples ≤ 65536) (hdim : h.dimension ≤ 2 ^ 32)
    (hF : ∀ i j, i < n → j < h.dimension → IsDouble (F i j) ∧ |F i j| ≤ 2 ^ (500 : ℤ))
    {coefficient multiplier : K} {draw : Int × K} (hc : 0 < coefficient) (hmul : 1 ≤ multiplier)
    (hd1 : 2 ≤ draw.2) (hd2 : draw.2 ≤ 3) :
    ∃ c x, Dbl.adjustSigmaFactor h coefficient multiplier draw = .ok ({ h with crowding := c }, .fin x) ∧
      1 ≤ x ∧ x ≤ 100 ∧ 0 ≤ c ∧
      ((∀ i i' j, i < h.numberOfDoESamples → i' < h.numberOfDoESamples → j < h.dimension →
        F (n - h.numberOfDoESamples + i) j = F (n - h.numberOfDoESamples + i') j) → x = 100) ∧
      (0 < c → multiplier ≤ 2 ^ (900 : ℤ) →
        |x - max 1 (min 100 ((if draw.1 % 5 = 0 then draw.2 else 1) * (multiplier * (coefficient / c))))| ≤
          1 / 2 ^ 40) := by
  obtain ⟨c, e, -, h0, -, heq⟩ := C138_mean hA hd hm hs hn h32 hdim hF
  obtain ⟨x, ex, x1, x2⟩ := C139_limits (coefficient := coefficient) (crowding := c) (multiplier := multiplier)
    (draw := draw) (lo := 1) (hi := 100) (Or.inl hc.ne') (by linarith) (by linarith) (by norm_num)
  refine ⟨c, x, ?_, x1, x2, h0, fun hall => ?_, fun hc0 hm9 => ?_⟩
  · unfold Dbl.adjustSigmaFactor
    refine bind_eq e ?_
    dsimp only
    rw [ex]
  · have hz := heq hall
    rw [hz, C139_crowded hc (by linarith) (by linarith)] at ex
    cases ex
    rfl
  · obtain ⟨y, ey, -, -, hy⟩ := C139_value hc.le hc0 hmul hm9 hd1 hd2
    rw [ex] at ey
    cases ey
    exact hy

set_option maxRecDepth 100000 in
/-- The whole call: the initial designs had mean distance 6, the recent ones have 3/2. -/
example : (Dbl.adjustSigmaFactor { (History.new : History ℚ) with
      dimension := 2, data := ⟨3, 3, [9, 1, 2, 9, 3, 5 / 2, 9, 9, 9]⟩,
      numberOfDoESamples := 2 } 6 1 (1, 2)).toOption.map (fun r => (r.1.crowding, r.2)) =
    some (3 / 2, .fin 4) := by
  decide +kernel

set_option maxRecDepth 100000 in
/-- A coefficient of 3, a crowding factor of 2 and a multiplier of 4; then with a random increase; then with an
overflow of the quotient. -/
example : Dbl.sigmaFactorOf (3 : ℚ) 2 4 (1, 2) 1 100 = .fin 6 ∧
    Dbl.sigmaFactorOf (3 : ℚ) 2 4 (5, 5 / 2) 1 100 = .fin 15 ∧
    Dbl.sigmaFactorOf (2 ^ 1000 : ℚ) (1 / 2 ^ 1000) 4 (1, 2) 1 100 = .fin 100 := by
  decide +kernel

end Rodeo
