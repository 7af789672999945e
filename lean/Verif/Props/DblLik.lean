import Verif.Lemmas.DblLik
import Verif.Props.DblVar

/-! # C127: the likelihood of a Kriging model in double arithmetic -/

set_option linter.unusedSectionVars false

namespace Rodeo

open Spec Dbl Finset

theorem isDouble_dblMax : IsDouble (dblMax : ℝ) := by
  refine ⟨2 ^ 53 - 1, 971, by norm_num, by norm_num, ?_⟩
  unfold dblMax
  rw [show (2 : ℝ) ^ (971 : ℤ) = 2 ^ 971 from zp_nat 971]
  rw [show (1024 : Nat) = 53 + 971 by norm_num, pow_add]
  push_cast
  ring

theorem neg_likelihood {v : ℝ} (hv : IsDouble v) (h : |v| < 2 ^ 1024) : Dbl.mul (-1) v = .ok (-v) := by
  unfold Dbl.mul dbl
  rw [neg_one_mul, fl_of_double (isDouble_neg hv), if_pos (by rwa [abs_neg])]

/-- C127: if the number on the diagonal is above the rounding errors and no output is tiny, every likelihood is
a finite double and the training minimizes its negative.  The estimated variance is not negative; if it is 0 the
likelihood is the lowest double, otherwise it differs from that of the exact correlation matrix with this
variance by at most the rounding errors of the sum and of the pivots. -/
theorem C127_partial {sqrt : ℝ → ℝ} (hs : IsSqrt sqrt) {L : Libm ℝ} (hL : Accurate L) {log : ℝ → ℝ}
    (hlog : AccurateLog log) {s : Corr.ExpCorr ℝ} {n m : Nat} {F : Nat → Nat → ℝ} (h : ReadyDbl s n m F)
    (hn0 : 0 < n) (hn : n < 2 ^ 32) (hm : m ≤ 2 ^ 32)
    (hc : 10 / 3 * (((n : ℝ) + 1) * ((n + 2) / 2 ^ 53)) * (1 + 2 * s.base.epsilon) + n * ((m : ℝ) + 10) / 2 ^ 54 ≤
      s.base.epsilon)
    {y : List ℝ} (hy : y.length = n) (hyd : Doubles y)
    (hys : ∀ t ∈ y, |t| ≤ 2 ^ 30 ∧ (t = 0 ∨ 2 ^ (-200 : ℤ) ≤ |t|)) (average : Bool) :
    ∃ f v, Dbl.fit sqrt L s average y = .ok (some f) ∧ Dbl.likelihood sqrt L log s average y = .ok v ∧
      Dbl.likelihoodScore sqrt L log s average y = .ok (-v) ∧ IsDouble v ∧
      pivotError n m s.base.epsilon < 1 ∧
      ((f.sigmaSquared = 0 ∧ v = -dblMax ∧ ∀ a ∈ y, ∀ b ∈ y, a = b) ∨
        (0 < f.sigmaSquared ∧
          |v - -likelihoodLoss n (krigingMatrix m (vecFun s.theta) (vecFun s.gamma) s.base.epsilon F) f.sigmaSquared| ≤
            n * (n + 6) / 2 ^ 44 +
              n / 2 * (pivotError n m s.base.epsilon / (1 - pivotError n m s.base.epsilon)))) := by
  obtain ⟨R, G, Lf, M, μ, t, S⟩ := system_ok hs hL h hn0 hn hm hc
  obtain ⟨u, oo, u1, u2, u3, -, -, -, -, u8, u9, -, -, -, u13⟩ := S.update hn0 hn hy hyd
    (fun a ha => vecFun_all (fun t ht => (hys t ht).1) (by omega))
    (fun a ha => vecFun_all (fun t ht => (hys t ht).2) (by omega)) average
  obtain ⟨H, p1, p2⟩ := S.pivots
  have hM1 := S.one_le
  have hM3 := S.le_three
  have hh1 := hh_low (K := ℝ) hn0
  have hh2 := hh_high (K := ℝ) hn.le
  have hn1 : (1 : ℝ) ≤ n := by exact_mod_cast hn0
  have hhM : 0 < hh n * M := mul_pos (by linarith) (by linarith)
  have he : 0 < s.base.epsilon := by
    have := S.mu_pos
    rw [S.mu_eq] at this
    have h2 : (0 : ℝ) ≤ n * ((m : ℝ) + 10) / 2 ^ 54 := by positivity
    linarith
  have pos : ∀ i, i < n → 0 < H i i := fun i hi => (zp _).trans_le (p2 i hi).2.1
  have p4 : ∀ i, i < n → H i i ≤ 2 ^ (2 : ℤ) := fun i hi => by
    have a1 := (abs_le.1 ((p2 i hi).1 i le_rfl)).1
    have a2 := (le_abs_self _).trans (S.entry i i hi hi)
    have a3 : hh n * M ≤ 1 / 2 ^ 20 * 3 := mul_le_mul hh2 hM3 (by linarith) (by norm_num)
    have a4 := single_le_sum (f := fun k => H i k * H i k) (fun k _ => mul_self_nonneg _)
      (mem_range.2 (Nat.lt_succ_self i))
    have a5 := pos i hi
    rw [show (2 : ℝ) ^ (2 : ℤ) = 4 by norm_num]
    norm_num at a3
    by_contra hcon
    rw [not_le] at hcon
    nlinarith
  have hδ : 0 ≤ 33 / 32 * hh n * M + ((m : ℝ) + 10) / 2 ^ 54 := by
    have : (0 : ℝ) ≤ ((m : ℝ) + 10) / 2 ^ 54 := by positivity
    linarith
  have eρ : pivotError n m s.base.epsilon =
      n * (33 / 32 * hh n * M + ((m : ℝ) + 10) / 2 ^ 54) / s.base.epsilon := by
    unfold pivotError hh
    rw [S.M_eq]
  have hρ : pivotError n m s.base.epsilon < 1 := by
    rw [eρ, div_lt_one he]
    have a1 := S.mu_low
    rw [S.mu_eq] at a1
    have a2 : (n : ℝ) * (hh n * M) < 10 / 3 * ((n + 1) * (hh n * M)) * (32 / 33) := by nlinarith
    have a3 : (n : ℝ) * ((m : ℝ) + 10) / 2 ^ 54 = n * (((m : ℝ) + 10) / 2 ^ 54) := by ring
    rw [a3] at a1
    nlinarith
  have ht : ∀ k, k < m → 0 ≤ vecFun s.theta k := fun k hk =>
    (vecFun_all h.theta_range (k := k) (by rw [h.theta_len]; exact hk)).2.1
  have hg : ∀ k, k < m → 0 ≤ vecFun s.gamma k ∧ vecFun s.gamma k ≤ 2 := fun k hk =>
    (vecFun_all h.gamma_range (k := k) (by rw [h.gamma_len]; exact hk)).2
  have near := logdet_near (n := n)
    (F := krigingMatrix m (vecFun s.theta) (vecFun s.gamma) s.base.epsilon F) (G := H) he hδ
    (krigingMatrix_symm _ _ _ _ _ _) (fun x => krigingMatrix_margin ht hg x) pos (fun p q hp hq => by
      have a1 := good_product S.sym p2 p q hp hq
      have a2 := S.near p q hp hq
      rw [abs_sub_comm] at a1
      have := abs_add_le (∑ k ∈ range n, lowerPart H p k * lowerPart H q k - G p q)
        (G p q - krigingMatrix m (vecFun s.theta) (vecFun s.gamma) s.base.epsilon F p q)
      rw [sub_add_sub_cancel] at this
      linarith) (by rw [← eρ]; exact hρ)
  rw [← eρ] at near
  obtain ⟨v, v1, v2, v3⟩ := likelihoodOf_ok hlog (u := u) hn0 hn (by rw [u3]; exact p1)
    (fun i hi => (p2 i hi).2.2.2) (fun i hi => (p2 i hi).2.1) p4 (sigma_double u2) u9
  have el : Dbl.likelihood sqrt L log s average y = .ok v := by
    unfold Dbl.likelihood
    rw [u1, okBind, hy]
    exact v1
  have score : IsDouble v → |v| < 2 ^ 1024 → Dbl.likelihoodScore sqrt L log s average y = .ok (-v) := fun a b => by
    unfold Dbl.likelihoodScore
    rw [el, okBind, neg_likelihood a b]
  rcases u8.eq_or_lt with h0 | h0
  · have hv := v2 (by rw [← h0]; exact lt_irrefl _)
    have d : IsDouble v := by rw [hv]; exact isDouble_neg isDouble_dblMax
    refine ⟨u.fit, v, u2, el, score d ?_, d, hρ, Or.inl ⟨h0.symm, hv, fun a ha b hb => ?_⟩⟩
    · rw [hv, abs_neg]
      unfold dblMax
      rw [abs_of_pos]
      · exact sub_lt_self _ (by positivity)
      · exact sub_pos.2 (pow_lt_pow_right₀ (by norm_num) (by norm_num))
    · by_contra hab
      obtain ⟨i, hi, rfl⟩ := List.getElem_of_mem ha
      obtain ⟨j, hj, rfl⟩ := List.getElem_of_mem hb
      have := u13 ⟨i, j, by omega, by omega, by simpa [vecFun, hi, hj] using hab⟩
      rw [← h0] at this
      exact lt_irrefl _ this
  · obtain ⟨d, b, c⟩ := v3 h0
    refine ⟨u.fit, v, u2, el, score d (b.trans_lt (pow_lt_pow_right₀ (by norm_num) (by norm_num))), d, hρ,
      Or.inr ⟨h0, ?_⟩⟩
    unfold likelihoodLoss
    have a1 := abs_le.1 c
    have a2 := abs_le.1 near
    refine abs_le.2 ⟨?_, ?_⟩ <;> linarith

/-- C127: if two outputs differ, the estimated variance is positive, so that the likelihood is a proper value. -/
theorem C127_positive {sqrt : ℝ → ℝ} (hs : IsSqrt sqrt) {L : Libm ℝ} (hL : Accurate L) {log : ℝ → ℝ}
    (hlog : AccurateLog log) {s : Corr.ExpCorr ℝ} {n m : Nat} {F : Nat → Nat → ℝ} (h : ReadyDbl s n m F)
    (hn0 : 0 < n) (hn : n < 2 ^ 32) (hm : m ≤ 2 ^ 32)
    (hc : 10 / 3 * (((n : ℝ) + 1) * ((n + 2) / 2 ^ 53)) * (1 + 2 * s.base.epsilon) + n * ((m : ℝ) + 10) / 2 ^ 54 ≤
      s.base.epsilon)
    {y : List ℝ} (hy : y.length = n) (hyd : Doubles y)
    (hys : ∀ t ∈ y, |t| ≤ 2 ^ 30 ∧ (t = 0 ∨ 2 ^ (-200 : ℤ) ≤ |t|)) (average : Bool)
    (hd : ∃ a ∈ y, ∃ b ∈ y, a ≠ b) :
    ∃ f v, Dbl.fit sqrt L s average y = .ok (some f) ∧ 0 < f.sigmaSquared ∧
      Dbl.likelihoodScore sqrt L log s average y = .ok v ∧
      |v - likelihoodLoss n (krigingMatrix m (vecFun s.theta) (vecFun s.gamma) s.base.epsilon F) f.sigmaSquared| ≤
        n * (n + 6) / 2 ^ 44 +
          n / 2 * (pivotError n m s.base.epsilon / (1 - pivotError n m s.base.epsilon)) := by
  obtain ⟨f, v, h1, -, h3, -, -, h6⟩ := C127_partial hs hL hlog h hn0 hn hm hc hy hyd hys average
  obtain ⟨a, ha, b, hb, hab⟩ := hd
  rcases h6 with ⟨-, -, h7⟩ | ⟨h7, h8⟩
  · exact absurd (h7 a ha b hb) hab
  · refine ⟨f, -v, h1, h7, h3, ?_⟩
    rw [← abs_neg]
    convert h8 using 2
    ring

/-! ## The full statement and why it fails -/

/-- C127, full statement: for all allowed parameters the likelihood is a number. -/
def C127_full : Prop :=
  ∀ (L : Libm ℝ) (log : ℝ → ℝ) (s : Corr.ExpCorr ℝ) (n m : Nat) (F : Nat → Nat → ℝ) (y : List ℝ), Accurate L →
    AccurateLog log → ReadyDbl s n m F → 0 < n → y.length = n → Doubles y →
    (∀ t ∈ y, |t| ≤ 1 ∧ (t = 0 ∨ 2 ^ (-200 : ℤ) ≤ |t|)) →
    ∃ v, Dbl.likelihood Real.sqrt L log s false y = .ok v

/-- The logarithm, rounded. -/
noncomputable def exLog (x : ℝ) : ℝ := fl (Real.log x)

theorem exLog_accurate : AccurateLog exLog := by
  intro x _ _
  refine ⟨fl_isDouble _, (fl_rel _).trans (add_le_add ?_ ?_)⟩
  · rw [show (eps : ℝ) * |Real.log x| = |Real.log x| / 2 ^ 53 by rw [div53]]
    exact div_le_div_of_nonneg_left (abs_nonneg _) (by positivity) (by norm_num)
  · unfold eta
    exact zp_mono (by norm_num)

/-- Two equal samples with different outputs and no number on the diagonal. -/
theorem C127_false : ¬ C127_full := by
  intro h
  have one_ge : (2 : ℝ) ^ (-200 : ℤ) ≤ 1 := by
    have : (2 : ℝ) ^ (-200 : ℤ) ≤ 2 ^ (0 : ℤ) := zp_mono (by norm_num)
    rwa [zpow_zero] at this
  obtain ⟨v, hv⟩ := h exLibm exLog (exObject 0 [0, 0]) 2 1 _ [0, 1] exLibm_accurate exLog_accurate exTwin_ready
    (by norm_num) rfl
    (fun t ht => by
      simp only [List.mem_cons, List.not_mem_nil, or_false] at ht
      rcases ht with rfl | rfl
      · exact isDouble_zero
      · exact isDouble_one)
    (fun t ht => by
      simp only [List.mem_cons, List.not_mem_nil, or_false] at ht
      rcases ht with rfl | rfl
      · exact ⟨by norm_num, Or.inl rfl⟩
      · exact ⟨by norm_num, Or.inr (by rw [abs_one]; exact one_ge)⟩)
  unfold Dbl.likelihood Dbl.update at hv
  rw [exTwin_fit] at hv
  cases hv

/-! ## A case of the theorems -/

/-- Three samples, two of them equal with different outputs. -/
example : ∃ f v, Dbl.fit Real.sqrt exLibm (exObject (fl (1 / 10 ^ 12)) [0, 0, 1]) false [0, 1, -1] = .ok (some f) ∧
    0 < f.sigmaSquared ∧
    Dbl.likelihoodScore Real.sqrt exLibm exLog (exObject (fl (1 / 10 ^ 12)) [0, 0, 1]) false [0, 1, -1] = .ok v := by
  obtain ⟨f, v, h1, h2, h3, -⟩ := C127_positive isSqrt_real exLibm_accurate exLog_accurate exThree_ready (by norm_num)
    (by norm_num) (by norm_num) exThree_cond rfl exThree_outputs.1 exThree_not_tiny false
    ⟨0, by simp, 1, by simp, by norm_num⟩
  exact ⟨f, v, h1, h2, h3⟩

/-- Three equal outputs: the hypotheses hold as well. -/
example : ∃ v, Dbl.likelihood Real.sqrt exLibm exLog (exObject (fl (1 / 10 ^ 12)) [0, 0, 1]) true [0, 0, 0] = .ok v := by
  obtain ⟨f, v, -, h2, -⟩ := C127_partial isSqrt_real exLibm_accurate exLog_accurate exThree_ready (by norm_num)
    (by norm_num) (by norm_num) exThree_cond (y := [0, 0, 0]) rfl
    (fun t ht => by
      simp only [List.mem_cons, List.not_mem_nil, or_false, or_self] at ht
      rw [ht]; exact isDouble_zero)
    (fun t ht => by
      simp only [List.mem_cons, List.not_mem_nil, or_false, or_self] at ht
      rw [ht]; exact ⟨by norm_num, Or.inl rfl⟩) true
  exact ⟨v, h2⟩

end Rodeo
