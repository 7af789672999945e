import Verif.Lemmas.DblVar
import Verif.Props.DblCorr

/-! # C125: the variance of a Kriging model in double arithmetic -/

set_option linter.unusedSectionVars false

namespace Rodeo

open Spec Dbl Finset

/-- C125, with bounds: the estimate is at most `2 ^ 200`, the variance at most `2 ^ 400`. -/
theorem C125_bounds {sqrt : ℝ → ℝ} (hs : IsSqrt sqrt) {L : Libm ℝ} (hL : Accurate L) (hL2 : AccurateSquare L)
    {s : Corr.ExpCorr ℝ} {n m : Nat} {F : Nat → Nat → ℝ} (h : ReadyDbl s n m F) (hn0 : 0 < n) (hn : n ≤ 10 ^ 6)
    (hm : m ≤ 1000)
    (hc : 10 / 3 * (((n : ℝ) + 1) * ((n + 2) / 2 ^ 53)) * (1 + 2 * s.base.epsilon) + n * ((m : ℝ) + 10) / 2 ^ 54 ≤
      s.base.epsilon)
    {y : List ℝ} (hy : y.length = n) (hyd : Doubles y)
    (hys : ∀ t ∈ y, |t| ≤ 2 ^ 30 ∧ (t = 0 ∨ 2 ^ (-200 : ℤ) ≤ |t|)) (average : Bool) :
    ∃ u, Dbl.update sqrt L s average y = .ok (some u) ∧
      ∀ x : List ℝ, x.length = m → (∀ t ∈ x, IsDouble t ∧ |t| ≤ 2 ^ (100 : ℤ)) →
        ∃ p v, Dbl.estimate L s u.fit x = .ok p ∧ Dbl.variance L s u x = .ok v ∧ 0 ≤ v ∧
          Dbl.predict sqrt L s u x = .ok (p, fl (sqrt v)) ∧ IsDouble p ∧ |p| ≤ 2 ^ (200 : ℤ) ∧
          |fl (sqrt v)| ≤ 2 ^ (200 : ℤ) := by
  obtain ⟨R, G, Lf, M, μ, t, S⟩ := system_ok hs hL h hn0 (by omega) (by omega) hc
  obtain ⟨u, oo, u1, -, u3, u4, u5, u6, u7, u8, u9, u10, u11, u12, -⟩ := S.update hn0 (by omega) hy hyd
    (fun a ha => vecFun_all (fun t ht => (hys t ht).1) (by omega))
    (fun a ha => vecFun_all (fun t ht => (hys t ht).2) (by omega)) average
  refine ⟨u, u1, fun x lx hx => ?_⟩
  obtain ⟨p, hp, hp1, hp2⟩ := estimate_ok hL h (by omega) (by omega) u10 u11 u12 x lx hx
  obtain ⟨v, v1, v2, v3⟩ := S.variance hL hL2 h hn0 hn hm u3 u4 u5 u6 u7 u8 u9 x lx hx
  obtain ⟨s1, s2⟩ := hs v v2
  have h200 : (2 : ℝ) ^ (200 : ℤ) = 2 ^ 200 := zp_nat 200
  have hle : |sqrt v| ≤ 2 ^ (200 : ℤ) := by
    rw [abs_of_nonneg s1, h200]
    refine le_of_sq_le_sq ?_ (by positivity)
    rw [sq, sq, s2, ← pow_add]
    exact v3
  refine ⟨p, v, hp, v1, v2, ?_, hp1, hp2, fl_abs_le (by norm_num) hle⟩
  unfold predict
  rw [hp, okBind, v1, okBind, if_neg (by linarith)]
  rw [dbl_of_le (n := 200) (by norm_num) (by norm_num) hle, okBind]

/-- C125: if the number on the diagonal is above the rounding errors and no output is tiny, every model is
fitted, and at every point the estimate and the variance are finite, the variance is not negative, and the
standard deviation is the rounded root of it. -/
theorem C125_partial {sqrt : ℝ → ℝ} (hs : IsSqrt sqrt) {L : Libm ℝ} (hL : Accurate L) (hL2 : AccurateSquare L)
    {s : Corr.ExpCorr ℝ} {n m : Nat} {F : Nat → Nat → ℝ} (h : ReadyDbl s n m F) (hn0 : 0 < n) (hn : n ≤ 10 ^ 6)
    (hm : m ≤ 1000)
    (hc : 10 / 3 * (((n : ℝ) + 1) * ((n + 2) / 2 ^ 53)) * (1 + 2 * s.base.epsilon) + n * ((m : ℝ) + 10) / 2 ^ 54 ≤
      s.base.epsilon)
    {y : List ℝ} (hy : y.length = n) (hyd : Doubles y)
    (hys : ∀ t ∈ y, |t| ≤ 2 ^ 30 ∧ (t = 0 ∨ 2 ^ (-200 : ℤ) ≤ |t|)) (average : Bool) :
    ∃ u, Dbl.update sqrt L s average y = .ok (some u) ∧
      ∀ x : List ℝ, x.length = m → (∀ t ∈ x, IsDouble t ∧ |t| ≤ 2 ^ (100 : ℤ)) →
        ∃ p v, Dbl.estimate L s u.fit x = .ok p ∧ Dbl.variance L s u x = .ok v ∧ 0 ≤ v ∧
          Dbl.predict sqrt L s u x = .ok (p, fl (sqrt v)) := by
  obtain ⟨u, h1, h2⟩ := C125_bounds hs hL hL2 h hn0 hn hm hc hy hyd hys average
  refine ⟨u, h1, fun x lx hx => ?_⟩
  obtain ⟨p, v, p1, v1, v2, p2, -⟩ := h2 x lx hx
  exact ⟨p, v, p1, v1, v2, p2⟩

/-- C125: the same with the default number on the diagonal, for at most 45 samples of at most 45 variables. -/
theorem C125_default {sqrt : ℝ → ℝ} (hs : IsSqrt sqrt) {L : Libm ℝ} (hL : Accurate L) (hL2 : AccurateSquare L)
    {s : Corr.ExpCorr ℝ} {n m : Nat} {F : Nat → Nat → ℝ} (h : ReadyDbl s n m F) (hn0 : 0 < n) (hn : n ≤ 45)
    (hm : m ≤ 45) (he : s.base.epsilon = fl (1 / 10 ^ 12))
    {y : List ℝ} (hy : y.length = n) (hyd : Doubles y)
    (hys : ∀ t ∈ y, |t| ≤ 2 ^ 30 ∧ (t = 0 ∨ 2 ^ (-200 : ℤ) ≤ |t|)) (average : Bool) :
    ∃ u, Dbl.update sqrt L s average y = .ok (some u) ∧
      ∀ x : List ℝ, x.length = m → (∀ t ∈ x, IsDouble t ∧ |t| ≤ 2 ^ (100 : ℤ)) →
        ∃ p v, Dbl.estimate L s u.fit x = .ok p ∧ Dbl.variance L s u x = .ok v ∧ 0 ≤ v ∧
          Dbl.predict sqrt L s u x = .ok (p, fl (sqrt v)) := by
  refine C125_partial hs hL hL2 h hn0 (by omega) (by omega) ?_ hy hyd hys average
  obtain ⟨h1, h2⟩ := eps_default
  rw [← he] at h1 h2
  have hn' : (n : ℝ) ≤ 45 := by exact_mod_cast hn
  have hm' : (m : ℝ) ≤ 45 := by exact_mod_cast hm
  have hn2 : (0 : ℝ) ≤ n := Nat.cast_nonneg _
  have hm2 : (0 : ℝ) ≤ m := Nat.cast_nonneg _
  have a1 : ((n : ℝ) + 1) * ((n + 2) / 2 ^ 53) ≤ 46 * (47 / 2 ^ 53) := by gcongr <;> linarith
  have a2 : 10 / 3 * (((n : ℝ) + 1) * ((n + 2) / 2 ^ 53)) * (1 + 2 * s.base.epsilon) ≤
      10 / 3 * (46 * (47 / 2 ^ 53)) * (1 + 2 * (1 / 10 ^ 11)) := by
    have := h.epsilon_range.2.1
    gcongr
  have a3 : (n : ℝ) * ((m : ℝ) + 10) / 2 ^ 54 ≤ 45 * (45 + 10) / 2 ^ 54 := by gcongr
  refine (add_le_add a2 a3).trans (le_trans ?_ h1)
  norm_num

/-- C125: the model whose variance is computed is the one of `fit`: its weights and mean are those of C119 and
C120. -/
theorem C125_fit {sqrt : ℝ → ℝ} {L : Libm ℝ} {s : Corr.ExpCorr ℝ} {average : Bool} {y : List ℝ} {u : Updated ℝ}
    (h : Dbl.update sqrt L s average y = .ok (some u)) :
    Dbl.fit sqrt L s average y = .ok (some u.fit) := by
  unfold Dbl.update at h
  cases hf : Dbl.fit sqrt L s average y with
  | error e => rw [hf] at h; cases h
  | ok o =>
    rw [hf, okBind] at h
    cases o with
    | none => cases h
    | some f =>
      dsimp only at h
      obtain ⟨R, -, h⟩ := bind_ok_inv h
      obtain ⟨r, -, h⟩ := bind_ok_inv h
      obtain ⟨b, -, h⟩ := bind_ok_inv h
      cases h
      rfl

/-! ## The full statement and why it fails -/

/-- C125, full statement: for all allowed parameters every prediction has a standard deviation. -/
def C125_full : Prop :=
  ∀ (L : Libm ℝ) (s : Corr.ExpCorr ℝ) (n m : Nat) (F : Nat → Nat → ℝ) (y x : List ℝ), Accurate L →
    AccurateSquare L → ReadyDbl s n m F → 0 < n → y.length = n → Doubles y →
    (∀ t ∈ y, |t| ≤ 1 ∧ (t = 0 ∨ 2 ^ (-200 : ℤ) ≤ |t|)) → x.length = m →
    (∀ t ∈ x, IsDouble t ∧ |t| ≤ 2 ^ (100 : ℤ)) →
    ∃ u p, Dbl.update Real.sqrt L s false y = .ok (some u) ∧ Dbl.predict Real.sqrt L s u x = .ok p

theorem exLibm_square : AccurateSquare exLibm := by
  intro a _ _
  refine ⟨_, rfl, fl_isDouble _, ?_, ?_⟩
  · rw [Real.rpow_two]; exact fl_nonneg (sq_nonneg a)
  · rw [Real.rpow_two]; exact fl_ulp (sq_nonneg a)

/-- Two equal samples with different outputs and no number on the diagonal. -/
theorem C125_false : ¬ C125_full := by
  intro h
  have one_ge : (2 : ℝ) ^ (-200 : ℤ) ≤ 1 := by
    have : (2 : ℝ) ^ (-200 : ℤ) ≤ 2 ^ (0 : ℤ) := zp_mono (by norm_num)
    rwa [zpow_zero] at this
  obtain ⟨u, p, hu, -⟩ := h exLibm (exObject 0 [0, 0]) 2 1 _ [0, 1] [0] exLibm_accurate exLibm_square exTwin_ready
    (by norm_num) rfl
    (fun t ht => by
      simp only [List.mem_cons, List.not_mem_nil, or_false] at ht
      rcases ht with rfl | rfl
      · exact isDouble_zero
      · exact isDouble_one)
    (fun t ht => by
      simp only [List.mem_cons, List.not_mem_nil, or_false] at ht
      rcases ht with rfl | rfl
      · exact ⟨by norm_num, Or.inl rfl⟩
      · exact ⟨by norm_num, Or.inr (by rw [abs_one]; exact one_ge)⟩)
    rfl
    (fun t ht => by
      simp only [List.mem_singleton] at ht
      subst ht
      exact ⟨isDouble_zero, by rw [abs_zero]; exact (zp _).le⟩)
  have := C125_fit hu
  rw [exTwin_fit] at this
  cases this

/-! ## A case of the theorems -/

theorem exThree_not_tiny : ∀ t ∈ ([0, 1, -1] : List ℝ), |t| ≤ 2 ^ 30 ∧ (t = 0 ∨ 2 ^ (-200 : ℤ) ≤ |t|) := by
  have one_ge : (2 : ℝ) ^ (-200 : ℤ) ≤ 1 := by
    have : (2 : ℝ) ^ (-200 : ℤ) ≤ 2 ^ (0 : ℤ) := zp_mono (by norm_num)
    rwa [zpow_zero] at this
  intro t ht
  refine ⟨exThree_outputs.2 t ht, ?_⟩
  simp only [List.mem_cons, List.not_mem_nil, or_false] at ht
  rcases ht with rfl | rfl | rfl
  · exact Or.inl rfl
  · exact Or.inr (by rwa [abs_one])
  · exact Or.inr (by rwa [abs_neg, abs_one])

/-- Three samples, two of them equal, and the point at which the two are: the variance is close to 0 there. -/
example : ∃ u, Dbl.update Real.sqrt exLibm (exObject (fl (1 / 10 ^ 12)) [0, 0, 1]) false [0, 1, -1] = .ok (some u) ∧
    ∃ p v, Dbl.variance exLibm (exObject (fl (1 / 10 ^ 12)) [0, 0, 1]) u [0] = .ok v ∧ 0 ≤ v ∧
      Dbl.predict Real.sqrt exLibm (exObject (fl (1 / 10 ^ 12)) [0, 0, 1]) u [0] = .ok (p, fl (Real.sqrt v)) := by
  obtain ⟨u, h1, h2⟩ := C125_default isSqrt_real exLibm_accurate exLibm_square exThree_ready (by norm_num)
    (by norm_num) (by norm_num) rfl rfl exThree_outputs.1 exThree_not_tiny false
  obtain ⟨p, v, -, h3, h4, h5⟩ := h2 [0] rfl (fun t ht => by
    simp only [List.mem_singleton] at ht
    subst ht
    exact ⟨isDouble_zero, by rw [abs_zero]; exact (zp _).le⟩)
  exact ⟨u, h1, p, v, h3, h4, h5⟩

example : ∃ u, Dbl.update Real.sqrt exLibm (exObject (fl (1 / 10 ^ 12)) [0, 0, 1]) true [0, 1, -1] = .ok (some u) := by
  obtain ⟨u, h1, -⟩ := C125_partial isSqrt_real exLibm_accurate exLibm_square exThree_ready (by norm_num)
    (by norm_num) (by norm_num) exThree_cond rfl exThree_outputs.1 exThree_not_tiny true
  exact ⟨u, h1⟩

end Rodeo
