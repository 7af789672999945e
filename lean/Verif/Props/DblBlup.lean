import Verif.Lemmas.DblBlup
import Verif.Props.DblCorr
import Verif.Props.DblSum

/-! # C128: in double arithmetic the estimate at every point is the Kriging prediction -/

set_option linter.unusedSectionVars false

namespace Rodeo

open Spec Dbl Finset

variable {sqrt : ℝ → ℝ} {L : Libm ℝ} {s : Corr.ExpCorr ℝ} {n m : Nat} {F : Nat → Nat → ℝ}

/-- The rounding error of the equations of a fitted model: `Y` bounds the outputs. -/
noncomputable def equationError (n m : Nat) (Y : ℝ) (f : Fit ℝ) : ℝ :=
  (13 * ((n : ℝ) + 2) + m + 10) / 2 ^ 54 * ∑ j ∈ range n, |vecFun f.weights j| + (Y + |f.beta0|) / 2 ^ 53 +
    2 ^ (-400 : ℤ)

/-- C128: at every point the best linear unbiased prediction exists, for the exact correlations. -/
theorem C128_exists (h : ReadyDbl s n m F) (he : 0 < s.base.epsilon) (hn0 : 0 < n) (x : List ℝ) :
    ∃ lam, IsBLUP n (krigingMatrix m (vecFun s.theta) (vecFun s.gamma) s.base.epsilon F)
      (fun i => expCorr m (vecFun s.theta) (vecFun s.gamma) (vecFun x) (F i)) lam :=
  exists_blup (fun k hk => (vecFun_all h.theta_range (k := k) (by rw [h.theta_len]; exact hk)).2.1)
    (fun k hk => (vecFun_all h.gamma_range (k := k) (by rw [h.gamma_len]; exact hk)).2) hn0 he _

/-- C128: for every model that has been fitted and every point, a finite estimate is the best linear unbiased
prediction for the exact correlations, up to the rounding error of the equations times `1 + √(3 n / epsilon)`,
and five times the amount by which the weights fail to sum up to 0. -/
theorem C128_blup (hs : IsSqrt sqrt) (hL : Accurate L) (h : ReadyDbl s n m F) (he : 0 < s.base.epsilon) (hn0 : 0 < n)
    (hn : n ≤ 2 ^ 32) (hm : m ≤ 2 ^ 32) {y : List ℝ} (hy : y.length = n) (hyd : Doubles y) {Y : ℝ}
    (hY : ∀ t ∈ y, |t| ≤ Y) {average : Bool} {f : Fit ℝ} (hf : Dbl.fit sqrt L s average y = .ok (some f))
    {x : List ℝ} (lx : x.length = m) (hx : ∀ t ∈ x, IsDouble t ∧ |t| ≤ 2 ^ (100 : ℤ)) {p : ℝ}
    (hp : Dbl.estimate L s f x = .ok p) {lam : Nat → ℝ}
    (hlam : IsBLUP n (krigingMatrix m (vecFun s.theta) (vecFun s.gamma) s.base.epsilon F)
      (fun i => expCorr m (vecFun s.theta) (vecFun s.gamma) (vecFun x) (F i)) lam) :
    |p - dotp n lam (vecFun y)| ≤ (1 + √(3 * n / s.base.epsilon)) * equationError n m Y f +
      5 * |∑ j ∈ range n, vecFun f.weights j| :=
  estimate_blup hs hL h he hn0 hn hm hy hyd hY hf lx hx hp hlam

/-- C128: the weights sum up to 0, up to rounding errors, if the mean is the generalized least squares
estimate and the number on the diagonal is above the rounding errors. -/
theorem C128_sum (hs : IsSqrt sqrt) (hL : Accurate L) (h : ReadyDbl s n m F) (hn0 : 0 < n) (hn : n < 2 ^ 32)
    (hm : m ≤ 2 ^ 32)
    (hc : 10 / 3 * (((n : ℝ) + 1) * ((n + 2) / 2 ^ 53)) * (1 + 2 * s.base.epsilon) + n * ((m : ℝ) + 10) / 2 ^ 54 ≤
      s.base.epsilon)
    {y : List ℝ} (hy : y.length = n) (hyd : Doubles y) {Y : ℝ} (hY : ∀ t ∈ y, |t| ≤ Y) (hY2 : Y ≤ 2 ^ 30) {f : Fit ℝ}
    (hf : Dbl.fit sqrt L s false y = .ok (some f)) :
    |∑ j ∈ range n, vecFun f.weights j| ≤
      150 * (((n : ℝ) + 2) / 2 ^ 53 * (1 + 2 * s.base.epsilon)) *
          (n / (s.base.epsilon - n * ((m : ℝ) + 10) / 2 ^ 54)) ^ 2 * (Y + |f.beta0|) +
        (1 + |f.beta0|) / 2 ^ 90 := by
  obtain ⟨R, G, Lf, M, μ, t, S⟩ := system_ok hs hL h hn0 hn hm hc
  have hμ1 : μ ≤ 1 := by
    rw [S.mu_eq]
    have : (0 : ℝ) ≤ n * ((m : ℝ) + 10) / 2 ^ 54 := by positivity
    linarith [h.epsilon_range.2.2]
  have := S.sum_weights hμ1 hn0 hn hy hyd (fun a ha => vecFun_all hY (by omega)) hY2 hf
  rw [S.M_eq, S.mu_eq] at this
  exact this

/-- C128: the estimate with the average of the outputs as mean: the mean is the average up to rounding, and
at every point a finite estimate is the exact prediction with this mean, whose weights solve the equations
with the exact correlations, up to the rounding error of the equations times `1 + √(n / epsilon)`. -/
theorem C128_average (hs : IsSqrt sqrt) (hL : Accurate L) (h : ReadyDbl s n m F) (he : 0 < s.base.epsilon) (hn0 : 0 < n)
    (hn : n < 2 ^ 32) (hm : m ≤ 2 ^ 32) {y : List ℝ} (hy : y.length = n) (hyd : Doubles y) {Y : ℝ}
    (hY : ∀ t ∈ y, |t| ≤ Y) (hY2 : Y ≤ 2 ^ 30) {f : Fit ℝ} (hf : Dbl.fit sqrt L s true y = .ok (some f)) :
    |f.beta0 - (∑ i ∈ range n, vecFun y i) / n| ≤
        ((n : ℝ) + 1) / 2 ^ 52 * ((∑ i ∈ range n, |vecFun y i|) / n) + 1 / 2 ^ 1075 ∧
      ∃ w : Nat → ℝ,
        (∀ i, i < n → ∑ j ∈ range n, krigingMatrix m (vecFun s.theta) (vecFun s.gamma) s.base.epsilon F i j * w j =
          vecFun y i - f.beta0) ∧
        ∀ x : List ℝ, x.length = m → (∀ t ∈ x, IsDouble t ∧ |t| ≤ 2 ^ (100 : ℤ)) →
          ∀ p, Dbl.estimate L s f x = .ok p →
            |p - (f.beta0 + ∑ j ∈ range n, expCorr m (vecFun s.theta) (vecFun s.gamma) (vecFun x) (F j) * w j)| ≤
              (1 + √(n / s.base.epsilon)) * equationError n m Y f := by
  constructor
  · have hn1 : (1 : ℝ) ≤ n := by exact_mod_cast hn0
    have hn32 : (n : ℝ) ≤ 2 ^ 32 := by exact_mod_cast hn.le
    have hT : ∑ i ∈ range n, |vecFun y i| ≤ n * 2 ^ 30 := by
      have := sum_le_sum (s := range n) (f := fun i => |vecFun y i|) (g := fun _ => (2 : ℝ) ^ 30)
        fun i hi => (vecFun_all hY (by have := mem_range.1 hi; omega)).trans hY2
      simpa using this
    obtain ⟨b, h1, -, h3⟩ := C115_mean hy hn0 hn hyd (hT.trans (by
      calc (n : ℝ) * 2 ^ 30 ≤ 2 ^ 32 * 2 ^ 30 := mul_le_mul_of_nonneg_right hn32 (by positivity)
        _ = 2 ^ 62 := by rw [← pow_add]
        _ ≤ 2 ^ 1000 := pow_le_pow_right₀ (by norm_num) (by norm_num)))
    have : f.beta0 = b := by
      unfold Dbl.fit at hf
      obtain ⟨R, -, hf⟩ := bind_ok_inv hf
      obtain ⟨r, -, hf⟩ := bind_ok_inv hf
      split_ifs at hf with hr
      · cases hf
      obtain ⟨be, e1, hf⟩ := bind_ok_inv hf
      obtain ⟨_, -, hf⟩ := bind_ok_inv hf
      obtain ⟨_, -, hf⟩ := bind_ok_inv hf
      obtain ⟨_, -, hf⟩ := bind_ok_inv hf
      obtain ⟨_, -, hf⟩ := bind_ok_inv hf
      obtain ⟨_, -, hf⟩ := bind_ok_inv hf
      cases hf
      unfold Dbl.beta0 at e1
      rw [if_pos rfl, h1] at e1
      exact (Except.ok.inj e1).symm
    rw [this]
    exact h3
  · obtain ⟨w, hw⟩ := exists_solves (det_of_margin he (krigingMatrix_margin (n := n) (e := s.base.epsilon) (X := F)
      (fun k hk => (vecFun_all h.theta_range (k := k) (by rw [h.theta_len]; exact hk)).2.1)
      (fun k hk => (vecFun_all h.gamma_range (k := k) (by rw [h.gamma_len]; exact hk)).2)))
      (fun i => vecFun y i - f.beta0)
    exact ⟨w, hw, fun x lx hx p hp => estimate_simple hs hL h he hn0 hn.le hm hy hyd hY hf lx hx hp hw⟩

/-- C128: a model with the generalized least squares mean whose number on the diagonal is above the rounding
errors gives at every point an estimate, and this is the best linear unbiased prediction up to rounding
errors. -/
theorem C128_total (hs : IsSqrt sqrt) (hL : Accurate L) (h : ReadyDbl s n m F) (hγ : ∀ g ∈ s.gamma, 0 < g) (hn0 : 0 < n)
    (hn : n < 2 ^ 32) (hm : m ≤ 2 ^ 32)
    (hc : 10 / 3 * (((n : ℝ) + 1) * ((n + 2) / 2 ^ 53)) * (1 + 2 * s.base.epsilon) + n * ((m : ℝ) + 10) / 2 ^ 54 ≤
      s.base.epsilon)
    {y : List ℝ} (hy : y.length = n) (hyd : Doubles y) {Y : ℝ} (hY : ∀ t ∈ y, |t| ≤ Y) (hY2 : Y ≤ 2 ^ 30) :
    ∃ f, Dbl.fit sqrt L s false y = .ok (some f) ∧
      ∀ x : List ℝ, x.length = m → (∀ t ∈ x, IsDouble t ∧ |t| ≤ 2 ^ (100 : ℤ)) →
        ∃ p, Dbl.estimate L s f x = .ok p ∧
          ∀ lam, IsBLUP n (krigingMatrix m (vecFun s.theta) (vecFun s.gamma) s.base.epsilon F)
              (fun i => expCorr m (vecFun s.theta) (vecFun s.gamma) (vecFun x) (F i)) lam →
            |p - dotp n lam (vecFun y)| ≤ (1 + √(3 * n / s.base.epsilon)) * equationError n m Y f +
              5 * (150 * (((n : ℝ) + 2) / 2 ^ 53 * (1 + 2 * s.base.epsilon)) *
                (n / (s.base.epsilon - n * ((m : ℝ) + 10) / 2 ^ 54)) ^ 2 * (Y + |f.beta0|) +
                (1 + |f.beta0|) / 2 ^ 90) := by
  obtain ⟨f, h1, h2, -⟩ := C120_total hs hL h hγ hn0 hn hm hc hy hyd (fun t ht => (hY t ht).trans hY2) false
  have he : 0 < s.base.epsilon := by
    refine lt_of_lt_of_le ?_ hc
    have := h.epsilon_range.2.1
    positivity
  refine ⟨f, h1, fun x lx hx => ?_⟩
  obtain ⟨p, hp⟩ := h2 x lx hx
  refine ⟨p, hp, fun lam hlam => ?_⟩
  have a1 := C128_blup hs hL h he hn0 hn.le hm hy hyd hY h1 lx hx hp hlam
  have a2 := C128_sum hs hL h hn0 hn hm hc hy hyd hY hY2 h1
  linarith

/-! ## A case of the theorems -/

/-- Three samples, two of them equal, with different outputs, and the default number on the diagonal. -/
example : ∃ f, Dbl.fit Real.sqrt exLibm (exObject (fl (1 / 10 ^ 12)) [0, 0, 1]) false [0, 1, -1] = .ok (some f) ∧
    ∃ p, Dbl.estimate exLibm (exObject (fl (1 / 10 ^ 12)) [0, 0, 1]) f [1 / 2] = .ok p ∧
      ∃ lam, IsBLUP 3 (krigingMatrix 1 (vecFun [1]) (vecFun [1]) (fl (1 / 10 ^ 12)) (fun i _ => vecFun [0, 0, 1] i))
          (fun i => expCorr 1 (vecFun [1]) (vecFun [1]) (vecFun [1 / 2]) (fun _ => vecFun [0, 0, 1] i)) lam ∧
        |p - dotp 3 lam (vecFun [0, 1, -1])| ≤ (1 + √(3 * (3 : Nat) / fl (1 / 10 ^ 12))) * equationError 3 1 1 f +
          5 * |∑ j ∈ range 3, vecFun f.weights j| := by
  have hy : ∀ t ∈ ([0, 1, -1] : List ℝ), |t| ≤ 1 := by
    intro t ht
    simp only [List.mem_cons, List.not_mem_nil, or_false] at ht
    rcases ht with rfl | rfl | rfl <;> norm_num
  have he : 0 < (exObject (fl (1 / 10 ^ 12)) [0, 0, 1]).base.epsilon := lt_of_lt_of_le (by norm_num) eps_default.1
  have hx : ∀ t ∈ ([1 / 2] : List ℝ), IsDouble t ∧ |t| ≤ 2 ^ (100 : ℤ) := by
    intro t ht
    simp only [List.mem_singleton] at ht
    subst ht
    refine ⟨⟨1, -1, by norm_num, by norm_num, by norm_num⟩, ?_⟩
    rw [show (2 : ℝ) ^ (100 : ℤ) = 2 ^ 100 from zp_nat 100]
    norm_num [abs_of_pos]
  obtain ⟨f, h1, h2⟩ := C128_total isSqrt_real exLibm_accurate exThree_ready (by
    intro g hg
    simp only [exObject, List.mem_singleton] at hg
    subst hg
    norm_num) (by norm_num) (by norm_num) (by norm_num) exThree_cond rfl exThree_outputs.1 hy (by norm_num)
  obtain ⟨p, p1, -⟩ := h2 [1 / 2] rfl hx
  obtain ⟨lam, hlam⟩ := C128_exists exThree_ready he (by norm_num) [1 / 2]
  exact ⟨f, h1, p, p1, lam, hlam, C128_blup isSqrt_real exLibm_accurate exThree_ready he (by norm_num) (by norm_num)
    (by norm_num) rfl exThree_outputs.1 hy h1 rfl hx p1 hlam⟩

/-- The same samples with the average of the outputs as mean: the mean is 0 up to rounding. -/
example : ∃ f, Dbl.fit Real.sqrt exLibm (exObject (fl (1 / 10 ^ 12)) [0, 0, 1]) true [0, 1, -1] = .ok (some f) ∧
    |f.beta0| ≤ 1 / 2 ^ 48 := by
  have hy : ∀ t ∈ ([0, 1, -1] : List ℝ), |t| ≤ 1 := by
    intro t ht
    simp only [List.mem_cons, List.not_mem_nil, or_false] at ht
    rcases ht with rfl | rfl | rfl <;> norm_num
  have he : 0 < (exObject (fl (1 / 10 ^ 12)) [0, 0, 1]).base.epsilon := lt_of_lt_of_le (by norm_num) eps_default.1
  obtain ⟨f, h1, -⟩ := C120_total isSqrt_real exLibm_accurate exThree_ready (by
    intro g hg
    simp only [exObject, List.mem_singleton] at hg
    subst hg
    norm_num) (by norm_num) (by norm_num) (by norm_num) exThree_cond rfl exThree_outputs.1 exThree_outputs.2 true
  refine ⟨f, h1, ?_⟩
  have h2 := (C128_average isSqrt_real exLibm_accurate exThree_ready he (by norm_num) (by norm_num) (by norm_num) rfl
    exThree_outputs.1 hy (by norm_num) h1).1
  have h3 : (1 : ℝ) / 2 ^ 1075 ≤ 1 / 2 ^ 60 :=
    one_div_le_one_div_of_le (by positivity) (pow_le_pow_right₀ (by norm_num) (by norm_num))
  simp only [sum_range_succ, range_zero, sum_empty, vecFun] at h2
  norm_num at h2 h3 ⊢
  linarith

end Rodeo
