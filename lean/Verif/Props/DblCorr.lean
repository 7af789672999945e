import Verif.Lemmas.DblFit
import Mathlib.Data.Rat.Floor

/-! # C119, C120: the Kriging model in double arithmetic -/

set_option linter.unusedSectionVars false

namespace Rodeo

open Spec Dbl Finset

/-- C119: the computed correlation matrix is symmetric, its entries are not negative, and each is the exact
one up to a rounding error. -/
theorem C119_matrix {L : Libm ℝ} (hL : Accurate L) {s : Corr.ExpCorr ℝ} {n m : Nat} {F : Nat → Nat → ℝ}
    (h : ReadyDbl s n m F) (hm : m ≤ 2 ^ 32) :
    ∃ R G, Dbl.correlationMatrix L s = .ok R ∧ IsMat R n n G ∧ Symm n G ∧
      (∀ i j, i < n → j < n → IsDouble (G i j) ∧ 0 ≤ G i j) ∧
      ∀ i j, i < n → j < n →
        |G i j - krigingMatrix m (vecFun s.theta) (vecFun s.gamma) s.base.epsilon F i j| ≤ ((m : ℝ) + 10) / 2 ^ 54 := by
  obtain ⟨R, G, h1, h2, h3, h4, -, -, h7⟩ := matrix_near hL h hm
  exact ⟨R, G, h1, h2, h3, h4, h7⟩

/-- C119: if the number on the diagonal is above the rounding errors, the matrix is factorized, whatever the
samples, and the system is solved for every right-hand side. -/
theorem C119_factor {sqrt : ℝ → ℝ} (hs : IsSqrt sqrt) {L : Libm ℝ} (hL : Accurate L) {s : Corr.ExpCorr ℝ}
    {n m : Nat} {F : Nat → Nat → ℝ} (h : ReadyDbl s n m F) (hn0 : 0 < n) (hn : n ≤ 2 ^ 32) (hm : m ≤ 2 ^ 32)
    (hc : 17 / 16 * (((n : ℝ) + 5) * (n + 2) / 2 ^ 53) * (1 + 2 * s.base.epsilon) + n * ((m : ℝ) + 10) / 2 ^ 54 ≤
      s.base.epsilon) :
    ∃ R Lf, Dbl.correlationMatrix L s = .ok R ∧ Dbl.cholesky sqrt R = .ok (Lf, 1) ∧
      ∀ b : List ℝ, b.length = n → Doubles b → (∀ t ∈ b, |t| ≤ 2 ^ (100 : ℤ)) →
        ∃ x, Dbl.solveCholesky Lf b = .ok x ∧ x.length = n := by
  obtain ⟨R, G, h1, h2, h3, h4, h5, h6, h7⟩ := matrix_near hL h hm
  obtain ⟨e1, e2, e3⟩ := h.epsilon_range
  have hpos : 0 ≤ 17 / 16 * (((n : ℝ) + 5) * (n + 2) / 2 ^ 53) * (1 + 2 * s.base.epsilon) := by positivity
  obtain ⟨m1, m2⟩ := matrix_margin h hn0 (fun i j hi hj => (h4 i j hi hj).2) h7 (by linarith)
  have hz1 : (2 : ℝ) ^ (-100 : ℤ) ≤ 1 + 2 * s.base.epsilon := by
    have : (2 : ℝ) ^ (-100 : ℤ) ≤ 2 ^ (0 : ℤ) := zp_mono (by norm_num)
    rw [zpow_zero] at this
    linarith
  have hz2 : 1 + 2 * s.base.epsilon ≤ (2 : ℝ) ^ (100 : ℤ) := by
    have : (2 : ℝ) ^ (2 : ℤ) ≤ 2 ^ (100 : ℤ) := zp_mono (by norm_num)
    norm_num at this ⊢
    linarith
  obtain ⟨Lf, f1, -, f2⟩ := factor_solve hs h2 h3 hn0 hn (fun i j hi hj => (h4 i j hi hj).1) hz1 hz2 m2 m1 (by
    have : 17 / 16 * ((n : ℝ) + 5) * hh n * (1 + 2 * s.base.epsilon) =
        17 / 16 * (((n : ℝ) + 5) * (n + 2) / 2 ^ 53) * (1 + 2 * s.base.epsilon) := by unfold hh; ring
    rw [this]
    linarith)
  refine ⟨R, Lf, h1, f1, fun b hb hbd hbs => ?_⟩
  obtain ⟨x, x1, x2, -⟩ := f2 b hb hbd fun a ha => vecFun_all hbs (by omega)
  exact ⟨x, x1, x2⟩

/-- C119: if the number on the diagonal is above the rounding errors, every model is fitted: the matrix is
factorized, no intermediate value is infinite, and the model has a weight for each sample. -/
theorem C119_partial {sqrt : ℝ → ℝ} (hs : IsSqrt sqrt) {L : Libm ℝ} (hL : Accurate L) {s : Corr.ExpCorr ℝ}
    {n m : Nat} {F : Nat → Nat → ℝ} (h : ReadyDbl s n m F) (hn0 : 0 < n) (hn : n < 2 ^ 32) (hm : m ≤ 2 ^ 32)
    (hc : 10 / 3 * (((n : ℝ) + 1) * ((n + 2) / 2 ^ 53)) * (1 + 2 * s.base.epsilon) + n * ((m : ℝ) + 10) / 2 ^ 54 ≤
      s.base.epsilon)
    {y : List ℝ} (hy : y.length = n) (hyd : Doubles y) (hys : ∀ t ∈ y, |t| ≤ 2 ^ 30) (average : Bool) :
    ∃ f, Dbl.fit sqrt L s average y = .ok (some f) ∧ f.weights.length = n := by
  obtain ⟨f, h1, -⟩ := fit_total hs hL h hn0 hn hm hc hy hyd (fun a ha => vecFun_all hys (by omega)) average
  obtain ⟨R, G, g1, g2, g3, g4, g5, -, -⟩ := matrix_near hL h hm
  refine ⟨f, h1, (fit_post hs g1 g2 g3 (fun i j hi hj => (g4 i j hi hj).1) (fun i hi => ?_) hn.le hy h1).1⟩
  rw [g5 i hi]
  have h2d : IsDouble (2 : ℝ) := by
    have := isDouble_nat (K := ℝ) (n := 2) (by norm_num)
    exact_mod_cast this
  exact fl_le_double h2d (by linarith [h.epsilon_range.2.2])

/-- The default value `1e-12` of the number on the diagonal, as a double. -/
theorem eps_default : (999999 : ℝ) / 10 ^ 18 ≤ fl (1 / 10 ^ 12 : ℝ) ∧ fl (1 / 10 ^ 12 : ℝ) ≤ 1 / 10 ^ 11 := by
  have e : fl (1 / 10 ^ 12 : ℝ) = ((fl (1 / 10 ^ 12) : ℚ) : ℝ) := by
    rw [← fl_cast]; push_cast; rfl
  have h : (999999 : ℚ) / 10 ^ 18 ≤ fl (1 / 10 ^ 12 : ℚ) ∧ fl (1 / 10 ^ 12 : ℚ) ≤ 1 / 10 ^ 11 := by decide +kernel
  rw [e]
  have h1 := (Rat.cast_le (K := ℝ)).2 h.1
  have h2 := (Rat.cast_le (K := ℝ)).2 h.2
  push_cast at h1 h2 ⊢
  exact ⟨h1, h2⟩

/-- C119: with the default number on the diagonal, every model with at most 45 samples of at most 45
variables is fitted. -/
theorem C119_default {sqrt : ℝ → ℝ} (hs : IsSqrt sqrt) {L : Libm ℝ} (hL : Accurate L) {s : Corr.ExpCorr ℝ}
    {n m : Nat} {F : Nat → Nat → ℝ} (h : ReadyDbl s n m F) (hn0 : 0 < n) (hn : n ≤ 45) (hm : m ≤ 45)
    (he : s.base.epsilon = fl (1 / 10 ^ 12))
    {y : List ℝ} (hy : y.length = n) (hyd : Doubles y) (hys : ∀ t ∈ y, |t| ≤ 2 ^ 30) (average : Bool) :
    ∃ f, Dbl.fit sqrt L s average y = .ok (some f) ∧ f.weights.length = n := by
  refine C119_partial hs hL h hn0 (by omega) (by omega) ?_ hy hyd hys average
  obtain ⟨h1, h2⟩ := eps_default
  rw [← he] at h1 h2
  have hn' : (n : ℝ) ≤ 45 := by exact_mod_cast hn
  have hm' : (m : ℝ) ≤ 45 := by exact_mod_cast hm
  have hn2 : (0 : ℝ) ≤ n := Nat.cast_nonneg _
  have hm2 : (0 : ℝ) ≤ m := Nat.cast_nonneg _
  have a1 : ((n : ℝ) + 1) * ((n + 2) / 2 ^ 53) ≤ 46 * (47 / 2 ^ 53) := by gcongr <;> linarith
  have a2 : 10 / 3 * (((n : ℝ) + 1) * ((n + 2) / 2 ^ 53)) * (1 + 2 * s.base.epsilon) ≤
      10 / 3 * (46 * (47 / 2 ^ 53)) * (1 + 2 * (1 / 10 ^ 11)) := by
    have := h.epsilon_range.2.1
    gcongr
  have a3 : (n : ℝ) * ((m : ℝ) + 10) / 2 ^ 54 ≤ 45 * (45 + 10) / 2 ^ 54 := by gcongr
  refine (add_le_add a2 a3).trans (le_trans ?_ h1)
  norm_num

/-! ## The full statement and why it fails -/

/-- C119, full statement: for all allowed parameters every model is fitted. -/
def C119_full : Prop :=
  ∀ (L : Libm ℝ) (s : Corr.ExpCorr ℝ) (n m : Nat) (F : Nat → Nat → ℝ) (y : List ℝ), Accurate L → ReadyDbl s n m F →
    0 < n → y.length = n → Doubles y → (∀ t ∈ y, |t| ≤ 1) →
    ∃ f, Dbl.fit Real.sqrt L s false y = .ok (some f)

/-- A library that rounds the exact values. -/
noncomputable def exLibm : Libm ℝ := ⟨fun x => fl (Real.exp x), fun a g => .ok (fl (a ^ g))⟩

theorem fl_ulp {v : ℝ} (hv : 0 ≤ v) : |fl v - v| ≤ v / 2 ^ 52 + 2 ^ (-1074 : ℤ) := by
  have h1 := fl_rel v
  rw [abs_of_nonneg hv] at h1
  refine h1.trans (add_le_add ?_ ?_)
  · unfold eps
    rw [div_mul_eq_mul_div, one_mul]
    gcongr <;> norm_num
  · unfold eta; exact zp_mono (by norm_num)

theorem exLibm_accurate : Accurate exLibm :=
  ⟨fun _ _ _ => ⟨fl_isDouble _, fl_nonneg (Real.exp_pos _).le, fl_ulp (Real.exp_pos _).le⟩,
    fun _ _ _ _ ha _ _ _ => ⟨_, rfl, fl_isDouble _, fl_nonneg (Real.rpow_nonneg ha _), fl_ulp (Real.rpow_nonneg ha _)⟩⟩

/-- Samples of one variable, with weight 1 and exponent 1. -/
noncomputable def exObject (e : ℝ) (X : List ℝ) : Corr.ExpCorr ℝ :=
  { base := ⟨⟨X.length, 1, X⟩, X.length, 1, Mat.empty, e, true⟩, theta := [1], gamma := [1] }

theorem exObject_ready {e : ℝ} (he : IsDouble e ∧ 0 ≤ e ∧ e < 1) {X : List ℝ}
    (hX : ∀ t ∈ X, IsDouble t ∧ |t| ≤ 2 ^ (100 : ℤ)) :
    ReadyDbl (exObject e X) X.length 1 (fun i _ => vecFun X i) := by
  have h100 : (1 : ℝ) ≤ 2 ^ (100 : ℤ) := one_le_zpow₀ (by norm_num) (by norm_num)
  refine ⟨rfl, ⟨rfl, rfl, by simp [exObject], fun i j hi hj => ?_⟩, rfl, fun i k hi _ => ?_, rfl, ?_, rfl, ?_, he⟩
  · have : j = 0 := by omega
    subst this
    simp [Mat.at', exObject, rawAt, vecFun, hi]
  · exact vecFun_all hX hi
  · intro t ht
    simp only [exObject, List.mem_singleton] at ht
    subst ht
    exact ⟨isDouble_one, by norm_num, h100⟩
  · intro t ht
    simp only [exObject, List.mem_singleton] at ht
    subst ht
    exact ⟨isDouble_one, by norm_num, by norm_num⟩

theorem isMat_two {R : Mat ℝ} {G : Nat → Nat → ℝ} (h : IsMat R 2 2 G) :
    R = ⟨2, 2, [G 0 0, G 1 0, G 0 1, G 1 1]⟩ := by
  obtain ⟨h1, h2, h3, h4⟩ := h
  obtain ⟨r, c, l⟩ := R
  dsimp only at h1 h2 h3
  subst h1 h2
  match l, h3 with
  | [a, b, c, d], _ =>
    have e1 := h4 0 0 (by omega) (by omega)
    have e2 := h4 1 0 (by omega) (by omega)
    have e3 := h4 0 1 (by omega) (by omega)
    have e4 := h4 1 1 (by omega) (by omega)
    simp [Mat.at', rawAt] at e1 e2 e3 e4
    rw [e1, e2, e3, e4]

/-- Two equal samples and no number on the diagonal: the matrix of ones. -/
theorem exTwin_matrix : Dbl.correlationMatrix exLibm (exObject 0 [0, 0]) = .ok ⟨2, 2, [1, 1, 1, 1]⟩ := by
  have f1 : fl (1 : ℝ) = 1 := fl_of_double isDouble_one
  obtain ⟨R, G, h1, h2, h3, h4, h5, h6, -⟩ := matrix_near exLibm_accurate
    (exObject_ready (e := 0) ⟨isDouble_zero, le_rfl, by norm_num⟩ (X := [0, 0]) (fun t ht => by
      simp only [List.mem_cons, List.not_mem_nil, or_false, or_self] at ht
      subst ht
      exact ⟨isDouble_zero, by rw [abs_zero]; exact (zp _).le⟩)) (by norm_num)
  have g0 : G 0 0 = 1 := by rw [h5 0 (by simp)]; simp [exObject, f1]
  have g1 : G 1 1 = 1 := by rw [h5 1 (by simp)]; simp [exObject, f1]
  have d0 : dbl (0 : ℝ) = .ok 0 := by simpa using dblR (x := 0) (y := 0) (by decide +kernel) (by norm_num) (by simp)
  have g2 : G 1 0 = 1 := by
    have := h6 1 0 (by simp) (by omega)
    simp [exponential, exObject, exLibm, sumFrom, Mat.forFromTo, loop1, loop0, rawAt, vecFun, Dbl.sub, Dbl.mul,
      Dbl.add, d0, ok_bind, fl_zero, f1, List.range_succ] at this
    exact this.symm
  rw [h1, isMat_two h2, h3 0 1 (by simp) (by simp), g0, g1, g2]

/-- The factorization succeeds, with the last pivot 0; the solution then divides by 0. -/
theorem exTwin_fit : Dbl.fit Real.sqrt exLibm (exObject 0 [0, 0]) false [0, 1] = .error .nonFinite := by
  have d0 : dbl (0 : ℝ) = .ok 0 := by simpa using dblR (x := 0) (y := 0) (by decide +kernel) (by norm_num) (by simp)
  have d1 : dbl (1 : ℝ) = .ok 1 := by simpa using dblR (x := 1) (y := 1) (by decide +kernel) (by norm_num) (by simp)
  have n1 : ¬ (1 : ℝ) < 0 := by norm_num
  have hc : Dbl.cholesky Real.sqrt (⟨2, 2, [1, 1, 1, 1]⟩ : Mat ℝ) = .ok (⟨2, 2, [1, 1, 0, 0]⟩, 1) := by
    simp [n1, Dbl.cholesky, Dbl.choleskyRow, forRange, sumFrom, Mat.forFromTo, Mem.zeros, Mem.rd, Mem.wr,
      Mem.freeze, rawAt, loop0, loop1, loop2, ok_bind, tab, tabFrom, Dbl.sub, Dbl.mul, Dbl.add, Dbl.div, d0, d1]
  have hs : Dbl.solveCholesky (⟨2, 2, [1, 1, 0, 0]⟩ : Mat ℝ) [0, 1] = .error .nonFinite := by
    simp [Dbl.solveCholesky, forRange, sumFrom, Mat.forFromTo, Mem.zeros, Mem.rd, Mem.wr, vat,
      rawAt, loop0, loop1, loop2, ok_bind, Dbl.sub, Dbl.mul, Dbl.add, Dbl.div, d0, d1]
    rfl
  unfold Dbl.fit
  rw [exTwin_matrix, ok_bind, hc, ok_bind, if_neg (by norm_num)]
  unfold Dbl.beta0
  rw [if_neg (by simp), hs]
  rfl

theorem exTwin_ready : ReadyDbl (exObject 0 [0, 0]) 2 1 (fun i _ => vecFun [0, 0] i) :=
  exObject_ready (e := 0) ⟨isDouble_zero, le_rfl, by norm_num⟩ (X := [0, 0]) (fun t ht => by
    simp only [List.mem_cons, List.not_mem_nil, or_false, or_self] at ht
    subst ht
    exact ⟨isDouble_zero, by rw [abs_zero]; exact (zp _).le⟩)

theorem C119_false : ¬ C119_full := by
  intro h
  obtain ⟨f, hf⟩ := h exLibm (exObject 0 [0, 0]) 2 1 _ [0, 1] exLibm_accurate exTwin_ready (by norm_num) rfl
    (fun t ht => by
      simp only [List.mem_cons, List.not_mem_nil, or_false] at ht
      rcases ht with rfl | rfl
      · exact isDouble_zero
      · exact isDouble_one)
    (fun t ht => by
      simp only [List.mem_cons, List.not_mem_nil, or_false] at ht
      rcases ht with rfl | rfl <;> norm_num)
  rw [exTwin_fit] at hf
  cases hf

/-! ## C120: the prediction at the training samples -/

/-- C120: for every model that has been fitted, the prediction at a training sample, if it is finite, is the
training output up to the number on the diagonal times the weight of the sample, and the rounding errors. -/
theorem C120_sample {sqrt : ℝ → ℝ} (hs : IsSqrt sqrt) {L : Libm ℝ} (hL : Accurate L) {s : Corr.ExpCorr ℝ}
    {n m : Nat} {F : Nat → Nat → ℝ} (h : ReadyDbl s n m F) (hγ : ∀ g ∈ s.gamma, 0 < g) (hn : n ≤ 2 ^ 32)
    (hm : m ≤ 2 ^ 32) {y : List ℝ} (hy : y.length = n) (hyd : Doubles y) {average : Bool} {f : Fit ℝ}
    (hf : Dbl.fit sqrt L s average y = .ok (some f)) {i : Nat} (hi : i < n) {p : ℝ}
    (hp : Dbl.estimate L s f ((List.range m).map (F i)) = .ok p) :
    |p - vecFun y i| ≤ s.base.epsilon * |vecFun f.weights i| +
      (9 * ((n : ℝ) + 2) + m + 10) / 2 ^ 53 * ∑ j ∈ range n, |vecFun f.weights j| +
      3 / 2 ^ 53 * (|vecFun y i| + |f.beta0|) + 2 ^ (-399 : ℤ) :=
  estimate_near hs hL h hγ hn hm hy hyd hf hi hp

/-- C120: with a number on the diagonal above the rounding errors the prediction is finite at every point,
and at the training samples it has the accuracy of `C120_sample`. -/
theorem C120_total {sqrt : ℝ → ℝ} (hs : IsSqrt sqrt) {L : Libm ℝ} (hL : Accurate L) {s : Corr.ExpCorr ℝ}
    {n m : Nat} {F : Nat → Nat → ℝ} (h : ReadyDbl s n m F) (hγ : ∀ g ∈ s.gamma, 0 < g) (hn0 : 0 < n)
    (hn : n < 2 ^ 32) (hm : m ≤ 2 ^ 32)
    (hc : 10 / 3 * (((n : ℝ) + 1) * ((n + 2) / 2 ^ 53)) * (1 + 2 * s.base.epsilon) + n * ((m : ℝ) + 10) / 2 ^ 54 ≤
      s.base.epsilon)
    {y : List ℝ} (hy : y.length = n) (hyd : Doubles y) (hys : ∀ t ∈ y, |t| ≤ 2 ^ 30) (average : Bool) :
    ∃ f, Dbl.fit sqrt L s average y = .ok (some f) ∧
      (∀ x : List ℝ, x.length = m → (∀ t ∈ x, IsDouble t ∧ |t| ≤ 2 ^ (100 : ℤ)) →
        ∃ p, Dbl.estimate L s f x = .ok p) ∧
      ∀ i, i < n → ∃ p, Dbl.estimate L s f ((List.range m).map (F i)) = .ok p ∧
        |p - vecFun y i| ≤ s.base.epsilon * |vecFun f.weights i| +
          (9 * ((n : ℝ) + 2) + m + 10) / 2 ^ 53 * ∑ j ∈ range n, |vecFun f.weights j| +
          3 / 2 ^ 53 * (|vecFun y i| + |f.beta0|) + 2 ^ (-399 : ℤ) := by
  obtain ⟨f, h1, h2, h3⟩ := fit_total hs hL h hn0 hn hm hc hy hyd (fun a ha => vecFun_all hys (by omega)) average
  have hw : f.weights.length = n := by
    obtain ⟨g, g1, g2⟩ := C119_partial hs hL h hn0 hn hm hc hy hyd hys average
    rw [h1] at g1
    cases g1
    exact g2
  have tot : ∀ x : List ℝ, x.length = m → (∀ t ∈ x, IsDouble t ∧ |t| ≤ 2 ^ (100 : ℤ)) →
      ∃ p, Dbl.estimate L s f x = .ok p := by
    intro x lx hx
    obtain ⟨r, c1, c2, c3⟩ := correlationVector_ok hL h hm lx fun k hk => vecFun_all hx (by omega)
    have hm1 : (m : ℝ) ≤ 2 ^ 32 := by exact_mod_cast hm
    have rB : ∀ j, j < n → |vecFun r j| ≤ 2 := by
      intro j hj
      obtain ⟨-, -, a1, a2⟩ := c3 j hj
      rw [abs_of_nonneg a1]
      have a3 : expCorr m (vecFun s.theta) (vecFun s.gamma) (vecFun x) (F j) ≤ 1 := by
        rw [expCorr, Real.exp_le_one_iff, neg_nonpos]
        exact sum_nonneg (fun k hk => mul_nonneg
          (vecFun_all h.theta_range (k := k) (by rw [h.theta_len]; exact mem_range.1 hk)).2.1
          (Real.rpow_nonneg (abs_nonneg _) _))
      have a4 : ((m : ℝ) + 10) / 2 ^ 54 ≤ 1 := by
        rw [div_le_one (by positivity)]
        have : (2 : ℝ) ^ 32 + 10 ≤ 2 ^ 54 := by norm_num
        linarith
      have := (abs_le.1 a2).2
      linarith
    obtain ⟨t, t1, -, t2, -⟩ := dot_size c2 hw hn (T := 2 ^ 153) (by
      have : ∑ k ∈ range n, |vecFun r k * vecFun f.weights k| ≤ ∑ k ∈ range n, 2 * |vecFun f.weights k| :=
        sum_le_sum fun k hk => by
          rw [abs_mul]
          exact mul_le_mul_of_nonneg_right (rB k (mem_range.1 hk)) (abs_nonneg _)
      rw [← mul_sum] at this
      refine this.trans ?_
      norm_num at h3 ⊢
      linarith) (by norm_num)
    refine ⟨_, bind_eq c1 (bind_eq t1 (dbl_of_le (n := 200) (by norm_num) (by norm_num) ?_))⟩
    have h200 : (2 : ℝ) ^ (200 : ℤ) = 2 ^ 200 := zp_nat 200
    rw [h200]
    refine (abs_add_le _ _).trans ?_
    norm_num at h2 t2 ⊢
    linarith
  refine ⟨f, h1, tot, fun i hi => ?_⟩
  obtain ⟨p, hp⟩ := tot ((List.range m).map (F i)) (by simp) (fun t ht => by
    obtain ⟨k, hk, rfl⟩ := List.mem_map.1 ht
    exact h.sample_doubles i k hi (List.mem_range.1 hk))
  exact ⟨p, hp, estimate_near hs hL h hγ hn.le hm hy hyd h1 hi hp⟩

/-! ## A case of the theorems -/

/-- Three samples, two of them equal, with different outputs, and the default number on the diagonal. -/
theorem exThree_ready : ReadyDbl (exObject (fl (1 / 10 ^ 12)) [0, 0, 1]) 3 1 (fun i _ => vecFun [0, 0, 1] i) := by
  obtain ⟨h1, h2⟩ := eps_default
  refine exObject_ready (X := [0, 0, 1]) ⟨fl_isDouble _, le_trans (by norm_num) h1, h2.trans_lt (by norm_num)⟩
    (fun t ht => ?_)
  have h100 : (1 : ℝ) ≤ 2 ^ (100 : ℤ) := one_le_zpow₀ (by norm_num) (by norm_num)
  simp only [List.mem_cons, List.not_mem_nil, or_false] at ht
  rcases ht with rfl | rfl | rfl
  · exact ⟨isDouble_zero, by rw [abs_zero]; exact (zp _).le⟩
  · exact ⟨isDouble_zero, by rw [abs_zero]; exact (zp _).le⟩
  · exact ⟨isDouble_one, by rwa [abs_one]⟩

theorem exThree_outputs : Doubles ([0, 1, -1] : List ℝ) ∧ ∀ t ∈ ([0, 1, -1] : List ℝ), |t| ≤ 2 ^ 30 := by
  constructor <;> intro t ht <;> simp only [List.mem_cons, List.not_mem_nil, or_false] at ht <;>
    rcases ht with rfl | rfl | rfl
  · exact isDouble_zero
  · exact isDouble_one
  · exact isDouble_neg isDouble_one
  all_goals norm_num

example : ∃ f, Dbl.fit Real.sqrt exLibm (exObject (fl (1 / 10 ^ 12)) [0, 0, 1]) false [0, 1, -1] = .ok (some f) ∧
    f.weights.length = 3 :=
  C119_default isSqrt_real exLibm_accurate exThree_ready (by norm_num) (by norm_num) (by norm_num) rfl rfl
    exThree_outputs.1 exThree_outputs.2 false

theorem exThree_cond : 10 / 3 * ((((3 : Nat) : ℝ) + 1) * ((((3 : Nat) : ℝ) + 2) / 2 ^ 53)) *
    (1 + 2 * (exObject (fl (1 / 10 ^ 12)) [0, 0, 1]).base.epsilon) + ((3 : Nat) : ℝ) * (((1 : Nat) : ℝ) + 10) / 2 ^ 54 ≤
      (exObject (fl (1 / 10 ^ 12)) [0, 0, 1]).base.epsilon := by
  obtain ⟨h1, h2⟩ := eps_default
  show _ * (1 + 2 * fl (1 / 10 ^ 12 : ℝ)) + _ ≤ fl (1 / 10 ^ 12 : ℝ)
  generalize fl (1 / 10 ^ 12 : ℝ) = e at *
  norm_num at h1 h2 ⊢
  linarith

example : ∃ f, Dbl.fit Real.sqrt exLibm (exObject (fl (1 / 10 ^ 12)) [0, 0, 1]) false [0, 1, -1] = .ok (some f) ∧
    ∀ i, i < 3 → ∃ p, Dbl.estimate exLibm (exObject (fl (1 / 10 ^ 12)) [0, 0, 1]) f
      ((List.range 1).map fun _ => vecFun [0, 0, 1] i) = .ok p := by
  obtain ⟨f, h1, -, h2⟩ := C120_total isSqrt_real exLibm_accurate exThree_ready (by
    intro g hg
    simp only [exObject, List.mem_singleton] at hg
    subst hg
    norm_num) (by norm_num) (by norm_num) (by norm_num) exThree_cond rfl exThree_outputs.1 exThree_outputs.2 false
  exact ⟨f, h1, fun i hi => ⟨_, (h2 i hi).choose_spec.1⟩⟩

example : ∃ R Lf, Dbl.correlationMatrix exLibm (exObject (fl (1 / 10 ^ 12)) [0, 0, 1]) = .ok R ∧
    Dbl.cholesky Real.sqrt R = .ok (Lf, 1) ∧
    ∀ b : List ℝ, b.length = 3 → Doubles b → (∀ t ∈ b, |t| ≤ 2 ^ (100 : ℤ)) →
      ∃ x, Dbl.solveCholesky Lf b = .ok x ∧ x.length = 3 := by
  refine C119_factor isSqrt_real exLibm_accurate exThree_ready (by norm_num) (by norm_num) (by norm_num) ?_
  obtain ⟨h1, h2⟩ := eps_default
  show _ * (1 + 2 * fl (1 / 10 ^ 12 : ℝ)) + _ ≤ fl (1 / 10 ^ 12 : ℝ)
  generalize fl (1 / 10 ^ 12 : ℝ) = e at *
  norm_num at h1 h2 ⊢
  linarith

end Rodeo
