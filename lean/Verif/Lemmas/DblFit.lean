import Verif.Lemmas.DblCorr
import Verif.Lemmas.DblNeg
import Verif.Lemmas.DblSolveOk
import Verif.Lemmas.Kriging
import Verif.Props.DblSum
import Verif.Props.DblChol

/-! # The weights of a Kriging model in doubles (proofs for C119 and C120) -/

set_option linter.unusedSectionVars false

namespace Rodeo.Dbl

open Spec Finset

/-! ## Sizes of solutions of systems with a margin -/

section Size

variable {n : Nat} {F : Nat → Nat → ℝ} {μ κ t : ℝ} {x : Nat → ℝ}

theorem sq_abs_sum_le (n : Nat) (x : Nat → ℝ) : (∑ i ∈ range n, |x i|) ^ 2 ≤ n * ∑ i ∈ range n, x i ^ 2 := by
  have := sq_sum_le_card_mul_sum_sq (s := range n) (f := fun i => |x i|)
  simpa [sq_abs] using this

/-- The one-norm of a solution, by its energy. -/
theorem norm_energy (hμ : ∀ x : Nat → ℝ, μ * ∑ p ∈ range n, x p ^ 2 ≤ quadForm n F x) (hμ0 : 0 < μ) :
    μ * (∑ i ∈ range n, |x i|) ^ 2 ≤ n * quadForm n F x := by
  have h1 := mul_le_mul_of_nonneg_left (sq_abs_sum_le n x) hμ0.le
  have h2 := mul_le_mul_of_nonneg_left (hμ x) (Nat.cast_nonneg (α := ℝ) n)
  linarith

/-- The energy, by the right-hand side. -/
theorem energy_near {b : Nat → ℝ} (hr : ∀ i, i < n → |b i - ∑ j ∈ range n, F i j * x j| ≤ κ * ∑ j ∈ range n, |x j| + t) :
    |quadForm n F x - ∑ i ∈ range n, x i * b i| ≤
      (∑ j ∈ range n, |x j|) * (κ * ∑ j ∈ range n, |x j| + t) := by
  have e : quadForm n F x - ∑ i ∈ range n, x i * b i = ∑ i ∈ range n, x i * (∑ j ∈ range n, F i j * x j - b i) := by
    unfold quadForm
    rw [← sum_sub_distrib]
    refine sum_congr rfl fun i _ => ?_
    rw [mul_sub, mul_sum]
    congr 1
    exact sum_congr rfl fun j _ => by ring
  rw [e]
  refine (abs_sum_le_sum_abs _ _).trans ?_
  rw [sum_mul]
  refine sum_le_sum fun i hi => ?_
  rw [abs_mul]
  refine mul_le_mul_of_nonneg_left ?_ (abs_nonneg _)
  rw [abs_sub_comm]
  exact hr i (mem_range.1 hi)

/-- The size of a computed solution. -/
theorem solve_size (hμ : ∀ x : Nat → ℝ, μ * ∑ p ∈ range n, x p ^ 2 ≤ quadForm n F x) (hμ0 : 0 < μ)
    (hκ : n * κ ≤ 15 / 16 * μ) (ht : 0 ≤ t) {b : Nat → ℝ} {Y : ℝ} (hY0 : 0 ≤ Y) (hY : ∀ i, i < n → |b i| ≤ Y)
    (hr : ∀ i, i < n → |b i - ∑ j ∈ range n, F i j * x j| ≤ κ * ∑ j ∈ range n, |x j| + t) :
    μ * ∑ j ∈ range n, |x j| ≤ 16 * n * (Y + t) := by
  have h1 := norm_energy (x := x) hμ hμ0
  have h2 := (abs_le.1 (energy_near hr)).2
  set A := ∑ j ∈ range n, |x j| with hA
  have hA0 : 0 ≤ A := sum_nonneg fun _ _ => abs_nonneg _
  have h3 : ∑ i ∈ range n, x i * b i ≤ A * Y := by
    rw [hA, sum_mul]
    refine sum_le_sum fun i hi => ?_
    refine (le_abs_self _).trans ?_
    rw [abs_mul]
    exact mul_le_mul_of_nonneg_left (hY i (mem_range.1 hi)) (abs_nonneg _)
  rcases hA0.eq_or_lt with h0 | h0
  · rw [← h0, mul_zero]
    have : (0 : ℝ) ≤ n := Nat.cast_nonneg _
    positivity
  · have hn0 : (0 : ℝ) ≤ n := Nat.cast_nonneg _
    have h4 : n * quadForm n F x ≤ n * (A * Y + A * (κ * A + t)) := mul_le_mul_of_nonneg_left (by linarith) hn0
    have h5 : n * κ * A ^ 2 ≤ 15 / 16 * μ * A ^ 2 := mul_le_mul_of_nonneg_right hκ (sq_nonneg _)
    have h6 : A * (μ * A) ≤ A * (16 * n * (Y + t)) := by nlinarith
    exact le_of_mul_le_mul_left h6 h0

/-- The energy of the solution for a right-hand side of ones is not small. -/
theorem ones_energy (hμ : ∀ x : Nat → ℝ, μ * ∑ p ∈ range n, x p ^ 2 ≤ quadForm n F x) (hμ0 : 0 < μ) (hn : 0 < n)
    (hsym : Symm n F) {M : ℝ} (hM0 : 0 < M) (hM : F 0 0 ≤ M)
    (hκ : n * κ ≤ 15 / 16 * μ) (hκ0 : 0 ≤ κ) (hκM : κ ≤ M / 2 ^ 18) (ht2 : t ≤ 1 / 2 ^ 10)
    (hr : ∀ i, i < n → |1 - ∑ j ∈ range n, F i j * x j| ≤ κ * ∑ j ∈ range n, |x j| + t) :
    1 / (2 * M) ≤ quadForm n F x := by
  have h1 := norm_energy (x := x) hμ hμ0
  have hr0 := (abs_le.1 (hr 0 hn)).2
  set A := ∑ j ∈ range n, |x j| with hA
  have hA0 : 0 ≤ A := sum_nonneg fun _ _ => abs_nonneg _
  set Q := quadForm n F x with hQ
  by_contra hlt
  rw [not_le] at hlt
  have hQM : Q * M < 1 / 2 := by
    have : Q * (2 * M) < 1 := by rwa [lt_div_iff₀ (by linarith)] at hlt
    linarith
  -- `κ A` is small
  have hn0 : (0 : ℝ) ≤ n := Nat.cast_nonneg _
  have hQ0 : 0 ≤ Q := by
    have : (0 : ℝ) < n := by exact_mod_cast hn
    have h : 0 ≤ n * Q := le_trans (by positivity) h1
    exact nonneg_of_mul_nonneg_right h this
  have h2 : κ * (μ * A ^ 2) ≤ 15 / 16 * μ * Q := by
    have a1 := mul_le_mul_of_nonneg_left h1 hκ0
    have a2 := mul_le_mul_of_nonneg_right hκ hQ0
    linarith
  have h3 : κ * A ^ 2 ≤ 15 / 16 * Q := by
    have : μ * (κ * A ^ 2) ≤ μ * (15 / 16 * Q) := by linarith
    exact le_of_mul_le_mul_left this hμ0
  have h4 : (κ * A) ^ 2 ≤ (1 / 2 ^ 9) ^ 2 := by
    have a1 : κ * (κ * A ^ 2) ≤ M / 2 ^ 18 * (15 / 16 * Q) := mul_le_mul hκM h3 (by positivity) (by positivity)
    have a2 : (κ * A) ^ 2 = κ * (κ * A ^ 2) := by ring
    rw [a2]
    refine a1.trans ?_
    have : M / 2 ^ 18 * (15 / 16 * Q) = 15 / 16 / 2 ^ 18 * (Q * M) := by ring
    rw [this]
    norm_num
    linarith
  have h5 : κ * A ≤ 1 / 2 ^ 9 := le_of_sq_le_sq h4 (by norm_num)
  -- the form at `x - e_0 / M`
  set g := ∑ j ∈ range n, F 0 j * x j with hg
  have h6 := hμ (fun i => x i - if i = 0 then 1 / M else 0)
  have e : quadForm n F (fun i => x i - if i = 0 then 1 / M else 0) = Q - 2 * (1 / M) * g + (1 / M) ^ 2 * F 0 0 := by
    have hm0 : 0 ∈ range n := mem_range.2 hn
    unfold quadForm
    have s1 : ∀ i, i < n → ∑ j ∈ range n, (x i - if i = 0 then 1 / M else 0) * F i j * (x j - if j = 0 then 1 / M else 0) =
        ∑ j ∈ range n, x i * F i j * x j - 1 / M * (x i * F i 0) -
          (if i = 0 then 1 / M * ∑ j ∈ range n, F i j * x j else 0) + (if i = 0 then (1 / M) ^ 2 * F i 0 else 0) := by
      intro i hi
      have : ∀ j, (x i - if i = 0 then 1 / M else 0) * F i j * (x j - if j = 0 then 1 / M else 0) =
          x i * F i j * x j - (if j = 0 then 1 / M * (x i * F i j) else 0) - (if i = 0 then 1 / M else 0) * (F i j * x j) +
            (if j = 0 then (if i = 0 then (1 / M) ^ 2 * F i j else 0) else 0) := by
        intro j; split_ifs <;> ring
      rw [sum_congr rfl fun j _ => this j, sum_add_distrib, sum_sub_distrib, sum_sub_distrib, ← mul_sum]
      rw [sum_ite_eq' (range n) 0 (fun j => 1 / M * (x i * F i j)), if_pos hm0]
      rw [sum_ite_eq' (range n) 0 (fun j => if i = 0 then (1 / M) ^ 2 * F i j else 0), if_pos hm0]
      split_ifs <;> ring
    rw [sum_congr rfl fun i hi => s1 i (mem_range.1 hi), sum_add_distrib, sum_sub_distrib, sum_sub_distrib, ← mul_sum]
    rw [sum_ite_eq' (range n) 0 (fun i => 1 / M * ∑ j ∈ range n, F i j * x j), if_pos hm0]
    rw [sum_ite_eq' (range n) 0 (fun i => (1 / M) ^ 2 * F i 0), if_pos hm0]
    have : ∑ i ∈ range n, x i * F i 0 = g := by
      rw [hg]
      exact sum_congr rfl fun i hi => by rw [hsym i 0 (mem_range.1 hi) hn]; ring
    rw [this, hQ]
    unfold quadForm
    ring
  rw [e] at h6
  have h7 : 0 ≤ Q - 2 * (1 / M) * g + (1 / M) ^ 2 * F 0 0 :=
    le_trans (mul_nonneg hμ0.le (sum_nonneg fun _ _ => sq_nonneg _)) h6
  have h8 : (1 / M) ^ 2 * F 0 0 ≤ 1 / M := by
    have := mul_le_mul_of_nonneg_left hM (sq_nonneg (1 / M))
    refine this.trans (le_of_eq ?_)
    field_simp
  have h9 : 0 ≤ Q * M - 2 * g + 1 := by
    have : 0 ≤ (Q - 2 * (1 / M) * g + 1 / M) * M := mul_nonneg (by linarith) hM0.le
    have e2 : (Q - 2 * (1 / M) * g + 1 / M) * M = Q * M - 2 * g + 1 := by field_simp
    rwa [e2] at this
  norm_num at h5 ht2
  linarith

/-- The sum of the entries of that solution is not small either, and it dominates their absolute values
times the rounding errors. -/
theorem ones_sum (hμ : ∀ x : Nat → ℝ, μ * ∑ p ∈ range n, x p ^ 2 ≤ quadForm n F x) (hμ0 : 0 < μ) (hn : 0 < n)
    (hsym : Symm n F) {M h : ℝ} (hM0 : 0 < M) (hM : F 0 0 ≤ M) (hh0 : 0 ≤ h) (hh : h ≤ 1 / 2 ^ 20)
    (hκ : n * κ ≤ 15 / 16 * μ) (hκ0 : κ = 25 / 8 * h * M)
    (ht2 : t ≤ 1 / 2 ^ 10)
    (hr : ∀ i, i < n → |1 - ∑ j ∈ range n, F i j * x j| ≤ κ * ∑ j ∈ range n, |x j| + t) :
    1 / (64 * M) - (∑ j ∈ range n, |x j|) * t ≤ ∑ j ∈ range n, x j - 2 * h * ∑ j ∈ range n, |x j| := by
  have hκ00 : 0 ≤ κ := by rw [hκ0]; positivity
  have hκM : κ ≤ M / 2 ^ 18 := by
    rw [hκ0]
    have := mul_le_mul_of_nonneg_right hh hM0.le
    norm_num at this ⊢
    linarith
  have hQ := ones_energy hμ hμ0 hn hsym hM0 hM hκ hκ00 hκM ht2 hr
  have h1 := norm_energy (x := x) hμ hμ0
  have h2 := (abs_le.1 (energy_near (b := fun _ => 1) hr)).2
  simp only [mul_one] at h2
  set A := ∑ j ∈ range n, |x j| with hA
  have hA0 : 0 ≤ A := sum_nonneg fun _ _ => abs_nonneg _
  set Q := quadForm n F x with hQd
  have hQ0 : 0 < Q := lt_of_lt_of_le (by positivity) hQ
  have hQM : 1 / 2 ≤ Q * M := by
    rw [div_le_iff₀ (by linarith)] at hQ
    linarith
  have h3 : κ * A ^ 2 ≤ 15 / 16 * Q := by
    have a1 := mul_le_mul_of_nonneg_left h1 hκ00
    have a2 := mul_le_mul_of_nonneg_right hκ hQ0.le
    have : μ * (κ * A ^ 2) ≤ μ * (15 / 16 * Q) := by linarith
    exact le_of_mul_le_mul_left this hμ0
  have h4 : h * A ≤ Q / 64 := by
    refine le_of_sq_le_sq ?_ (by positivity)
    have a1 : h * A ^ 2 * M ≤ 3 / 10 * Q := by
      rw [hκ0] at h3
      linarith
    have a2 : h * (h * A ^ 2 * M) ≤ 1 / 2 ^ 20 * (3 / 10 * Q) := mul_le_mul hh a1 (by positivity) (by norm_num)
    have a3 : (h * A) ^ 2 * M ≤ (Q / 64) ^ 2 * M := by
      have : (Q / 64) ^ 2 * M = Q / 4096 * (Q * M) := by ring
      rw [this]
      have := mul_le_mul_of_nonneg_left hQM (show 0 ≤ Q / 4096 by positivity)
      norm_num at a2
      nlinarith
    exact le_of_mul_le_mul_right a3 hM0
  have h5 : 1 / (64 * M) ≤ Q / 32 := by
    rw [div_le_div_iff₀ (by positivity) (by norm_num)]
    linarith
  have h6 : A * (κ * A + t) = κ * A ^ 2 + A * t := by ring
  rw [h6] at h2
  linarith

end Size

/-! ## The correlation matrix and its margin -/

/-- Adding a number to the diagonal gives a margin. -/
theorem krigingMatrix_margin {n m : Nat} {t g : Nat → ℝ} {e : ℝ} {X : Nat → Nat → ℝ}
    (ht : ∀ k, k < m → 0 ≤ t k) (hg : ∀ k, k < m → 0 ≤ g k ∧ g k ≤ 2) (x : Nat → ℝ) :
    e * ∑ p ∈ range n, x p ^ 2 ≤ quadForm n (krigingMatrix m t g e X) x := by
  have h1 : PosSemidef n (krigingMatrix m t g 0 X) :=
    Corr.expCorr_psd (F := X) ht hg (fun i _ => by simp [krigingMatrix])
      (fun i j _ _ hij => by simp [krigingMatrix, hij])
  have e1 : quadForm n (krigingMatrix m t g e X) x =
      quadForm n (krigingMatrix m t g 0 X) x + e * ∑ i ∈ range n, x i ^ 2 := by
    unfold quadForm
    rw [mul_sum, ← sum_add_distrib]
    refine sum_congr rfl (fun i hi => ?_)
    have : ∀ j, x i * krigingMatrix m t g e X i j * x j =
        x i * krigingMatrix m t g 0 X i j * x j + if i = j then e * (x i * x j) else 0 := by
      intro j
      unfold krigingMatrix
      split_ifs <;> ring
    rw [sum_congr rfl (fun j _ => this j), sum_add_distrib, sum_ite_eq, if_pos hi]
    ring
  rw [e1]
  have := h1 x
  linarith

/-- The computed matrix against the exact one. -/
theorem matrix_near {L : Libm ℝ} (hL : Accurate L) {s : Corr.ExpCorr ℝ} {n m : Nat} {F : Nat → Nat → ℝ}
    (h : ReadyDbl s n m F) (hm : m ≤ 2 ^ 32) :
    ∃ R G, correlationMatrix L s = .ok R ∧ IsMat R n n G ∧ Symm n G ∧
      (∀ i j, i < n → j < n → IsDouble (G i j) ∧ 0 ≤ G i j) ∧
      (∀ i, i < n → G i i = fl (1 + s.base.epsilon)) ∧
      (∀ i j, i < n → j < i →
        exponential L ((List.range m).map (F i)) ((List.range m).map (F j)) s.theta s.gamma m = .ok (G i j)) ∧
      ∀ i j, i < n → j < n →
        |G i j - krigingMatrix m (vecFun s.theta) (vecFun s.gamma) s.base.epsilon F i j| ≤ ((m : ℝ) + 10) / 2 ^ 54 := by
  obtain ⟨R, G, h1, h2, h3, h4, h5, h6, h7⟩ := correlationMatrix_near hL h hm
  refine ⟨R, G, h1, h2, h3, h4, h5, h6, fun i j hi hj => ?_⟩
  unfold krigingMatrix
  by_cases hij : i = j
  · subst hij
    rw [if_pos rfl, h5 i hi]
    obtain ⟨e1, e2, e3⟩ := h.epsilon_range
    have := fl_add_rel isDouble_one e1
    refine this.trans ?_
    rw [abs_of_nonneg (by linarith)]
    unfold eps
    rw [div_mul_eq_mul_div, one_mul, div_le_div_iff₀ (by norm_num) (by norm_num)]
    have : (0 : ℝ) ≤ m := Nat.cast_nonneg _
    norm_num
    nlinarith
  · rw [if_neg hij]
    exact h7 i j hi hj hij

/-- The margin and size of the computed matrix. -/
theorem matrix_margin {s : Corr.ExpCorr ℝ} {n m : Nat} {F G : Nat → Nat → ℝ}
    (h : ReadyDbl s n m F) (hn : 0 < n)
    (hG : ∀ i j, i < n → j < n → 0 ≤ G i j)
    (hnear : ∀ i j, i < n → j < n →
      |G i j - krigingMatrix m (vecFun s.theta) (vecFun s.gamma) s.base.epsilon F i j| ≤ ((m : ℝ) + 10) / 2 ^ 54)
    (he : n * ((m : ℝ) + 10) / 2 ^ 54 ≤ s.base.epsilon) :
    (∀ x : Nat → ℝ, (s.base.epsilon - n * ((m : ℝ) + 10) / 2 ^ 54) * ∑ p ∈ range n, x p ^ 2 ≤ quadForm n G x) ∧
      ∀ i j, i < n → j < n → |G i j| ≤ 1 + 2 * s.base.epsilon := by
  have ht : ∀ k, k < m → 0 ≤ vecFun s.theta k := fun k hk =>
    (vecFun_all h.theta_range (k := k) (by rw [h.theta_len]; exact hk)).2.1
  have hg : ∀ k, k < m → 0 ≤ vecFun s.gamma k ∧ vecFun s.gamma k ≤ 2 := fun k hk =>
    (vecFun_all h.gamma_range (k := k) (by rw [h.gamma_len]; exact hk)).2
  have hm0 : (0 : ℝ) ≤ m := Nat.cast_nonneg _
  have hδ : (0 : ℝ) ≤ ((m : ℝ) + 10) / 2 ^ 54 := by positivity
  have hn1 : (1 : ℝ) ≤ n := by exact_mod_cast hn
  have hδe : ((m : ℝ) + 10) / 2 ^ 54 ≤ s.base.epsilon := by
    have := mul_le_mul_of_nonneg_right hn1 hδ
    have e : (n : ℝ) * (((m : ℝ) + 10) / 2 ^ 54) = n * ((m : ℝ) + 10) / 2 ^ 54 := by ring
    rw [e] at this
    linarith
  refine ⟨fun x => ?_, fun i j hi hj => ?_⟩
  · have h1 := krigingMatrix_margin (n := n) (e := s.base.epsilon) (X := F) ht hg x
    have h2 := quadForm_diff hδ (fun p q hp hq => by rw [abs_sub_comm]; exact hnear p q hp hq) x
    have e : ((m : ℝ) + 10) / 2 ^ 54 * (n * ∑ p ∈ range n, x p ^ 2) =
        n * ((m : ℝ) + 10) / 2 ^ 54 * ∑ p ∈ range n, x p ^ 2 := by ring
    rw [e] at h2
    linarith
  · rw [abs_of_nonneg (hG i j hi hj)]
    have h1 := (abs_le.1 (hnear i j hi hj)).2
    have h2 : krigingMatrix m (vecFun s.theta) (vecFun s.gamma) s.base.epsilon F i j ≤ 1 + s.base.epsilon := by
      unfold krigingMatrix
      split_ifs
      · exact le_rfl
      · have : expCorr m (vecFun s.theta) (vecFun s.gamma) (F i) (F j) ≤ 1 := by
          rw [expCorr, Real.exp_le_one_iff, neg_nonpos]
          exact sum_nonneg (fun k hk => mul_nonneg (ht k (mem_range.1 hk)) (Real.rpow_nonneg (abs_nonneg _) _))
        linarith [h.epsilon_range.2.1]
    linarith

/-! ## The fit -/

/-- A factorization whose solves all succeed. -/
theorem factor_solve {A : Mat ℝ} {n : Nat} {F : Nat → Nat → ℝ} {sqrt : ℝ → ℝ} {M μ : ℝ} (hs : IsSqrt sqrt)
    (hA : IsMat A n n F) (hsym : Symm n F) (hn0 : 0 < n) (hn : n ≤ 2 ^ 32)
    (hF : ∀ i j, i < n → j < n → IsDouble (F i j)) (hM1 : 2 ^ (-100 : ℤ) ≤ M) (hM2 : M ≤ 2 ^ (100 : ℤ))
    (hM : ∀ i j, i < n → j < n → |F i j| ≤ M)
    (hμ : ∀ x : Nat → ℝ, μ * ∑ p ∈ range n, x p ^ 2 ≤ quadForm n F x) (hμ2 : 17 / 16 * (n + 5) * hh n * M ≤ μ) :
    ∃ Lf, cholesky sqrt A = .ok (Lf, 1) ∧ (∃ H, IsMat Lf n n (lowerPart H) ∧ GoodInv n M F H n) ∧ ∀ b : List ℝ, b.length = n → Doubles b →
      (∀ a, a < n → |vecFun b a| ≤ 2 ^ (100 : ℤ)) → ∃ x, solveCholesky Lf b = .ok x ∧ x.length = n ∧
        ∀ i, i < n → |vecFun b i - ∑ j ∈ range n, F i j * vecFun x j| ≤
          25 / 8 * hh n * M * ∑ j ∈ range n, |vecFun x j| + 2 ^ (-400 : ℤ) := by
  obtain ⟨⟨Lf, ret⟩, h1, h2, hG⟩ := cholesky_total hs hA hsym hn hF hM1 hM2 hM hμ hμ2
  dsimp only at h2
  subst h2
  refine ⟨Lf, h1, hG, fun b hb hbd hbs => ?_⟩
  have e : solveSystem sqrt A b = solveCholesky Lf b := by
    unfold solveSystem
    rw [h1, okBind]
    exact if_neg (by norm_num)
  obtain ⟨x, h3, h4, -⟩ := solveSystem_total hs hA hsym hn0 hn hF hM1 hM2 hM hμ hμ2 hb hbd hbs
  obtain ⟨-, h5⟩ := solveSystem_near hs hA hsym hn hF hb hbd (fun i hi => (le_abs_self _).trans (hM i i hi hi))
    hM1 hM2 x h3
  refine ⟨x, by rw [← e, h3], h4, fun i hi => (h5 i hi).trans (le_of_eq ?_)⟩
  unfold hh
  ring

theorem vecFun_replicate {n i : Nat} (h : i < n) : vecFun (List.replicate n (1 : ℝ)) i = 1 := by
  simp [vecFun, h]

theorem doubles_replicate (n : Nat) : Doubles (List.replicate n (1 : ℝ)) := fun x hx => by
  rw [List.eq_of_mem_replicate hx]; exact isDouble_one

theorem subScalar_ok {y : List ℝ} {n : Nat} {b : ℝ} (hy : y.length = n)
    (h : ∀ i, i < n → |vecFun y i - b| ≤ 2 ^ (100 : ℤ)) :
    ∃ d, subScalar y b = .ok d ∧ d.length = n ∧ Doubles d ∧ ∀ i, i < n → vecFun d i = fl (vecFun y i - b) := by
  refine ⟨y.map fun v => fl (v - b), ?_, by simp [hy], ?_, ?_⟩
  · unfold subScalar
    refine mapRes_ok fun v hv => ?_
    obtain ⟨i, hi, rfl⟩ := List.getElem_of_mem hv
    refine dbl_of_le (n := 100) (by norm_num) (by norm_num) ?_
    have := h i (by omega)
    simpa [vecFun, hi] using this
  · intro v hv
    obtain ⟨u, -, rfl⟩ := List.mem_map.1 hv
    exact fl_isDouble _
  · intro i hi
    have hi' : i < y.length := by omega
    simp [vecFun, hi']

theorem tiny_n {n : Nat} (hn : n < 2 ^ 32) : (n : ℝ) / 2 ^ 1074 ≤ 1 / 2 ^ 100 := by
  have h1 : (n : ℝ) ≤ 2 ^ 32 := by exact_mod_cast hn.le
  rw [div_le_div_iff₀ (by positivity) (by positivity), one_mul]
  calc (n : ℝ) * 2 ^ 100 ≤ 2 ^ 32 * 2 ^ 100 := mul_le_mul_of_nonneg_right h1 (by positivity)
    _ = 2 ^ 132 := by rw [← pow_add]
    _ ≤ 2 ^ 1074 := pow_le_pow_right₀ (by norm_num) (by omega)

theorem tiny400 : (0 : ℝ) < 2 ^ (-400 : ℤ) ∧ (2 : ℝ) ^ (-400 : ℤ) ≤ 1 / 2 ^ 200 := by
  refine ⟨zp _, ?_⟩
  have : (2 : ℝ) ^ (-200 : ℤ) = 1 / 2 ^ 200 := by rw [zpow_neg, one_div, ← zp_nat]; rfl
  rw [← this]
  exact zp_mono (by norm_num)

/-- A dot product whose size is known. -/
theorem dot_size {v w : List ℝ} {n : Nat} (hv : v.length = n) (hw : w.length = n) (hn : n < 2 ^ 32) {T : ℝ}
    (hT : ∑ i ∈ range n, |vecFun v i * vecFun w i| ≤ T) (hT2 : T ≤ 2 ^ 250) :
    ∃ r, dot v w = .ok r ∧ IsDouble r ∧ |r| ≤ 2 * T + 1 ∧
      |r - ∑ i ∈ range n, vecFun v i * vecFun w i| ≤
        2 * hh n * ∑ i ∈ range n, |vecFun v i * vecFun w i| + 1 / 2 ^ 100 := by
  obtain ⟨r, h1, h2, h3⟩ := C115_dot hv hw hn (hT.trans (hT2.trans
    (pow_le_pow_right₀ (by norm_num) (by norm_num))))
  have h4 := tiny_n hn
  have hh2 := hh_high (K := ℝ) hn.le
  set S := ∑ i ∈ range n, |vecFun v i * vecFun w i| with hS
  have hS0 : 0 ≤ S := sum_nonneg fun _ _ => abs_nonneg _
  have h5 : ((n : ℝ) + 1) / 2 ^ 52 ≤ 2 * hh n := by
    unfold hh
    rw [show (2 : ℝ) * (((n : ℝ) + 2) / 2 ^ 53) = ((n : ℝ) + 2) / 2 ^ 52 by ring]
    gcongr
    norm_num
  have h6 := mul_le_mul_of_nonneg_right h5 hS0
  have h7 : |∑ i ∈ range n, vecFun v i * vecFun w i| ≤ S := abs_sum_le_sum_abs _ _
  have h8 := mul_le_mul_of_nonneg_right hh2 hS0
  have h10 : |r - ∑ i ∈ range n, vecFun v i * vecFun w i| ≤ 2 * hh n * S + 1 / 2 ^ 100 := by
    generalize (n : ℝ) / 2 ^ 1074 = q at h3 h4
    linarith
  refine ⟨r, h1, h2, ?_, h10⟩
  have h9 : |r| ≤ |r - ∑ i ∈ range n, vecFun v i * vecFun w i| + |∑ i ∈ range n, vecFun v i * vecFun w i| := by
    have := abs_add_le (r - ∑ i ∈ range n, vecFun v i * vecFun w i) (∑ i ∈ range n, vecFun v i * vecFun w i)
    rwa [sub_add_cancel] at this
  generalize (n : ℝ) / 2 ^ 1074 = q at h3 h4
  norm_num at h8 h4
  linarith

/-- The estimate of the mean in the fit. -/
theorem beta_ok {Lf : Mat ℝ} {n : Nat} {F : Nat → Nat → ℝ} {M μ t : ℝ} (ht0 : 0 < t) (ht1 : t ≤ 1 / 2 ^ 200) (hn0 : 0 < n) (hn : n < 2 ^ 32)
    (hsym : Symm n F) (hM1 : 1 ≤ M) (hM3 : M ≤ 3) (hM : ∀ i j, i < n → j < n → |F i j| ≤ M)
    (hμ : ∀ x : Nat → ℝ, μ * ∑ p ∈ range n, x p ^ 2 ≤ quadForm n F x)
    (hμ2 : 10 / 3 * ((n + 1) * hh n) * M ≤ μ)
    (hsolve : ∀ b : List ℝ, b.length = n → Doubles b →
      (∀ a, a < n → |vecFun b a| ≤ 2 ^ (100 : ℤ)) → ∃ x, solveCholesky Lf b = .ok x ∧ x.length = n ∧
        ∀ i, i < n → |vecFun b i - ∑ j ∈ range n, F i j * vecFun x j| ≤
          25 / 8 * hh n * M * ∑ j ∈ range n, |vecFun x j| + t)
    (size : ∀ b x : List ℝ, ∀ Y : ℝ, 0 ≤ Y → (∀ a, a < n → |vecFun b a| ≤ Y) →
      (∀ i, i < n → |vecFun b i - ∑ j ∈ range n, F i j * vecFun x j| ≤
          25 / 8 * hh n * M * ∑ j ∈ range n, |vecFun x j| + t) →
      ∑ j ∈ range n, |vecFun x j| ≤ 2 ^ 54 * (Y + t))
    {y : List ℝ} (hy : y.length = n) (hyd : Doubles y) (hys : ∀ a, a < n → |vecFun y a| ≤ 2 ^ 30) (average : Bool) :
    ∃ b : ℝ, beta0 Lf average y = .ok b ∧ IsDouble b ∧ |b| ≤ 2 ^ 95 := by
  unfold beta0
  have hh1 := hh_low (K := ℝ) hn0
  have hh2 := hh_high (K := ℝ) hn.le
  have hn1 : (1 : ℝ) ≤ n := by exact_mod_cast hn0
  have hμ0 : 0 < μ := lt_of_lt_of_le (by positivity) hμ2
  cases average with
  | true =>
    rw [if_pos rfl]
    have hT : ∑ i ∈ range n, |vecFun y i| ≤ n * 2 ^ 30 := by
      have := sum_le_sum (s := range n) (f := fun i => |vecFun y i|) (g := fun _ => (2 : ℝ) ^ 30)
        fun i hi => hys i (mem_range.1 hi)
      simpa using this
    have hn32 : (n : ℝ) ≤ 2 ^ 32 := by exact_mod_cast hn.le
    obtain ⟨b, h1, h2, h3⟩ := C115_mean hy hn0 hn hyd (hT.trans (by
      calc (n : ℝ) * 2 ^ 30 ≤ 2 ^ 32 * 2 ^ 30 := mul_le_mul_of_nonneg_right hn32 (by positivity)
        _ = 2 ^ 62 := by rw [← pow_add]
        _ ≤ 2 ^ 1000 := pow_le_pow_right₀ (by norm_num) (by norm_num)))
    refine ⟨b, h1, h2, ?_⟩
    have a1 : (∑ i ∈ range n, |vecFun y i|) / n ≤ 2 ^ 30 := by
      rw [div_le_iff₀ (by linarith)]; linarith
    have a2 : |(∑ i ∈ range n, vecFun y i) / n| ≤ 2 ^ 30 := by
      rw [abs_div, Nat.abs_cast]
      exact le_trans (div_le_div_of_nonneg_right (abs_sum_le_sum_abs _ _) (by linarith)) a1
    have a3 : ((n : ℝ) + 1) / 2 ^ 52 ≤ 1 := by
      rw [div_le_one (by positivity)]
      have : (2 : ℝ) ^ 32 + 1 ≤ 2 ^ 52 := by norm_num
      linarith
    have a4 : (1 : ℝ) / 2 ^ 1075 ≤ 1 := by
      rw [div_le_one (by positivity)]; exact one_le_pow₀ (by norm_num)
    have a5 : ((n : ℝ) + 1) / 2 ^ 52 * ((∑ i ∈ range n, |vecFun y i|) / n) ≤ 1 * 2 ^ 30 :=
      mul_le_mul a3 a1 (div_nonneg (sum_nonneg fun _ _ => abs_nonneg _) (by linarith)) (by norm_num)
    have a6 : |b| ≤ |b - (∑ i ∈ range n, vecFun y i) / n| + |(∑ i ∈ range n, vecFun y i) / n| := by
      have := abs_add_le (b - (∑ i ∈ range n, vecFun y i) / n) ((∑ i ∈ range n, vecFun y i) / n)
      rwa [sub_add_cancel] at this
    generalize (1 : ℝ) / 2 ^ 1075 = q at h3 a4
    norm_num at a2 a5 ⊢
    linarith
  | false =>
    simp only [Bool.false_eq_true, if_false, hy]
    have hrep : (List.replicate n (1 : ℝ)).length = n := by simp
    have h100 : (2 : ℝ) ^ (100 : ℤ) = 2 ^ 100 := zp_nat 100
    obtain ⟨a, ea, la, ra⟩ := hsolve y hy hyd (fun i hi => (hys i hi).trans (by rw [h100]; norm_num))
    obtain ⟨b, eb, lb, rb⟩ := hsolve _ hrep (doubles_replicate n) (fun i hi => by
      rw [vecFun_replicate hi, h100]; norm_num)
    have sa := size y a _ (by positivity) hys ra
    have sb := size _ b 1 (by norm_num) (fun i hi => by rw [vecFun_replicate hi]; norm_num) rb
    have one : ∀ c : List ℝ, ∀ i ∈ range n, vecFun (List.replicate n (1 : ℝ)) i * vecFun c i = vecFun c i :=
      fun c i hi => by rw [vecFun_replicate (mem_range.1 hi), one_mul]
    have tot : ∀ c : List ℝ, ∑ i ∈ range n, |vecFun (List.replicate n (1 : ℝ)) i * vecFun c i| =
        ∑ i ∈ range n, |vecFun c i| := fun c => sum_congr rfl fun i hi => by rw [one c i hi]
    have tot' : ∀ c : List ℝ, ∑ i ∈ range n, vecFun (List.replicate n (1 : ℝ)) i * vecFun c i =
        ∑ i ∈ range n, vecFun c i := fun c => sum_congr rfl fun i hi => one c i hi
    obtain ⟨oneB, eB, dB, -, nB⟩ := dot_size hrep lb hn (T := 2 ^ 55) (by
      rw [tot]; refine sb.trans ?_
      norm_num at ht1 ⊢
      linarith) (by norm_num)
    obtain ⟨oneA, eA, dA, bA, -⟩ := dot_size hrep la hn (T := 2 ^ 85) (by
      rw [tot]; refine sa.trans ?_
      norm_num at ht1 ⊢
      linarith) (by norm_num)
    rw [tot, tot'] at nB
    have hlow : 1 / 256 ≤ oneB := by
      have hκ : (n : ℝ) * (25 / 8 * hh n * M) ≤ 15 / 16 * μ := by
        have : 0 ≤ hh n * M := mul_nonneg (by linarith) (by linarith)
        nlinarith
      have := ones_sum (x := vecFun b) hμ hμ0 hn0 hsym (by linarith : (0 : ℝ) < M)
        ((le_abs_self _).trans (hM 0 0 hn0 hn0)) (by linarith) hh2 hκ rfl (ht1.trans (by norm_num)) (fun i hi => by
          have := rb i hi
          rwa [vecFun_replicate hi] at this)
      have h1 : 1 / 192 ≤ 1 / (64 * M) := by
        rw [div_le_div_iff₀ (by norm_num) (by linarith)]; linarith
      have h2 := (abs_le.1 nB).1
      have h3 : (∑ j ∈ range n, |vecFun b j|) * t ≤ 2 ^ 55 * (1 / 2 ^ 200) := by
        refine mul_le_mul (sb.trans ?_) ht1 ht0.le (by norm_num)
        norm_num at ht1 ⊢
        linarith
      have h4 : (2 : ℝ) ^ 55 * (1 / 2 ^ 200) ≤ 1 / 10000 := by norm_num
      have h5 : (1 : ℝ) / 2 ^ 100 ≤ 1 / 10000 := by norm_num
      linarith
    have hinv : |1 / oneB| ≤ 2 ^ (8 : ℤ) := by
      rw [abs_of_pos (by positivity), div_le_iff₀ (by linarith)]
      norm_num at hlow ⊢
      linarith
    have h95 : (2 : ℝ) ^ (95 : ℤ) = 2 ^ 95 := zp_nat 95
    have hprod : |fl (1 / oneB) * oneA| ≤ 2 ^ (95 : ℤ) := by
      rw [abs_mul, h95]
      have h1 := fl_abs_le (by norm_num) hinv
      refine (mul_le_mul h1 bA (abs_nonneg _) (zp _).le).trans ?_
      norm_num
    refine ⟨fl (fl (1 / oneB) * oneA), ?_, fl_isDouble _, ?_⟩
    · rw [ea, okBind, eb, okBind, eB, okBind]
      have h1 : div 1 oneB = .ok (fl (1 / oneB)) := by
        unfold div
        rw [if_neg (by linarith)]
        exact dbl_of_le (by norm_num) (by norm_num) hinv
      rw [h1, okBind, eA, okBind]
      exact dbl_of_le (by norm_num) (by norm_num) hprod
    · rw [← h95]
      exact fl_abs_le (by norm_num) hprod

/-- The fit of a model with a margin above the rounding errors. -/
theorem fit_total {sqrt : ℝ → ℝ} (hs : IsSqrt sqrt) {L : Libm ℝ} (hL : Accurate L) {s : Corr.ExpCorr ℝ} {n m : Nat}
    {F : Nat → Nat → ℝ} (h : ReadyDbl s n m F) (hn0 : 0 < n) (hn : n < 2 ^ 32) (hm : m ≤ 2 ^ 32)
    (hc : 10 / 3 * (((n : ℝ) + 1) * ((n + 2) / 2 ^ 53)) * (1 + 2 * s.base.epsilon) + n * ((m : ℝ) + 10) / 2 ^ 54 ≤
      s.base.epsilon)
    {y : List ℝ} (hy : y.length = n) (hyd : Doubles y) (hys : ∀ a, a < n → |vecFun y a| ≤ 2 ^ 30) (average : Bool) :
    ∃ f, fit sqrt L s average y = .ok (some f) ∧ |f.beta0| ≤ 2 ^ 95 ∧
      ∑ j ∈ range n, |vecFun f.weights j| ≤ 2 ^ 152 := by
  obtain ⟨R, G, h1, h2, h3, h4, h5, h6, h7⟩ := matrix_near hL h hm
  obtain ⟨e1, e2, e3⟩ := h.epsilon_range
  set e := s.base.epsilon with he
  have hh1 := hh_low (K := ℝ) hn0
  have hh2 := hh_high (K := ℝ) hn.le
  have hn1 : (1 : ℝ) ≤ n := by exact_mod_cast hn0
  have hc2 : 10 / 3 * (((n : ℝ) + 1) * hh n) * (1 + 2 * e) + n * ((m : ℝ) + 10) / 2 ^ 54 ≤ e := hc
  have hpos : 0 ≤ 10 / 3 * (((n : ℝ) + 1) * hh n) * (1 + 2 * e) := by
    have : 0 ≤ hh (K := ℝ) n := by linarith
    positivity
  obtain ⟨m1, m2⟩ := matrix_margin h hn0 (fun i j hi hj => (h4 i j hi hj).2) h7 (by rw [← he]; linarith)
  rw [← he] at m1 m2
  set μ := e - n * ((m : ℝ) + 10) / 2 ^ 54 with hμ
  set M := 1 + 2 * e with hM
  have hM1 : 1 ≤ M := by linarith
  have hM3 : M ≤ 3 := by linarith
  have hμ2 : 10 / 3 * (((n : ℝ) + 1) * hh n) * M ≤ μ := by linarith
  have hhM : 0 ≤ hh n * M := mul_nonneg (by linarith) (by linarith)
  have hκ : (n : ℝ) * (25 / 8 * hh n * M) ≤ 15 / 16 * μ := by nlinarith
  have hμ3 : 10 * (n : ℝ) / 2 ^ 53 ≤ μ := by
    have a1 : (3 / 2 ^ 53 : ℝ) * 1 ≤ hh n * M := mul_le_mul hh1 hM1 (by norm_num) (by linarith)
    have a2 : (n : ℝ) * (3 / 2 ^ 53) ≤ (n + 1) * (hh n * M) :=
      mul_le_mul (by linarith) (by linarith) (by norm_num) (by linarith)
    have a3 : 10 * (n : ℝ) / 2 ^ 53 = 10 / 3 * (n * (3 / 2 ^ 53)) := by ring
    rw [a3]
    linarith
  have hμ0 : 0 < μ := lt_of_lt_of_le (by positivity) hμ3
  have hz1 : (2 : ℝ) ^ (-100 : ℤ) ≤ M := by
    have : (2 : ℝ) ^ (-100 : ℤ) ≤ 2 ^ (0 : ℤ) := zp_mono (by norm_num)
    rw [zpow_zero] at this
    linarith
  have h100 : (2 : ℝ) ^ (100 : ℤ) = 2 ^ 100 := zp_nat 100
  obtain ⟨Lf, f1, -, f2⟩ := factor_solve hs h2 h3 hn0 hn.le (fun i j hi hj => (h4 i j hi hj).1) hz1
    (by rw [h100]; norm_num; linarith) m2 m1 (by
      have : 17 / 16 * ((n : ℝ) + 5) * (hh n * M) ≤ 10 / 3 * (n + 1) * (hh n * M) :=
        mul_le_mul_of_nonneg_right (by linarith) hhM
      linarith)
  obtain ⟨t0, t1⟩ := tiny400
  have size : ∀ b x : List ℝ, ∀ Y : ℝ, 0 ≤ Y → (∀ a, a < n → |vecFun b a| ≤ Y) →
      (∀ i, i < n → |vecFun b i - ∑ j ∈ range n, G i j * vecFun x j| ≤
          25 / 8 * hh n * M * ∑ j ∈ range n, |vecFun x j| + 2 ^ (-400 : ℤ)) →
      ∑ j ∈ range n, |vecFun x j| ≤ 2 ^ 54 * (Y + 2 ^ (-400 : ℤ)) := by
    intro b x Y hY0 hY hr
    have := solve_size m1 hμ0 hκ t0.le hY0 hY hr
    generalize (2 : ℝ) ^ (-400 : ℤ) = t at this t0
    set A := ∑ j ∈ range n, |vecFun x j| with hA
    have hA0 : 0 ≤ A := sum_nonneg fun _ _ => abs_nonneg _
    have a1 := mul_le_mul_of_nonneg_right hμ3 hA0
    have a2 : 10 * (n : ℝ) / 2 ^ 53 * A = n * (10 / 2 ^ 53 * A) := by ring
    have a3 : (n : ℝ) * (10 / 2 ^ 53 * A) ≤ n * (16 * (Y + t)) := by linarith
    have a4 := le_of_mul_le_mul_left a3 (by linarith)
    have a5 : A = 2 ^ 53 / 10 * (10 / 2 ^ 53 * A) := by ring
    rw [a5]
    have a6 := mul_le_mul_of_nonneg_left a4 (show (0 : ℝ) ≤ 2 ^ 53 / 10 by norm_num)
    refine a6.trans ?_
    have : 0 ≤ Y + t := by linarith
    norm_num
    nlinarith
  obtain ⟨b, b1, b2, b3⟩ := beta_ok t0 t1 hn0 hn h3 hM1 hM3 m2 m1 hμ2 f2 size hy hyd hys average
  have hdiff : ∀ i, i < n → |vecFun y i - b| ≤ 2 ^ 96 := fun i hi => by
    refine (abs_sub _ _).trans ?_
    have := hys i hi
    norm_num at this b3 ⊢
    linarith
  obtain ⟨d, d1, d2, d3, d4⟩ := subScalar_ok hy (b := b) fun i hi => (hdiff i hi).trans (by rw [h100]; norm_num)
  have h96 : (2 : ℝ) ^ (96 : ℤ) = 2 ^ 96 := zp_nat 96
  have d5 : ∀ i, i < n → |vecFun d i| ≤ 2 ^ 96 := fun i hi => by
    rw [d4 i hi, ← h96]
    exact fl_abs_le (by norm_num) (by rw [h96]; exact hdiff i hi)
  obtain ⟨w, w1, w2, w3⟩ := f2 d d2 d3 (fun i hi => (d5 i hi).trans (by rw [h100]; norm_num))
  have w4 := size d w _ (by positivity) d5 w3
  have w5 : ∑ j ∈ range n, |vecFun w j| ≤ 2 ^ 151 := by
    generalize (2 : ℝ) ^ (-400 : ℤ) = t at w4 t1
    refine w4.trans ?_
    norm_num at t1 ⊢
    linarith
  obtain ⟨q, q1, -, q2, -⟩ := dot_size d2 w2 hn (T := 2 ^ 247) (by
    have : ∑ i ∈ range n, |vecFun d i * vecFun w i| ≤ ∑ i ∈ range n, 2 ^ 96 * |vecFun w i| :=
      sum_le_sum fun i hi => by
        rw [abs_mul]
        exact mul_le_mul_of_nonneg_right (d5 i (mem_range.1 hi)) (abs_nonneg _)
    rw [← mul_sum] at this
    refine this.trans ((mul_le_mul_of_nonneg_left w5 (by positivity)).trans ?_)
    rw [← pow_add]) (pow_le_pow_right₀ (by norm_num) (by norm_num))
  have hinv : |1 / (n : ℝ)| ≤ 2 ^ (0 : ℤ) := by
    rw [abs_of_pos (by positivity), zpow_zero, div_le_one (by linarith)]
    exact hn1
  have h249 : (2 : ℝ) ^ (249 : ℤ) = 2 ^ 249 := zp_nat 249
  have hq : |fl (1 / (n : ℝ)) * q| ≤ 2 ^ (249 : ℤ) := by
    rw [abs_mul, h249]
    have a1 := fl_abs_le (by norm_num) hinv
    rw [zpow_zero] at a1
    refine (mul_le_mul a1 q2 (abs_nonneg _) (by norm_num)).trans ?_
    norm_num
  refine ⟨⟨b, w, fl (fl (1 / (n : ℝ)) * q)⟩, ?_, b3, w5.trans (pow_le_pow_right₀ (by norm_num) (by norm_num))⟩
  have g1 : div 1 (n : ℝ) = .ok (fl (1 / (n : ℝ))) := by
    unfold div
    rw [if_neg (by linarith)]
    exact dbl_of_le (by norm_num) (by norm_num) hinv
  have g2 : mul (fl (1 / (n : ℝ))) q = .ok (fl (fl (1 / (n : ℝ)) * q)) := dbl_of_le (by norm_num) (by norm_num) hq
  unfold fit
  rw [h1, okBind, f1, okBind, if_neg (by norm_num)]
  rw [b1, okBind, d1, okBind, w1, okBind, q1, okBind, hy, g1, okBind, g2, okBind]

/-! ## The estimate at a sample -/

theorem loopFrom_congr {σ : Type} {f g : Nat → σ → Res σ} : ∀ (k i : Nat) (s : σ),
    (∀ j t, i ≤ j → j < i + k → f j t = g j t) → loopFrom f i k s = loopFrom g i k s
  | 0, _, _, _ => rfl
  | k + 1, i, s, h => by
    unfold loopFrom
    rw [h i s le_rfl (by omega)]
    cases g i s with
    | error e => rfl
    | ok s' => exact loopFrom_congr k (i + 1) s' fun j t h1 h2 => h j t (by omega) (by omega)

theorem sumFrom_congr {a b : Nat} {f g : Nat → Res ℝ} (h : ∀ k, a ≤ k → k < b → f k = g k) :
    sumFrom a b f = sumFrom a b g := by
  unfold sumFrom Mat.forFromTo
  exact loopFrom_congr _ _ _ fun k s h1 h2 => by rw [h k h1 (by omega)]

/-- The correlation does not depend on the order of the points. -/
theorem exponential_comm {L : Libm ℝ} {m : Nat} {v1 v2 theta gamma : List ℝ} (l1 : m ≤ v1.length)
    (l2 : m ≤ v2.length) : exponential L v1 v2 theta gamma m = exponential L v2 v1 theta gamma m := by
  unfold exponential
  congr 1
  refine sumFrom_congr fun k _ hk => ?_
  have r1 : rawAt v1 k = .ok (vecFun v1 k) := Corr.rawAt_vecFun (by omega)
  have r2 : rawAt v2 k = .ok (vecFun v2 k) := Corr.rawAt_vecFun (by omega)
  simp only [r1, r2, okBind]
  unfold sub dbl
  rw [abs_fl_comm (vecFun v1 k) (vecFun v2 k)]
  split_ifs
  · simp only [okBind, abs_fl_comm (vecFun v1 k) (vecFun v2 k)]
  · rfl

/-- The vector of correlations with the samples. -/
theorem correlationVector_ok {L : Libm ℝ} (hL : Accurate L) {s : Corr.ExpCorr ℝ} {n m : Nat} {F : Nat → Nat → ℝ}
    (h : ReadyDbl s n m F) (hm : m ≤ 2 ^ 32) {x : List ℝ} (lx : x.length = m)
    (hx : ∀ k, k < m → IsDouble (vecFun x k) ∧ |vecFun x k| ≤ 2 ^ (100 : ℤ)) :
    ∃ r, correlationVector L s x = .ok r ∧ r.length = n ∧ ∀ j, j < n →
      exponential L x ((List.range m).map (F j)) s.theta s.gamma m = .ok (vecFun r j) ∧ IsDouble (vecFun r j) ∧
      0 ≤ vecFun r j ∧
      |vecFun r j - expCorr m (vecFun s.theta) (vecFun s.gamma) (vecFun x) (F j)| ≤ ((m : ℝ) + 10) / 2 ^ 54 := by
  have hc : s.base.X.ncols = m := h.samples.2.1
  have pair : ∀ j, ∃ r, j < n →
      exponential L x ((List.range m).map (F j)) s.theta s.gamma m = .ok r ∧ IsDouble r ∧ 0 ≤ r ∧
      |r - expCorr m (vecFun s.theta) (vecFun s.gamma) (vecFun x) (F j)| ≤ ((m : ℝ) + 10) / 2 ^ 54 := by
    intro j
    by_cases hj : j < n
    · obtain ⟨r, e1, e2, e3, e4⟩ := exponential_near hL hm (v1 := x)
        (v2 := (List.range m).map (F j)) (theta := s.theta) (gamma := s.gamma) lx.ge (by simp)
        h.theta_len.ge h.gamma_len.ge hx
        (fun k hk => by rw [Corr.vecFun_map _ hk]; exact h.sample_doubles j k hj hk)
        (fun k hk => (vecFun_all h.theta_range (by rw [h.theta_len]; exact hk)).2)
        (fun k hk => vecFun_all h.gamma_range (by rw [h.gamma_len]; exact hk))
      refine ⟨r, fun _ => ⟨e1, e2, e3, ?_⟩⟩
      have e5 : expCorr m (vecFun s.theta) (vecFun s.gamma) (vecFun x)
          (vecFun ((List.range m).map (F j))) = expCorr m (vecFun s.theta) (vecFun s.gamma) (vecFun x) (F j) := by
        unfold expCorr
        congr 2
        refine sum_congr rfl fun k hk => ?_
        rw [mem_range] at hk
        rw [Corr.vecFun_map _ hk]
      rwa [e5] at e4
    · exact ⟨0, fun h1 => absurd h1 hj⟩
  choose C hC using pair
  refine ⟨(List.range n).map C, ?_, by simp, fun j hj => ?_⟩
  · unfold correlationVector
    rw [if_neg (by rw [h.set]; simp), h.count, hc]
    refine tab_ok fun j hj => ?_
    exact bind_eq (Mat.getRow_ok h.samples hj (Or.inl rfl)) (hC j hj).1
  · rw [Corr.vecFun_map _ hj]
    exact hC j hj

theorem beta0_double {Lf : Mat ℝ} {average : Bool} {y : List ℝ} : Post (beta0 Lf average y) (fun b => IsDouble b) := by
  unfold beta0
  split_ifs
  · unfold mean
    split_ifs
    · exact Post.error
    · refine Post.bind (Post.trivial) fun s _ => ?_
      intro b hb
      rw [(div_ok hb).2]
      exact fl_isDouble _
  · refine Post.bind (Post.trivial) fun _ _ => Post.bind (Post.trivial) fun _ _ =>
      Post.bind (Post.trivial) fun _ _ => Post.bind (Post.trivial) fun _ _ =>
      Post.bind (Post.trivial) fun _ _ => ?_
    intro b hb
    rw [mul_ok hb]
    exact fl_isDouble _

/-- What is known of every fit that ends without an infinite value. -/
theorem fit_post {sqrt : ℝ → ℝ} (hs : IsSqrt sqrt) {L : Libm ℝ} {s : Corr.ExpCorr ℝ} {n : Nat} {R : Mat ℝ}
    {G : Nat → Nat → ℝ} (hR : correlationMatrix L s = .ok R) (hRG : IsMat R n n G) (hsym : Symm n G)
    (hG : ∀ i j, i < n → j < n → IsDouble (G i j)) (hG2 : ∀ i, i < n → G i i ≤ 2) (hn : n ≤ 2 ^ 32)
    {y : List ℝ} (hy : y.length = n) {average : Bool} {f : Fit ℝ}
    (h : fit sqrt L s average y = .ok (some f)) :
    f.weights.length = n ∧ IsDouble f.beta0 ∧ ∀ i, i < n →
      |fl (vecFun y i - f.beta0) - ∑ j ∈ range n, G i j * vecFun f.weights j| ≤
        25 / 4 * hh n * ∑ j ∈ range n, |vecFun f.weights j| + 2 ^ (-400 : ℤ) := by
  unfold fit at h
  rw [hR, okBind] at h
  cases hc : cholesky sqrt R with
  | error e => rw [hc] at h; cases h
  | ok r =>
    rw [hc, okBind] at h
    split_ifs at h with hr
    · cases h
    cases hb : beta0 r.1 average y with
    | error e => rw [hb] at h; cases h
    | ok b =>
      rw [hb, okBind] at h
      cases hd : subScalar y b with
      | error e => rw [hd] at h; cases h
      | ok d =>
        rw [hd, okBind] at h
        cases hw : solveCholesky r.1 d with
        | error e => rw [hw] at h; cases h
        | ok w =>
          rw [hw, okBind] at h
          have hf : f.beta0 = b ∧ f.weights = w := by
            cases h1 : dot d w with
            | error e => rw [h1] at h; cases h
            | ok t =>
              rw [h1, okBind] at h
              cases h2 : div 1 (y.length : ℝ) with
              | error e => rw [h2] at h; cases h
              | ok i =>
                rw [h2, okBind] at h
                cases h3 : mul i t with
                | error e => rw [h3] at h; cases h
                | ok q =>
                  rw [h3, okBind] at h
                  cases h
                  exact ⟨rfl, rfl⟩
          obtain ⟨rfl, rfl⟩ := hf
          obtain ⟨ld, dd⟩ := mapRes_doubles (fun a b hb => by rw [sub_ok hb]; exact fl_isDouble _) hd
          have e : solveSystem sqrt R d = .ok f.weights := by
            unfold solveSystem
            rw [hc, okBind, if_neg hr, hw]
          have hM1 : (2 : ℝ) ^ (-100 : ℤ) ≤ 2 := by
            have : (2 : ℝ) ^ (-100 : ℤ) ≤ 2 ^ (1 : ℤ) := zp_mono (by norm_num)
            rwa [zpow_one] at this
          have hM2 : (2 : ℝ) ≤ 2 ^ (100 : ℤ) := by
            have : (2 : ℝ) ^ (1 : ℤ) ≤ 2 ^ (100 : ℤ) := zp_mono (by norm_num)
            rwa [zpow_one] at this
          obtain ⟨l, hres⟩ := solveSystem_near hs hRG hsym hn hG (by omega) dd hG2 hM1 hM2 _ e
          refine ⟨l, beta0_double _ hb, fun i hi => ?_⟩
          have hdi : vecFun d i = fl (vecFun y i - f.beta0) := by
            have h2 := mapRes_inv hd
            have hi1 : i < y.length := by omega
            have hi2 : i < d.length := by omega
            have := (List.forall₂_iff_get.1 h2).2 i hi1 hi2
            have := sub_ok this
            simpa [vecFun, hi1, hi2] using this
          rw [← hdi]
          refine (hres i hi).trans (le_of_eq ?_)
          unfold hh
          ring

theorem pow_tail {n : Nat} (hn : n ≤ 2 ^ 32) : (n : ℝ) * (1 + eps) ^ n * eta ≤ 2 ^ (-401 : ℤ) := by
  have h1 : (n : ℝ) ≤ 2 ^ (32 : ℤ) := by
    rw [show (2 : ℝ) ^ (32 : ℤ) = 2 ^ 32 from zp_nat 32]; exact_mod_cast hn
  have h2 : (1 + eps : ℝ) ^ n ≤ 2 ^ (1 : ℤ) := by
    rw [zpow_one]; exact pow_eps_le (by omega)
  have he := eps_pos (K := ℝ)
  have h3 : (n : ℝ) * (1 + eps) ^ n ≤ 2 ^ (33 : ℤ) := by
    refine (mul_le_mul h1 h2 (by positivity) (zp _).le).trans (le_of_eq ?_)
    rw [← zp_add]; norm_num
  have h4 : (eta : ℝ) ≤ 2 ^ (-434 : ℤ) := by unfold eta; exact zp_mono (by norm_num)
  refine (mul_le_mul h3 h4 eta_pos.le (zp _).le).trans (le_of_eq ?_)
  rw [← zp_add]; norm_num

/-- The estimate at a training sample. -/
theorem estimate_near {sqrt : ℝ → ℝ} (hs : IsSqrt sqrt) {L : Libm ℝ} (hL : Accurate L) {s : Corr.ExpCorr ℝ}
    {n m : Nat} {F : Nat → Nat → ℝ} (h : ReadyDbl s n m F) (hγ : ∀ g ∈ s.gamma, 0 < g) (hn : n ≤ 2 ^ 32)
    (hm : m ≤ 2 ^ 32) {y : List ℝ} (hy : y.length = n) (hyd : Doubles y) {average : Bool} {f : Fit ℝ}
    (hf : fit sqrt L s average y = .ok (some f)) {i : Nat} (hi : i < n) {p : ℝ}
    (hp : estimate L s f ((List.range m).map (F i)) = .ok p) :
    |p - vecFun y i| ≤ s.base.epsilon * |vecFun f.weights i| +
      (9 * ((n : ℝ) + 2) + m + 10) / 2 ^ 53 * ∑ j ∈ range n, |vecFun f.weights j| +
      3 / 2 ^ 53 * (|vecFun y i| + |f.beta0|) + 2 ^ (-399 : ℤ) := by
  obtain ⟨R, G, h1, h2, h3, h4, h5, h6, -⟩ := matrix_near hL h hm
  obtain ⟨e1, e2, e3⟩ := h.epsilon_range
  have hGd : ∀ i, i < n → |G i i - (1 + s.base.epsilon)| ≤ 2 / 2 ^ 53 := fun i hi => by
    rw [h5 i hi]
    have := fl_add_rel isDouble_one e1
    refine this.trans ?_
    rw [abs_of_nonneg (by linarith)]
    unfold eps
    norm_num
    linarith
  have hG2 : ∀ i, i < n → G i i ≤ 2 := fun i hi => by
    rw [h5 i hi]
    have h2d : IsDouble (2 : ℝ) := by
      have := isDouble_nat (K := ℝ) (n := 2) (by norm_num)
      exact_mod_cast this
    exact fl_le_double h2d (by linarith)
  obtain ⟨lw, db, hres⟩ := fit_post hs h1 h2 h3 (fun i j hi hj => (h4 i j hi hj).1) hG2 hn hy hf
  have hn0 : 0 < n := by omega
  have hh1 := hh_low (K := ℝ) hn0
  have hh2 := hh_high (K := ℝ) hn
  have hm0 : (0 : ℝ) ≤ m := Nat.cast_nonneg _
  have hm1 : (m : ℝ) ≤ 2 ^ 32 := by exact_mod_cast hm
  -- the correlations with the samples
  obtain ⟨r, c1, c2, c3⟩ := correlationVector_ok hL h hm (x := (List.range m).map (F i)) (by simp)
    (fun k hk => by rw [Corr.vecFun_map _ hk]; exact h.sample_doubles i k hi hk)
  unfold estimate at hp
  rw [c1, okBind] at hp
  obtain ⟨t, t1, hp⟩ := bind_ok_inv hp
  have hp := add_ok hp
  have rG : ∀ j, j < n → j ≠ i → vecFun r j = G i j := by
    intro j hj hij
    have a1 := (c3 j hj).1
    rcases lt_or_gt_of_ne hij with hlt | hgt
    · rw [h6 i j hi hlt] at a1
      exact (Except.ok.inj a1).symm
    · rw [exponential_comm (by simp) (by simp), h6 j i hj hgt] at a1
      rw [h3 i j hi hj]
      exact (Except.ok.inj a1).symm
  have rI : |vecFun r i - 1| ≤ ((m : ℝ) + 10) / 2 ^ 54 := by
    have a1 := (c3 i hi).2.2.2
    have a2 : expCorr m (vecFun s.theta) (vecFun s.gamma) (vecFun ((List.range m).map (F i))) (F i) = 1 := by
      unfold expCorr
      rw [sum_eq_zero, neg_zero, Real.exp_zero]
      intro k hk
      rw [mem_range] at hk
      rw [Corr.vecFun_map _ hk, sub_self, abs_zero, Real.zero_rpow, mul_zero]
      exact (vecFun_all hγ (by rw [h.gamma_len]; exact hk)).ne'
    rwa [a2] at a1
  have hδ : ((m : ℝ) + 10) / 2 ^ 54 ≤ 1 / 2 ^ 20 := by
    rw [div_le_iff₀ (by positivity)]
    have : (2 : ℝ) ^ 32 + 10 ≤ 1 / 2 ^ 20 * 2 ^ 54 := by norm_num
    linarith
  have rB : ∀ j, j < n → |vecFun r j| ≤ 1 + 1 / 2 ^ 20 := by
    intro j hj
    obtain ⟨-, -, a1, a2⟩ := c3 j hj
    rw [abs_of_nonneg a1]
    have a3 : expCorr m (vecFun s.theta) (vecFun s.gamma) (vecFun ((List.range m).map (F i))) (F j) ≤ 1 := by
      rw [expCorr, Real.exp_le_one_iff, neg_nonpos]
      exact sum_nonneg (fun k hk => mul_nonneg
        (vecFun_all h.theta_range (k := k) (by rw [h.theta_len]; exact mem_range.1 hk)).2.1
        (Real.rpow_nonneg (abs_nonneg _) _))
    have := (abs_le.1 a2).2
    linarith
  -- the scalar product
  have t2 : IsDouble t ∧ |t - ∑ k ∈ range n, vecFun r k * vecFun f.weights k| ≤
      gam (n + 1) * ∑ k ∈ range n, |vecFun r k * vecFun f.weights k| + n * (1 + eps) ^ n * eta := by
    unfold dot at t1
    rw [if_neg (by rw [c2, lw]; simp), c2] at t1
    have := dot_post (a := 0) (b := n) (x := vecFun r) (y := vecFun f.weights) (Nat.zero_le _) (fun k _ hk => by
      have r1 : rawAt r k = .ok (vecFun r k) := Corr.rawAt_vecFun (by omega)
      have r2 : rawAt f.weights k = .ok (vecFun f.weights k) := Corr.rawAt_vecFun (by omega)
      rw [r1, okBind, r2, okBind]
      exact fun v hv => mul_ok hv) t t1
    rwa [Nat.sub_zero, ← range_eq_Ico] at this
  obtain ⟨td, t2⟩ := t2
  set A := ∑ j ∈ range n, |vecFun f.weights j| with hA
  have hA0 : 0 ≤ A := sum_nonneg fun _ _ => abs_nonneg _
  have hwA : |vecFun f.weights i| ≤ A := single_le_sum (f := fun j => |vecFun f.weights j|)
    (fun _ _ => abs_nonneg _) (mem_range.2 hi)
  have q1 : ∑ k ∈ range n, |vecFun r k * vecFun f.weights k| ≤ (1 + 1 / 2 ^ 20) * A := by
    rw [hA, mul_sum]
    refine sum_le_sum fun k hk => ?_
    rw [abs_mul]
    exact mul_le_mul_of_nonneg_right (rB k (mem_range.1 hk)) (abs_nonneg _)
  have q2 : gam (n + 1) ≤ (1 + 1 / 2 ^ 10) * hh (K := ℝ) n := by
    have := gam_le2 (K := ℝ) (n := n + 1) (by omega)
    refine this.trans (mul_le_mul_of_nonneg_left ?_ (by norm_num))
    unfold hh
    push_cast
    gcongr
    norm_num
  have q3 : gam (n + 1) * ∑ k ∈ range n, |vecFun r k * vecFun f.weights k| ≤ 101 / 100 * (hh n * A) := by
    have a1 := mul_le_mul q2 q1 (sum_nonneg fun _ _ => abs_nonneg _) (mul_nonneg (by norm_num) (by linarith))
    refine a1.trans ?_
    have : 0 ≤ hh n * A := mul_nonneg (by linarith) hA0
    norm_num
    nlinarith
  have q4 := pow_tail hn
  -- the row of the matrix against the vector
  have q5 : ∑ j ∈ range n, G i j * vecFun f.weights j - ∑ k ∈ range n, vecFun r k * vecFun f.weights k =
      (G i i - vecFun r i) * vecFun f.weights i := by
    rw [← sum_sub_distrib, sum_eq_single i]
    · ring
    · intro j hj hij
      rw [rG j (mem_range.1 hj) hij]; ring
    · intro hni; exact absurd (mem_range.2 hi) hni
  have q6 : |(G i i - vecFun r i) * vecFun f.weights i| ≤
      s.base.epsilon * |vecFun f.weights i| + (2 / 2 ^ 53 + ((m : ℝ) + 10) / 2 ^ 54) * A := by
    have a1 : |G i i - vecFun r i| ≤ s.base.epsilon + (2 / 2 ^ 53 + ((m : ℝ) + 10) / 2 ^ 54) := by
      have b1 := abs_le.1 (hGd i hi)
      have b2 := abs_le.1 rI
      rw [abs_le]; constructor <;> linarith
    rw [abs_mul]
    have a2 := mul_le_mul_of_nonneg_right a1 (abs_nonneg (vecFun f.weights i))
    have a3 := mul_le_mul_of_nonneg_left hwA (show 0 ≤ 2 / 2 ^ 53 + ((m : ℝ) + 10) / 2 ^ 54 by positivity)
    linarith
  have q7 := hres i hi
  have hyi : IsDouble (vecFun y i) := vecFun_all hyd (by omega)
  have q8 := fl_sub_err hyi db
  have q9 : |vecFun y i - f.beta0| ≤ |vecFun y i| + |f.beta0| := abs_sub _ _
  set Y := |vecFun y i| + |f.beta0| with hY
  have hY1 : |vecFun y i| ≤ Y := by have := abs_nonneg f.beta0; linarith
  have q10 : |fl (vecFun y i - f.beta0) - (vecFun y i - f.beta0)| ≤ Y / 2 ^ 53 :=
    q8.trans (div_le_div_of_nonneg_right q9 (by norm_num))
  have q11 := fl_add_rel db td
  rw [← hp] at q11
  have hsm : (2 : ℝ) ^ (-399 : ℤ) = 2 * 2 ^ (-400 : ℤ) := by rw [show (-399 : ℤ) = 1 + -400 by norm_num, zp_add, zpow_one]
  have hsm1 : (2 : ℝ) ^ (-400 : ℤ) = 2 * 2 ^ (-401 : ℤ) := by rw [show (-400 : ℤ) = 1 + -401 by norm_num, zp_add, zpow_one]
  have hsm0 : (0 : ℝ) < 2 ^ (-401 : ℤ) := zp _
  rw [hsm, hsm1]
  rw [hsm1] at q7
  generalize (2 : ℝ) ^ (-401 : ℤ) = τ at *
  generalize (n : ℝ) * (1 + eps) ^ n * eta = ta at *
  set E := s.base.epsilon * |vecFun f.weights i| + (2 / 2 ^ 53 + ((m : ℝ) + 10) / 2 ^ 54) * A + 101 / 100 * (hh n * A) +
    25 / 4 * hh n * A + 3 * τ with hE
  have hE0 : 0 ≤ E := by
    have := mul_nonneg (show 0 ≤ hh (K := ℝ) n by linarith) hA0
    have := mul_nonneg e2 (abs_nonneg (vecFun f.weights i))
    have := mul_nonneg (show 0 ≤ 2 / 2 ^ 53 + ((m : ℝ) + 10) / 2 ^ 54 by positivity) hA0
    rw [hE]; linarith
  have r1 : |f.beta0 + t - vecFun y i| ≤ E + Y / 2 ^ 53 := by
    rw [← q5] at q6
    have a1 := abs_le.1 q6
    have a2 := abs_le.1 q7
    have a3 := abs_le.1 q10
    have a4 := abs_le.1 t2
    rw [hE, abs_le]
    constructor <;> linarith
  have r2 : |f.beta0 + t| ≤ E + Y / 2 ^ 53 + Y := by
    have := abs_add_le (f.beta0 + t - vecFun y i) (vecFun y i)
    rw [sub_add_cancel] at this
    linarith
  have r3 : |p - vecFun y i| ≤ |p - (f.beta0 + t)| + |f.beta0 + t - vecFun y i| := by
    have := abs_add_le (p - (f.beta0 + t)) (f.beta0 + t - vecFun y i)
    rwa [sub_add_sub_cancel] at this
  have r4 : |p - (f.beta0 + t)| ≤ 1 / 2 ^ 53 * (E + Y / 2 ^ 53 + Y) := by
    refine q11.trans ?_
    unfold eps
    exact mul_le_mul_of_nonneg_left r2 (by norm_num)
  have hY0 : 0 ≤ Y := by rw [hY]; positivity
  have r5 : s.base.epsilon * |vecFun f.weights i| ≤ A := by
    have := mul_le_mul e3.le hwA (abs_nonneg _) (by norm_num)
    linarith
  have hhA : 3 / 2 ^ 53 * A ≤ hh n * A := mul_le_mul_of_nonneg_right hh1 hA0
  have hmA : ((m : ℝ) + 10) / 2 ^ 54 * A ≤ 1 / 2 ^ 20 * A := mul_le_mul_of_nonneg_right hδ hA0
  have hhA2 : hh n * A ≤ 1 / 2 ^ 20 * A := mul_le_mul_of_nonneg_right hh2 hA0
  have hmA0 : 0 ≤ ((m : ℝ) + 10) / 2 ^ 54 * A := mul_nonneg (by positivity) hA0
  have hE2 : E = s.base.epsilon * |vecFun f.weights i| + 2 / 2 ^ 53 * A + ((m : ℝ) + 10) / 2 ^ 54 * A +
      101 / 100 * (hh n * A) + 25 / 4 * (hh n * A) + 3 * τ := by rw [hE]; ring
  have r6 : E ≤ 2 * A + 3 * τ := by
    rw [hE2]
    have c1 : (2 : ℝ) / 2 ^ 53 * A ≤ 1 / 4 * A := mul_le_mul_of_nonneg_right (by norm_num) hA0
    have c2 : (1 : ℝ) / 2 ^ 20 * A ≤ 1 / 100 * A := mul_le_mul_of_nonneg_right (by norm_num) hA0
    linarith
  have fin : (9 * ((n : ℝ) + 2) + m + 10) / 2 ^ 53 * A = 9 * (hh n * A) + 2 * (((m : ℝ) + 10) / 2 ^ 54 * A) := by
    unfold hh; ring
  rw [fin]
  generalize ((m : ℝ) + 10) / 2 ^ 54 * A = mA at *
  generalize hh n * A = hA' at *
  norm_num at r4 r1 hhA hE2 ⊢
  linarith

end Rodeo.Dbl
