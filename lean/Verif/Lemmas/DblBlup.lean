import Verif.Lemmas.DblVar
import Verif.Spec.Kriging
import Verif.Lemmas.Blas
import Mathlib.LinearAlgebra.Matrix.ToLinearEquiv

/-! # The estimate in doubles against the best linear unbiased predictor (proofs for C128) -/

set_option linter.unusedSectionVars false

namespace Rodeo.Dbl

open Spec Finset

section Exact

variable {n : Nat} {R : Nat → Nat → ℝ} {r lam : Nat → ℝ}

/-- A form at a sum. -/
theorem quadForm_add (hsym : Symm n R) (x h : Nat → ℝ) (c : ℝ) :
    quadForm n R (fun k => x k + c * h k) =
      quadForm n R x + 2 * c * ∑ k ∈ range n, h k * ∑ j ∈ range n, R k j * x j + c ^ 2 * quadForm n R h := by
  have s1 : ∑ i ∈ range n, ∑ j ∈ range n, x i * R i j * h j = ∑ k ∈ range n, h k * ∑ j ∈ range n, R k j * x j := by
    rw [sum_comm]
    refine sum_congr rfl fun k hk => ?_
    rw [mul_sum]
    refine sum_congr rfl fun j hj => ?_
    rw [hsym j k (mem_range.1 hj) (mem_range.1 hk)]
    ring
  have s2 : ∑ i ∈ range n, ∑ j ∈ range n, h i * R i j * x j = ∑ k ∈ range n, h k * ∑ j ∈ range n, R k j * x j := by
    refine sum_congr rfl fun k hk => ?_
    rw [mul_sum]
    exact sum_congr rfl fun j _ => by ring
  have e : quadForm n R (fun k => x k + c * h k) = quadForm n R x + c * ∑ i ∈ range n, ∑ j ∈ range n, x i * R i j * h j +
      c * ∑ i ∈ range n, ∑ j ∈ range n, h i * R i j * x j + c ^ 2 * quadForm n R h := by
    unfold quadForm
    simp only [mul_sum, ← sum_add_distrib]
    exact sum_congr rfl fun i _ => sum_congr rfl fun j _ => by ring
  rw [e, s1, s2]
  ring

/-- The error of a predictor at a sum. -/
theorem predictorError_add (hsym : Symm n R) (x h : Nat → ℝ) (c : ℝ) :
    predictorError n R r (fun k => x k + c * h k) = predictorError n R r x +
      2 * c * ∑ k ∈ range n, h k * (∑ j ∈ range n, R k j * x j - r k) + c ^ 2 * quadForm n R h := by
  unfold predictorError
  rw [quadForm_add hsym]
  have e1 : dotp n (fun k => x k + c * h k) r = dotp n x r + c * ∑ k ∈ range n, h k * r k := by
    unfold dotp
    rw [mul_sum, ← sum_add_distrib]
    exact sum_congr rfl fun i _ => by ring
  have e2 : ∑ k ∈ range n, h k * (∑ j ∈ range n, R k j * x j - r k) =
      ∑ k ∈ range n, h k * ∑ j ∈ range n, R k j * x j - ∑ k ∈ range n, h k * r k := by
    rw [← sum_sub_distrib]
    exact sum_congr rfl fun i _ => by ring
  rw [e1, e2]
  ring

/-- The equations of the best linear unbiased predictor. -/
theorem blup_equations (hsym : Symm n R) (hn : 0 < n) (h : IsBLUP n R r lam) :
    ∃ ν : ℝ, ∀ i, i < n → ∑ j ∈ range n, R i j * lam j = r i + ν := by
  refine ⟨∑ j ∈ range n, R 0 j * lam j - r 0, fun i hi => ?_⟩
  set d : Nat → ℝ := fun k => (if k = i then 1 else 0) - (if k = 0 then 1 else 0) with hd
  have pick : ∀ g : Nat → ℝ, ∑ k ∈ range n, d k * g k = g i - g 0 := by
    intro g
    have : ∀ k, d k * g k = (if k = i then g k else 0) - (if k = 0 then g k else 0) := by
      intro k; simp only [hd]; split_ifs <;> ring
    rw [sum_congr rfl fun k _ => this k, sum_sub_distrib, sum_ite_eq' (range n) i g, sum_ite_eq' (range n) 0 g,
      if_pos (mem_range.2 hi), if_pos (mem_range.2 hn)]
  have hu : ∀ c : ℝ, Unbiased n (fun k => lam k + c * d k) := by
    intro c
    have h1 : ∑ i ∈ range n, lam i = 1 := h.1
    have h2 := pick fun _ => 1
    simp only [mul_one, sub_self] at h2
    show ∑ k ∈ range n, (lam k + c * d k) = 1
    rw [sum_add_distrib, ← mul_sum, h2, h1]
    ring
  have h3 : ∀ c : ℝ, 0 ≤ 2 * c * ((∑ j ∈ range n, R i j * lam j - r i) - (∑ j ∈ range n, R 0 j * lam j - r 0)) +
      c ^ 2 * quadForm n R d := by
    intro c
    have := h.2 _ (hu c)
    rw [predictorError_add hsym, pick fun k => ∑ j ∈ range n, R k j * lam j - r k] at this
    linarith
  generalize hl : (∑ j ∈ range n, R i j * lam j - r i) - (∑ j ∈ range n, R 0 j * lam j - r 0) = l at h3
  generalize quadForm n R d = q at h3
  have : l = 0 := by
    by_contra hne
    have hq : 0 < |q| + 1 := by have := abs_nonneg q; linarith
    have h4 := h3 (-l / (|q| + 1))
    have h5 : 2 * (-l / (|q| + 1)) * l + (-l / (|q| + 1)) ^ 2 * q =
        l ^ 2 * (q - 2 * (|q| + 1)) / (|q| + 1) ^ 2 := by field_simp; ring
    rw [h5] at h4
    have h6 : l ^ 2 * (q - 2 * (|q| + 1)) / (|q| + 1) ^ 2 < 0 := by
      apply div_neg_of_neg_of_pos _ (by positivity)
      have := le_abs_self q
      have h0 := abs_nonneg q
      exact mul_neg_of_pos_of_neg (by positivity) (by linarith)
    linarith
  rw [this] at hl
  linarith

end Exact

section Kriging

variable {n m : Nat} {th ga : Nat → ℝ} {X : Nat → Nat → ℝ} {e : ℝ} {p lam : Nat → ℝ}

theorem krigingMatrix_symm : Symm n (krigingMatrix m th ga e X) := by
  intro i j _ _
  unfold krigingMatrix
  by_cases h : i = j
  · rw [if_pos h, if_pos h.symm]
  · rw [if_neg h, if_neg (Ne.symm h)]
    unfold expCorr
    congr 2
    exact sum_congr rfl fun k _ => by rw [abs_sub_comm]

theorem krigingMatrix_split (x : Nat → ℝ) : quadForm n (krigingMatrix m th ga e X) x =
    quadForm n (krigingMatrix m th ga 0 X) x + e * ∑ i ∈ range n, x i ^ 2 := by
  unfold quadForm
  rw [mul_sum, ← sum_add_distrib]
  refine sum_congr rfl (fun i hi => ?_)
  have : ∀ j, x i * krigingMatrix m th ga e X i j * x j =
      x i * krigingMatrix m th ga 0 X i j * x j + if i = j then e * (x i * x j) else 0 := by
    intro j
    unfold krigingMatrix
    split_ifs <;> ring
  rw [sum_congr rfl (fun j _ => this j), sum_add_distrib, sum_ite_eq, if_pos hi]
  ring

/-- A matrix with a margin is invertible. -/
theorem det_of_margin {R : Nat → Nat → ℝ} (he : 0 < e) (h : ∀ x : Nat → ℝ, e * ∑ p ∈ range n, x p ^ 2 ≤ quadForm n R x) :
    (toMatrix n R).det ≠ 0 := by
  intro h0
  obtain ⟨v, hv, hz⟩ := (Matrix.exists_mulVec_eq_zero_iff).2 h0
  set x : Nat → ℝ := fun i => if hi : i < n then v ⟨i, hi⟩ else 0 with hx
  have hxv : ∀ i : Fin n, x i = v i := fun i => by simp [hx]
  have h1 : quadForm n R x = 0 := by
    unfold quadForm
    refine sum_eq_zero fun i hi => ?_
    have := congrFun hz ⟨i, mem_range.1 hi⟩
    have e1 : ∑ j ∈ range n, x i * R i j * x j = x i * ∑ j ∈ range n, R i j * x j := by
      rw [mul_sum]
      exact sum_congr rfl fun j _ => by ring
    have e2 : ∑ j ∈ range n, R i j * x j = 0 := by
      rw [Finset.sum_range]
      have e3 : ∑ j : Fin n, R i j * x j = ∑ j : Fin n, R i j * v j := sum_congr rfl fun j _ => by rw [hxv]
      rw [e3]
      exact this
    rw [e1, e2, mul_zero]
  have h2 := h x
  rw [h1] at h2
  have h3 : ∑ p ∈ range n, x p ^ 2 = 0 := by
    have a1 : 0 ≤ ∑ p ∈ range n, x p ^ 2 := sum_nonneg fun _ _ => sq_nonneg _
    nlinarith
  apply hv
  funext i
  have := (sum_eq_zero_iff_of_nonneg fun _ _ => sq_nonneg _).1 h3 i (mem_range.2 i.2)
  rw [hxv] at this
  exact pow_eq_zero_iff (two_ne_zero) |>.1 this

/-- The equations of the best linear unbiased predictor determine it. -/
theorem blup_of_equations {R : Nat → Nat → ℝ} {r lam : Nat → ℝ} (hsym : Symm n R) (hpsd : PosSemidef n R)
    (hu : Unbiased n lam) {ν : ℝ} (hν : ∀ i, i < n → ∑ j ∈ range n, R i j * lam j = r i + ν) : IsBLUP n R r lam := by
  refine ⟨hu, fun mu hmu => ?_⟩
  have e : predictorError n R r mu = predictorError n R r (fun k => lam k + 1 * (mu k - lam k)) := by
    congr 1
    funext k
    ring
  rw [e, predictorError_add hsym]
  have s1 : ∑ k ∈ range n, (mu k - lam k) * (∑ j ∈ range n, R k j * lam j - r k) = 0 := by
    have : ∀ k ∈ range n, (mu k - lam k) * (∑ j ∈ range n, R k j * lam j - r k) = (mu k - lam k) * ν := fun k hk => by
      rw [hν k (mem_range.1 hk)]; ring
    have h1 : ∑ k ∈ range n, mu k = 1 := hmu
    have h2 : ∑ k ∈ range n, lam k = 1 := hu
    rw [sum_congr rfl this, ← sum_mul, sum_sub_distrib, h1, h2]
    ring
  rw [s1]
  have := hpsd (fun k => mu k - lam k)
  linarith

/-- There is a best linear unbiased predictor. -/
theorem exists_blup (ht : ∀ k, k < m → 0 ≤ th k) (hg : ∀ k, k < m → 0 ≤ ga k ∧ ga k ≤ 2) (hn : 0 < n) (he0 : 0 < e)
    (r : Nat → ℝ) : ∃ lam, IsBLUP n (krigingMatrix m th ga e X) r lam := by
  have hμ : ∀ x : Nat → ℝ, e * ∑ p ∈ range n, x p ^ 2 ≤ quadForm n (krigingMatrix m th ga e X) x :=
    krigingMatrix_margin ht hg
  have hpsd : PosSemidef n (krigingMatrix m th ga e X) := fun x =>
    le_trans (mul_nonneg he0.le (sum_nonneg fun _ _ => sq_nonneg _)) (hμ x)
  have hdet := det_of_margin he0 hμ
  obtain ⟨u, hu⟩ := exists_solves hdet (fun _ => 1)
  obtain ⟨z, hz⟩ := exists_solves hdet r
  have hu' : ∀ i, i < n → ∑ j ∈ range n, krigingMatrix m th ga e X i j * u j = 1 := fun i hi => hu i hi
  have hz' : ∀ i, i < n → ∑ j ∈ range n, krigingMatrix m th ga e X i j * z j = r i := fun i hi => hz i hi
  have hD : 0 < ∑ i ∈ range n, u i := by
    have a1 : quadForm n (krigingMatrix m th ga e X) u = ∑ i ∈ range n, u i := by
      unfold quadForm
      refine sum_congr rfl fun i hi => ?_
      have : ∑ j ∈ range n, u i * krigingMatrix m th ga e X i j * u j =
          u i * ∑ j ∈ range n, krigingMatrix m th ga e X i j * u j := by
        rw [mul_sum]
        exact sum_congr rfl fun j _ => by ring
      rw [this, hu' i (mem_range.1 hi), mul_one]
    rw [← a1]
    refine lt_of_lt_of_le (mul_pos he0 ?_) (hμ u)
    by_contra hno
    have h0 : ∑ p ∈ range n, u p ^ 2 = 0 := le_antisymm (not_lt.1 hno) (sum_nonneg fun _ _ => sq_nonneg _)
    have h1 := hu' 0 hn
    rw [sum_eq_zero] at h1
    · exact zero_ne_one h1
    · intro j hj
      have := (sum_eq_zero_iff_of_nonneg fun _ _ => sq_nonneg _).1 h0 j hj
      rw [pow_eq_zero_iff (two_ne_zero) |>.1 this, mul_zero]
  set ν := (1 - ∑ i ∈ range n, z i) / ∑ i ∈ range n, u i with hν
  refine ⟨fun i => z i + ν * u i, blup_of_equations krigingMatrix_symm hpsd ?_ (ν := ν) fun i hi => ?_⟩
  · show ∑ i ∈ range n, (z i + ν * u i) = 1
    rw [sum_add_distrib, ← mul_sum, hν]
    field_simp
    ring
  · have : ∑ j ∈ range n, krigingMatrix m th ga e X i j * (z j + ν * u j) =
        ∑ j ∈ range n, krigingMatrix m th ga e X i j * z j + ν * ∑ j ∈ range n, krigingMatrix m th ga e X i j * u j := by
      rw [mul_sum, ← sum_add_distrib]
      exact sum_congr rfl fun j _ => by ring
    rw [this, hz' i hi, hu' i hi, mul_one]

/-- The size of the weights of the best predictor and of its multiplier. -/
theorem blup_size (ht : ∀ k, k < m → 0 ≤ th k) (hg : ∀ k, k < m → 0 ≤ ga k ∧ ga k ≤ 2) (hn : 0 < n) (he0 : 0 ≤ e)
    (he1 : e ≤ 1) (h : IsBLUP n (krigingMatrix m th ga e X) (fun i => expCorr m th ga p (X i)) lam) {ν : ℝ}
    (hν : ∀ i, i < n → ∑ j ∈ range n, krigingMatrix m th ga e X i j * lam j = expCorr m th ga p (X i) + ν) :
    e * ∑ i ∈ range n, lam i ^ 2 ≤ 3 ∧ |ν| ≤ 5 := by
  set r : Nat → ℝ := fun i => expCorr m th ga p (X i) with hr
  have hm0 : (0 : Nat) ∈ range n := mem_range.2 hn
  -- the predictor that takes the first sample
  have h1 : predictorError n (krigingMatrix m th ga e X) r lam ≤ 2 + e := by
    have u : Unbiased n (fun k => if k = 0 then (1 : ℝ) else 0) := by
      show ∑ k ∈ range n, (if k = 0 then (1 : ℝ) else 0) = 1
      rw [sum_ite_eq' (range n) 0 (fun _ => (1 : ℝ)), if_pos hm0]
    refine (h.2 _ u).trans ?_
    have q : quadForm n (krigingMatrix m th ga e X) (fun k => if k = 0 then (1 : ℝ) else 0) = 1 + e := by
      unfold quadForm
      have a : ∀ i ∈ range n, ∑ j ∈ range n, (if i = 0 then (1 : ℝ) else 0) * krigingMatrix m th ga e X i j *
          (if j = 0 then (1 : ℝ) else 0) = if i = 0 then 1 + e else 0 := by
        intro i _
        by_cases hi : i = 0
        · subst hi
          rw [sum_eq_single 0]
          · simp [krigingMatrix]
          · intro b _ hb; simp [hb]
          · intro h0; exact absurd hm0 h0
        · simp [hi]
      rw [sum_congr rfl a, sum_ite_eq' (range n) 0 (fun _ => 1 + e), if_pos hm0]
    have d : dotp n (fun k => if k = 0 then (1 : ℝ) else 0) r = r 0 := by
      unfold dotp
      rw [sum_eq_single 0]
      · simp
      · intro b _ hb; simp [hb]
      · intro h0; exact absurd hm0 h0
    unfold predictorError
    rw [q, d]
    have : 0 ≤ r 0 := (Real.exp_pos _).le
    linarith
  unfold predictorError at h1
  have h2 := krigingMatrix_split (n := n) (m := m) (th := th) (ga := ga) (e := e) (X := X) lam
  have h3 := point_energy (n := n) (X := X) ht hg p lam
  have h4 := point_energy (n := n) (X := X) ht hg p (fun i => lam i / 2)
  have h5 : ∑ i ∈ range n, lam i / 2 * expCorr m th ga p (X i) = dotp n lam r / 2 := by
    unfold dotp
    rw [sum_div]
    exact sum_congr rfl fun i _ => by simp only [hr]; ring
  have h6 : quadForm n (krigingMatrix m th ga 0 X) (fun i => lam i / 2) =
      quadForm n (krigingMatrix m th ga 0 X) lam / 4 := by
    unfold quadForm
    rw [sum_div]
    refine sum_congr rfl fun i _ => ?_
    rw [sum_div]
    exact sum_congr rfl fun j _ => by ring
  rw [h5, h6] at h4
  have h7 : ∑ i ∈ range n, lam i * expCorr m th ga p (X i) = dotp n lam r := rfl
  rw [h7] at h3
  have h8 : quadForm n (krigingMatrix m th ga e X) lam = dotp n lam r + ν := by
    have a1 : quadForm n (krigingMatrix m th ga e X) lam =
        ∑ i ∈ range n, lam i * ∑ j ∈ range n, krigingMatrix m th ga e X i j * lam j := by
      unfold quadForm
      refine sum_congr rfl fun i _ => ?_
      rw [mul_sum]
      exact sum_congr rfl fun j _ => by ring
    rw [a1, sum_congr rfl fun i hi => by rw [hν i (mem_range.1 hi)]]
    have a2 : ∑ i ∈ range n, lam i = 1 := h.1
    unfold dotp
    rw [sum_congr rfl fun i _ => mul_add _ _ _, sum_add_distrib, ← sum_mul, a2, one_mul]
  have h9 : 0 ≤ quadForm n (krigingMatrix m th ga 0 X) lam := by
    have := krigingMatrix_margin (n := n) (e := 0) (X := X) ht hg lam
    linarith
  have h10 : 0 ≤ e * ∑ i ∈ range n, lam i ^ 2 := mul_nonneg he0 (sum_nonneg fun _ _ => sq_nonneg _)
  refine ⟨by linarith, abs_le.2 ⟨by linarith, by linarith⟩⟩

/-- A solution of the equations with errors gives the best prediction up to these errors. -/
theorem blup_near (ht : ∀ k, k < m → 0 ≤ th k) (hg : ∀ k, k < m → 0 ≤ ga k ∧ ga k ≤ 2) (hn : 0 < n) (he0 : 0 < e)
    (he1 : e ≤ 1) (h : IsBLUP n (krigingMatrix m th ga e X) (fun i => expCorr m th ga p (X i)) lam) {y w : Nat → ℝ}
    {β ρ : ℝ} (hρ0 : 0 ≤ ρ)
    (hρ : ∀ i, i < n → |y i - β - ∑ j ∈ range n, krigingMatrix m th ga e X i j * w j| ≤ ρ) :
    |β + ∑ j ∈ range n, expCorr m th ga p (X j) * w j - dotp n lam y| ≤
      √(3 * n / e) * ρ + 5 * |∑ j ∈ range n, w j| := by
  obtain ⟨ν, hν⟩ := blup_equations krigingMatrix_symm hn h
  obtain ⟨s1, s2⟩ := blup_size ht hg hn he0.le he1 h hν
  have hu : ∑ i ∈ range n, lam i = 1 := h.1
  have id : β + ∑ j ∈ range n, expCorr m th ga p (X j) * w j - dotp n lam y =
      -∑ i ∈ range n, lam i * (y i - β - ∑ j ∈ range n, krigingMatrix m th ga e X i j * w j) -
        ν * ∑ j ∈ range n, w j := by
    have a1 : ∑ i ∈ range n, lam i * (y i - β - ∑ j ∈ range n, krigingMatrix m th ga e X i j * w j) =
        dotp n lam y - β - ∑ i ∈ range n, lam i * ∑ j ∈ range n, krigingMatrix m th ga e X i j * w j := by
      unfold dotp
      rw [sum_congr rfl fun i _ => mul_sub _ _ _, sum_sub_distrib, sum_congr rfl fun i _ => mul_sub _ _ _,
        sum_sub_distrib, ← sum_mul, hu, one_mul]
    have a2 : ∑ i ∈ range n, lam i * ∑ j ∈ range n, krigingMatrix m th ga e X i j * w j =
        ∑ j ∈ range n, (expCorr m th ga p (X j) + ν) * w j := by
      rw [sum_congr rfl fun i _ => mul_sum _ _ _, sum_comm]
      refine sum_congr rfl fun j hj => ?_
      rw [← hν j (mem_range.1 hj), sum_mul]
      refine sum_congr rfl fun i hi => ?_
      rw [krigingMatrix_symm (n := n) i j (mem_range.1 hi) (mem_range.1 hj)]
      ring
    rw [a1, a2, sum_congr rfl fun j _ => add_mul _ _ _, sum_add_distrib, mul_sum]
    ring
  have b1 : |∑ i ∈ range n, lam i * (y i - β - ∑ j ∈ range n, krigingMatrix m th ga e X i j * w j)| ≤
      (∑ i ∈ range n, |lam i|) * ρ := by
    refine (abs_sum_le_sum_abs _ _).trans ?_
    rw [sum_mul]
    refine sum_le_sum fun i hi => ?_
    rw [abs_mul]
    exact mul_le_mul_of_nonneg_left (hρ i (mem_range.1 hi)) (abs_nonneg _)
  have b2 : ∑ i ∈ range n, |lam i| ≤ √(3 * n / e) := by
    apply Real.le_sqrt_of_sq_le
    refine (sq_abs_sum_le n lam).trans ?_
    rw [le_div_iff₀ he0]
    have := mul_le_mul_of_nonneg_left s1 (Nat.cast_nonneg (α := ℝ) n)
    linarith
  rw [id]
  refine (abs_sub _ _).trans ?_
  rw [abs_neg, abs_mul]
  exact add_le_add (b1.trans (mul_le_mul_of_nonneg_right b2 hρ0)) (mul_le_mul_of_nonneg_right s2 (abs_nonneg _))

/-- The size of a solution, by its right-hand side. -/
theorem solution_size {F : Nat → Nat → ℝ} {μ : ℝ} (hμ : ∀ x : Nat → ℝ, μ * ∑ p ∈ range n, x p ^ 2 ≤ quadForm n F x)
    (hμ0 : 0 < μ) {v : Nat → ℝ} {γ : ℝ} (hγ0 : 0 ≤ γ) (hγ : ∀ i, i < n → |∑ j ∈ range n, F i j * v j| ≤ γ) :
    μ * ∑ j ∈ range n, |v j| ≤ n * γ := by
  have h1 := norm_energy (x := v) hμ hμ0
  set A := ∑ j ∈ range n, |v j| with hA
  have hA0 : 0 ≤ A := sum_nonneg fun _ _ => abs_nonneg _
  have h2 : quadForm n F v ≤ A * γ := by
    have a1 : quadForm n F v = ∑ i ∈ range n, v i * ∑ j ∈ range n, F i j * v j := by
      unfold quadForm
      refine sum_congr rfl fun i _ => ?_
      rw [mul_sum]
      exact sum_congr rfl fun j _ => by ring
    rw [a1, hA, sum_mul]
    refine sum_le_sum fun i hi => (le_abs_self _).trans ?_
    rw [abs_mul]
    exact mul_le_mul_of_nonneg_left (hγ i (mem_range.1 hi)) (abs_nonneg _)
  rcases hA0.eq_or_lt with h0 | h0
  · rw [← h0, mul_zero]
    exact mul_nonneg (Nat.cast_nonneg _) hγ0
  · have h3 := mul_le_mul_of_nonneg_left h2 (Nat.cast_nonneg (α := ℝ) n)
    have h4 : A * (μ * A) ≤ A * (n * γ) := by nlinarith
    exact le_of_mul_le_mul_left h4 h0

/-- The prediction with a given mean, by the errors of the equations. -/
theorem simple_near (ht : ∀ k, k < m → 0 ≤ th k) (hg : ∀ k, k < m → 0 ≤ ga k ∧ ga k ≤ 2) (he0 : 0 < e)
    {v : Nat → ℝ} {ρ : ℝ} (hρ0 : 0 ≤ ρ) (hρ : ∀ i, i < n → |∑ j ∈ range n, krigingMatrix m th ga e X i j * v j| ≤ ρ) :
    |∑ j ∈ range n, expCorr m th ga p (X j) * v j| ≤ √(n / e) * ρ := by
  have hμ : ∀ x : Nat → ℝ, e * ∑ p ∈ range n, x p ^ 2 ≤ quadForm n (krigingMatrix m th ga e X) x :=
    krigingMatrix_margin ht hg
  have h1 := solution_size hμ he0 hρ0 hρ
  set A := ∑ j ∈ range n, |v j| with hA
  have hA0 : 0 ≤ A := sum_nonneg fun _ _ => abs_nonneg _
  have h2 : quadForm n (krigingMatrix m th ga e X) v ≤ A * ρ := by
    have a1 : quadForm n (krigingMatrix m th ga e X) v =
        ∑ i ∈ range n, v i * ∑ j ∈ range n, krigingMatrix m th ga e X i j * v j := by
      unfold quadForm
      refine sum_congr rfl fun i _ => ?_
      rw [mul_sum]
      exact sum_congr rfl fun j _ => by ring
    rw [a1, hA, sum_mul]
    refine sum_le_sum fun i hi => (le_abs_self _).trans ?_
    rw [abs_mul]
    exact mul_le_mul_of_nonneg_left (hρ i (mem_range.1 hi)) (abs_nonneg _)
  have h3 := krigingMatrix_split (n := n) (m := m) (th := th) (ga := ga) (e := e) (X := X) v
  have h4 : 0 ≤ e * ∑ i ∈ range n, v i ^ 2 := mul_nonneg he0.le (sum_nonneg fun _ _ => sq_nonneg _)
  set q := quadForm n (krigingMatrix m th ga 0 X) v with hq
  set S := ∑ j ∈ range n, expCorr m th ga p (X j) * v j with hS
  have h5 : ∀ c : ℝ, 2 * c * S ≤ 1 + c ^ 2 * q := by
    intro c
    have := point_energy (n := n) (X := X) ht hg p (fun i => c * v i)
    have e1 : ∑ i ∈ range n, c * v i * expCorr m th ga p (X i) = c * S := by
      rw [hS, mul_sum]
      exact sum_congr rfl fun i _ => by ring
    have e2 : quadForm n (krigingMatrix m th ga 0 X) (fun i => c * v i) = c ^ 2 * q := by
      rw [hq]
      unfold quadForm
      simp only [mul_sum]
      exact sum_congr rfl fun i _ => sum_congr rfl fun j _ => by ring
    rw [e1, e2] at this
    linarith
  have h6 : S ^ 2 ≤ q := by
    have hq0 : 0 ≤ q := by
      have := krigingMatrix_margin (n := n) (e := 0) (X := X) ht hg v
      rw [hq]; linarith
    rcases hq0.eq_or_lt with h0 | h0
    · have a := h5 S
      by_contra hne
      rw [← h0] at a hne h5
      have hS0 : 0 < S ^ 2 := by linarith
      have b := h5 (S / S ^ 2)
      have hS1 : S ≠ 0 := fun h => by rw [h] at hS0; norm_num at hS0
      have e1 : 2 * (S / S ^ 2) * S = 2 := by field_simp
      rw [e1] at b
      linarith
    · have a := h5 (S / q)
      have e1 : 2 * (S / q) * S = 2 * (S ^ 2 / q) := by ring
      have e2 : (S / q) ^ 2 * q = S ^ 2 / q := by field_simp
      rw [e1, e2] at a
      have : S ^ 2 / q ≤ 1 := by linarith
      rwa [div_le_one h0] at this
  have h7 : S ^ 2 ≤ (√(n / e) * ρ) ^ 2 := by
    have hn0 : (0 : ℝ) ≤ n := Nat.cast_nonneg _
    rw [mul_pow, Real.sq_sqrt (div_nonneg hn0 he0.le)]
    have a1 : S ^ 2 ≤ A * ρ := by linarith
    have a2 : A ≤ n / e * ρ := by
      rw [div_mul_eq_mul_div, le_div_iff₀ he0]
      linarith
    have a3 := mul_le_mul_of_nonneg_right a2 hρ0
    linarith
  exact abs_le_of_sq_le_sq h7 (mul_nonneg (Real.sqrt_nonneg _) hρ0)

end Kriging

section Doubles

variable {sqrt : ℝ → ℝ} {L : Libm ℝ} {s : Corr.ExpCorr ℝ} {n m : Nat} {F : Nat → Nat → ℝ}

/-- The computed estimate against the exact one with the computed mean and weights. -/
theorem estimate_round (hL : Accurate L) (h : ReadyDbl s n m F) (hn : n ≤ 2 ^ 32) (hm : m ≤ 2 ^ 32) {f : Fit ℝ}
    (lw : f.weights.length = n) (db : IsDouble f.beta0) {x : List ℝ} (lx : x.length = m)
    (hx : ∀ t ∈ x, IsDouble t ∧ |t| ≤ 2 ^ (100 : ℤ)) {p : ℝ} (hp : estimate L s f x = .ok p) :
    |p - (f.beta0 + ∑ j ∈ range n, expCorr m (vecFun s.theta) (vecFun s.gamma) (vecFun x) (F j) * vecFun f.weights j)| ≤
      (3 * ((n : ℝ) + 2) + m + 10) / 2 ^ 54 * ∑ j ∈ range n, |vecFun f.weights j| + |f.beta0| / 2 ^ 53 +
        2 ^ (-400 : ℤ) := by
  obtain ⟨r, c1, c2, c3⟩ := correlationVector_ok hL h hm lx fun k hk => vecFun_all hx (by omega)
  unfold estimate at hp
  rw [c1, okBind] at hp
  obtain ⟨t, t1, hp⟩ := bind_ok_inv hp
  have hp := add_ok hp
  have hm0 : (0 : ℝ) ≤ m := Nat.cast_nonneg _
  have hn0 : (0 : ℝ) ≤ n := Nat.cast_nonneg _
  have hm1 : (m : ℝ) ≤ 2 ^ 32 := by exact_mod_cast hm
  have hh2 := hh_high (K := ℝ) hn
  have hh1 : 2 / 2 ^ 53 ≤ hh (K := ℝ) n := by unfold hh; gcongr; linarith
  have hδ : ((m : ℝ) + 10) / 2 ^ 54 ≤ 1 / 2 ^ 20 := by
    rw [div_le_iff₀ (by positivity)]
    have : (2 : ℝ) ^ 32 + 10 ≤ 1 / 2 ^ 20 * 2 ^ 54 := by norm_num
    linarith
  have cB : ∀ j, j < n → 0 ≤ expCorr m (vecFun s.theta) (vecFun s.gamma) (vecFun x) (F j) ∧
      expCorr m (vecFun s.theta) (vecFun s.gamma) (vecFun x) (F j) ≤ 1 := by
    intro j hj
    refine ⟨(Real.exp_pos _).le, ?_⟩
    rw [expCorr, Real.exp_le_one_iff, neg_nonpos]
    exact sum_nonneg (fun k hk => mul_nonneg
      (vecFun_all h.theta_range (k := k) (by rw [h.theta_len]; exact mem_range.1 hk)).2.1
      (Real.rpow_nonneg (abs_nonneg _) _))
  have rB : ∀ j, j < n → |vecFun r j| ≤ 1 + 1 / 2 ^ 20 := by
    intro j hj
    obtain ⟨-, -, a1, a2⟩ := c3 j hj
    rw [abs_of_nonneg a1]
    have := (abs_le.1 a2).2
    have := (cB j hj).2
    linarith
  have t2 : IsDouble t ∧ |t - ∑ k ∈ range n, vecFun r k * vecFun f.weights k| ≤
      gam (n + 1) * ∑ k ∈ range n, |vecFun r k * vecFun f.weights k| + n * (1 + eps) ^ n * eta := by
    unfold dot at t1
    rw [if_neg (by rw [c2, lw]; simp), c2] at t1
    have := dot_post (a := 0) (b := n) (x := vecFun r) (y := vecFun f.weights) (Nat.zero_le _) (fun k _ hk => by
      have r1 : rawAt r k = .ok (vecFun r k) := Corr.rawAt_vecFun (by omega)
      have r2 : rawAt f.weights k = .ok (vecFun f.weights k) := Corr.rawAt_vecFun (by omega)
      rw [r1, okBind, r2, okBind]
      exact fun v hv => mul_ok hv) t t1
    rwa [Nat.sub_zero, ← range_eq_Ico] at this
  obtain ⟨td, t2⟩ := t2
  set A := ∑ j ∈ range n, |vecFun f.weights j| with hA
  have hA0 : 0 ≤ A := sum_nonneg fun _ _ => abs_nonneg _
  have q1 : ∑ k ∈ range n, |vecFun r k * vecFun f.weights k| ≤ (1 + 1 / 2 ^ 20) * A := by
    rw [hA, mul_sum]
    refine sum_le_sum fun k hk => ?_
    rw [abs_mul]
    exact mul_le_mul_of_nonneg_right (rB k (mem_range.1 hk)) (abs_nonneg _)
  have q2 : gam (n + 1) ≤ (1 + 1 / 2 ^ 10) * ((n + 1 : ℝ) / 2 ^ 53) := by
    have := gam_le2 (K := ℝ) (n := n + 1) (by omega)
    refine this.trans (le_of_eq ?_)
    push_cast
    ring
  have q3 : gam (n + 1) * ∑ k ∈ range n, |vecFun r k * vecFun f.weights k| ≤ 101 / 100 * ((n + 1 : ℝ) / 2 ^ 53 * A) := by
    have a1 := mul_le_mul q2 q1 (sum_nonneg fun _ _ => abs_nonneg _) (mul_nonneg (by norm_num) (by positivity))
    refine a1.trans ?_
    have : 0 ≤ (n + 1 : ℝ) / 2 ^ 53 * A := by positivity
    norm_num at this ⊢
    linarith
  have q4 := pow_tail hn
  set ex := ∑ j ∈ range n, expCorr m (vecFun s.theta) (vecFun s.gamma) (vecFun x) (F j) * vecFun f.weights j with hex
  have q5 : |∑ k ∈ range n, vecFun r k * vecFun f.weights k - ex| ≤ ((m : ℝ) + 10) / 2 ^ 54 * A := by
    rw [hex, ← sum_sub_distrib, hA, mul_sum]
    refine (abs_sum_le_sum_abs _ _).trans (sum_le_sum fun k hk => ?_)
    rw [← sub_mul, abs_mul]
    exact mul_le_mul_of_nonneg_right (c3 k (mem_range.1 hk)).2.2.2 (abs_nonneg _)
  have q6 : |ex| ≤ A := by
    rw [hex, hA]
    refine (abs_sum_le_sum_abs _ _).trans (sum_le_sum fun k hk => ?_)
    obtain ⟨b1, b2⟩ := cB k (mem_range.1 hk)
    rw [abs_mul, abs_of_nonneg b1]
    have := mul_le_mul_of_nonneg_right b2 (abs_nonneg (vecFun f.weights k))
    linarith
  have q7 := fl_add_rel db td
  rw [← hp] at q7
  have hsm1 : (2 : ℝ) ^ (-400 : ℤ) = 2 * 2 ^ (-401 : ℤ) := by rw [show (-400 : ℤ) = 1 + -401 by norm_num, zp_add, zpow_one]
  have hsm0 : (0 : ℝ) < 2 ^ (-401 : ℤ) := zp _
  rw [hsm1]
  generalize (2 : ℝ) ^ (-401 : ℤ) = τ at *
  generalize (n : ℝ) * (1 + eps) ^ n * eta = ta at *
  have hmA0 : 0 ≤ ((m : ℝ) + 10) / 2 ^ 54 * A := mul_nonneg (by positivity) hA0
  have hmA : ((m : ℝ) + 10) / 2 ^ 54 * A ≤ 1 / 2 ^ 20 * A := mul_le_mul_of_nonneg_right hδ hA0
  have hnA : (n + 1 : ℝ) / 2 ^ 53 * A ≤ 1 / 2 ^ 20 * A := by
    refine mul_le_mul_of_nonneg_right (le_trans ?_ hh2) hA0
    unfold hh
    gcongr
    norm_num
  have r1 : |t - ex| ≤ 101 / 100 * ((n + 1 : ℝ) / 2 ^ 53 * A) + ((m : ℝ) + 10) / 2 ^ 54 * A + τ := by
    have := abs_add_le (t - ∑ k ∈ range n, vecFun r k * vecFun f.weights k) (∑ k ∈ range n, vecFun r k * vecFun f.weights k - ex)
    rw [sub_add_sub_cancel] at this
    linarith
  have r2 : |f.beta0 + t| ≤ |f.beta0| + (101 / 100 * A + τ) := by
    refine (abs_add_le _ _).trans (add_le_add le_rfl ?_)
    have := abs_add_le (t - ex) ex
    rw [sub_add_cancel] at this
    have c2 : (1 : ℝ) / 2 ^ 20 * A ≤ 1 / 1000 * A := mul_le_mul_of_nonneg_right (by norm_num) hA0
    linarith
  have r3 : |p - (f.beta0 + t)| ≤ 1 / 2 ^ 53 * (|f.beta0| + (101 / 100 * A + τ)) := by
    refine q7.trans ?_
    unfold eps
    exact mul_le_mul_of_nonneg_left r2 (by norm_num)
  have r4 : |p - (f.beta0 + ex)| ≤ |p - (f.beta0 + t)| + |t - ex| := by
    have := abs_add_le (p - (f.beta0 + t)) (t - ex)
    have e : p - (f.beta0 + t) + (t - ex) = p - (f.beta0 + ex) := by ring
    rwa [e] at this
  have fin : (3 * ((n : ℝ) + 2) + m + 10) / 2 ^ 54 * A =
      3 / 2 * ((n + 1 : ℝ) / 2 ^ 53 * A) + 3 / 2 * (1 / 2 ^ 53 * A) + ((m : ℝ) + 10) / 2 ^ 54 * A := by ring
  rw [fin]
  generalize ((m : ℝ) + 10) / 2 ^ 54 * A = mA at *
  have : 0 ≤ (n + 1 : ℝ) / 2 ^ 53 * A := by positivity
  generalize (n + 1 : ℝ) / 2 ^ 53 * A = hA' at *
  norm_num at r3 ⊢
  linarith

/-- The computed weights satisfy the exact equations up to rounding errors. -/
theorem fit_equations (hs : IsSqrt sqrt) (hL : Accurate L) (h : ReadyDbl s n m F) (hn0 : 0 < n) (hn : n ≤ 2 ^ 32)
    (hm : m ≤ 2 ^ 32) {y : List ℝ} (hy : y.length = n) (hyd : Doubles y) {Y : ℝ} (hY : ∀ t ∈ y, |t| ≤ Y)
    {average : Bool} {f : Fit ℝ} (hf : fit sqrt L s average y = .ok (some f)) :
    f.weights.length = n ∧ IsDouble f.beta0 ∧ ∀ i, i < n →
      |vecFun y i - f.beta0 - ∑ j ∈ range n,
        krigingMatrix m (vecFun s.theta) (vecFun s.gamma) s.base.epsilon F i j * vecFun f.weights j| ≤
        (13 * ((n : ℝ) + 2) + m + 10) / 2 ^ 54 * ∑ j ∈ range n, |vecFun f.weights j| + (Y + |f.beta0|) / 2 ^ 53 +
          2 ^ (-400 : ℤ) := by
  obtain ⟨R, G, h1, h2, h3, h4, h5, h6, h7⟩ := matrix_near hL h hm
  obtain ⟨e1, e2, e3⟩ := h.epsilon_range
  have hG2 : ∀ i, i < n → G i i ≤ 2 := fun i hi => by
    rw [h5 i hi]
    have h2d : IsDouble (2 : ℝ) := by
      have := isDouble_nat (K := ℝ) (n := 2) (by norm_num)
      exact_mod_cast this
    exact fl_le_double h2d (by linarith)
  obtain ⟨lw, db, hres⟩ := fit_post hs h1 h2 h3 (fun i j hi hj => (h4 i j hi hj).1) hG2 hn hy hf
  refine ⟨lw, db, fun i hi => ?_⟩
  set A := ∑ j ∈ range n, |vecFun f.weights j| with hA
  have hA0 : 0 ≤ A := sum_nonneg fun _ _ => abs_nonneg _
  have q5 : |∑ j ∈ range n, G i j * vecFun f.weights j - ∑ j ∈ range n,
      krigingMatrix m (vecFun s.theta) (vecFun s.gamma) s.base.epsilon F i j * vecFun f.weights j| ≤
      ((m : ℝ) + 10) / 2 ^ 54 * A := by
    rw [← sum_sub_distrib, hA, mul_sum]
    refine (abs_sum_le_sum_abs _ _).trans (sum_le_sum fun k hk => ?_)
    rw [← sub_mul, abs_mul]
    exact mul_le_mul_of_nonneg_right (h7 i k hi (mem_range.1 hk)) (abs_nonneg _)
  have hyi : IsDouble (vecFun y i) := vecFun_all hyd (by omega)
  have q8 := fl_sub_err hyi db
  have q9 : |vecFun y i - f.beta0| ≤ Y + |f.beta0| := (abs_sub _ _).trans (add_le_add (vecFun_all hY (by omega)) le_rfl)
  have q10 : |fl (vecFun y i - f.beta0) - (vecFun y i - f.beta0)| ≤ (Y + |f.beta0|) / 2 ^ 53 :=
    q8.trans (div_le_div_of_nonneg_right q9 (by norm_num))
  have q7 := hres i hi
  have fin : (13 * ((n : ℝ) + 2) + m + 10) / 2 ^ 54 * A = 13 / 2 * (hh n * A) + ((m : ℝ) + 10) / 2 ^ 54 * A := by
    unfold hh; ring
  rw [fin]
  have hhA : 0 ≤ hh n * A := mul_nonneg (by unfold hh; positivity) hA0
  have a1 := abs_le.1 q5
  have a2 := abs_le.1 q7
  have a3 := abs_le.1 q10
  rw [abs_le]
  constructor <;> linarith

/-- The estimate of every fitted model against the best linear unbiased predictor. -/
theorem estimate_blup (hs : IsSqrt sqrt) (hL : Accurate L) (h : ReadyDbl s n m F) (he : 0 < s.base.epsilon) (hn0 : 0 < n)
    (hn : n ≤ 2 ^ 32) (hm : m ≤ 2 ^ 32) {y : List ℝ} (hy : y.length = n) (hyd : Doubles y) {Y : ℝ}
    (hY : ∀ t ∈ y, |t| ≤ Y) {average : Bool} {f : Fit ℝ} (hf : fit sqrt L s average y = .ok (some f))
    {x : List ℝ} (lx : x.length = m) (hx : ∀ t ∈ x, IsDouble t ∧ |t| ≤ 2 ^ (100 : ℤ)) {p : ℝ}
    (hp : estimate L s f x = .ok p) {lam : Nat → ℝ}
    (hlam : IsBLUP n (krigingMatrix m (vecFun s.theta) (vecFun s.gamma) s.base.epsilon F)
      (fun i => expCorr m (vecFun s.theta) (vecFun s.gamma) (vecFun x) (F i)) lam) :
    |p - dotp n lam (vecFun y)| ≤ (1 + √(3 * n / s.base.epsilon)) *
      ((13 * ((n : ℝ) + 2) + m + 10) / 2 ^ 54 * ∑ j ∈ range n, |vecFun f.weights j| + (Y + |f.beta0|) / 2 ^ 53 +
          2 ^ (-400 : ℤ)) + 5 * |∑ j ∈ range n, vecFun f.weights j| := by
  obtain ⟨lw, db, heq⟩ := fit_equations hs hL h hn0 hn hm hy hyd hY hf
  have ht : ∀ k, k < m → 0 ≤ vecFun s.theta k := fun k hk =>
    (vecFun_all h.theta_range (k := k) (by rw [h.theta_len]; exact hk)).2.1
  have hg : ∀ k, k < m → 0 ≤ vecFun s.gamma k ∧ vecFun s.gamma k ≤ 2 := fun k hk =>
    (vecFun_all h.gamma_range (k := k) (by rw [h.gamma_len]; exact hk)).2
  have hY0 : 0 ≤ Y := (abs_nonneg _).trans (vecFun_all hY (k := 0) (by omega))
  have hA0 : 0 ≤ ∑ j ∈ range n, |vecFun f.weights j| := sum_nonneg fun _ _ => abs_nonneg _
  have hρ0 : 0 ≤ (13 * ((n : ℝ) + 2) + m + 10) / 2 ^ 54 * ∑ j ∈ range n, |vecFun f.weights j| +
      (Y + |f.beta0|) / 2 ^ 53 + 2 ^ (-400 : ℤ) := by
    have := abs_nonneg f.beta0
    have := (zp (K := ℝ) (-400)).le
    positivity
  have h1 := blup_near ht hg hn0 he h.epsilon_range.2.2.le hlam hρ0 heq
  have h2 := estimate_round hL h hn hm lw db lx hx hp
  have h3 : (3 * ((n : ℝ) + 2) + m + 10) / 2 ^ 54 * ∑ j ∈ range n, |vecFun f.weights j| ≤
      (13 * ((n : ℝ) + 2) + m + 10) / 2 ^ 54 * ∑ j ∈ range n, |vecFun f.weights j| := by
    refine mul_le_mul_of_nonneg_right (div_le_div_of_nonneg_right ?_ (by norm_num)) hA0
    have : (0 : ℝ) ≤ n := Nat.cast_nonneg _
    linarith
  have h4 : |f.beta0| / 2 ^ 53 ≤ (Y + |f.beta0|) / 2 ^ 53 := div_le_div_of_nonneg_right (by linarith) (by norm_num)
  have h5 := abs_sub_le p (f.beta0 + ∑ j ∈ range n,
    expCorr m (vecFun s.theta) (vecFun s.gamma) (vecFun x) (F j) * vecFun f.weights j) (dotp n lam (vecFun y))
  rw [add_mul, one_mul]
  linarith

/-- The estimate of every fitted model against the exact prediction with the same mean. -/
theorem estimate_simple (hs : IsSqrt sqrt) (hL : Accurate L) (h : ReadyDbl s n m F) (he : 0 < s.base.epsilon) (hn0 : 0 < n)
    (hn : n ≤ 2 ^ 32) (hm : m ≤ 2 ^ 32) {y : List ℝ} (hy : y.length = n) (hyd : Doubles y) {Y : ℝ}
    (hY : ∀ t ∈ y, |t| ≤ Y) {average : Bool} {f : Fit ℝ} (hf : fit sqrt L s average y = .ok (some f))
    {x : List ℝ} (lx : x.length = m) (hx : ∀ t ∈ x, IsDouble t ∧ |t| ≤ 2 ^ (100 : ℤ)) {p : ℝ}
    (hp : estimate L s f x = .ok p) {w : Nat → ℝ}
    (hw : ∀ i, i < n → ∑ j ∈ range n, krigingMatrix m (vecFun s.theta) (vecFun s.gamma) s.base.epsilon F i j * w j =
      vecFun y i - f.beta0) :
    |p - (f.beta0 + ∑ j ∈ range n, expCorr m (vecFun s.theta) (vecFun s.gamma) (vecFun x) (F j) * w j)| ≤
      (1 + √(n / s.base.epsilon)) *
      ((13 * ((n : ℝ) + 2) + m + 10) / 2 ^ 54 * ∑ j ∈ range n, |vecFun f.weights j| + (Y + |f.beta0|) / 2 ^ 53 +
          2 ^ (-400 : ℤ)) := by
  obtain ⟨lw, db, heq⟩ := fit_equations hs hL h hn0 hn hm hy hyd hY hf
  have ht : ∀ k, k < m → 0 ≤ vecFun s.theta k := fun k hk =>
    (vecFun_all h.theta_range (k := k) (by rw [h.theta_len]; exact hk)).2.1
  have hg : ∀ k, k < m → 0 ≤ vecFun s.gamma k ∧ vecFun s.gamma k ≤ 2 := fun k hk =>
    (vecFun_all h.gamma_range (k := k) (by rw [h.gamma_len]; exact hk)).2
  have hY0 : 0 ≤ Y := (abs_nonneg _).trans (vecFun_all hY (k := 0) (by omega))
  have hA0 : 0 ≤ ∑ j ∈ range n, |vecFun f.weights j| := sum_nonneg fun _ _ => abs_nonneg _
  have hρ0 : 0 ≤ (13 * ((n : ℝ) + 2) + m + 10) / 2 ^ 54 * ∑ j ∈ range n, |vecFun f.weights j| +
      (Y + |f.beta0|) / 2 ^ 53 + 2 ^ (-400 : ℤ) := by
    have := abs_nonneg f.beta0
    have := (zp (K := ℝ) (-400)).le
    positivity
  have h1 := simple_near (n := n) (X := F) (p := vecFun x) (v := fun j => w j - vecFun f.weights j) ht hg he hρ0
    (fun i hi => by
      have e : ∑ j ∈ range n, krigingMatrix m (vecFun s.theta) (vecFun s.gamma) s.base.epsilon F i j *
          (w j - vecFun f.weights j) = vecFun y i - f.beta0 - ∑ j ∈ range n,
          krigingMatrix m (vecFun s.theta) (vecFun s.gamma) s.base.epsilon F i j * vecFun f.weights j := by
        rw [← hw i hi, ← sum_sub_distrib]
        exact sum_congr rfl fun j _ => by ring
      rw [e]
      exact heq i hi)
  have h0 : ∑ j ∈ range n, expCorr m (vecFun s.theta) (vecFun s.gamma) (vecFun x) (F j) * (w j - vecFun f.weights j) =
      ∑ j ∈ range n, expCorr m (vecFun s.theta) (vecFun s.gamma) (vecFun x) (F j) * w j -
        ∑ j ∈ range n, expCorr m (vecFun s.theta) (vecFun s.gamma) (vecFun x) (F j) * vecFun f.weights j := by
    rw [← sum_sub_distrib]
    exact sum_congr rfl fun j _ => by ring
  rw [h0] at h1
  have h2 := estimate_round hL h hn hm lw db lx hx hp
  have h3 : (3 * ((n : ℝ) + 2) + m + 10) / 2 ^ 54 * ∑ j ∈ range n, |vecFun f.weights j| ≤
      (13 * ((n : ℝ) + 2) + m + 10) / 2 ^ 54 * ∑ j ∈ range n, |vecFun f.weights j| := by
    refine mul_le_mul_of_nonneg_right (div_le_div_of_nonneg_right ?_ (by norm_num)) hA0
    have : (0 : ℝ) ≤ n := Nat.cast_nonneg _
    linarith
  have h4 : |f.beta0| / 2 ^ 53 ≤ (Y + |f.beta0|) / 2 ^ 53 := div_le_div_of_nonneg_right (by linarith) (by norm_num)
  rw [add_mul, one_mul]
  have a1 := abs_le.1 h1
  have a2 := abs_le.1 h2
  rw [abs_le]
  constructor <;> linarith

end Doubles

section Mean

variable {sqrt : ℝ → ℝ} {L : Libm ℝ} {s : Corr.ExpCorr ℝ} {n m : Nat} {F G : Nat → Nat → ℝ} {R Lf : Mat ℝ}
  {M μ t : ℝ}

/-- The computed quotient of two sums. -/
theorem quotient_near {A B : ℝ} (hB : 1 / 256 ≤ B) (hB2 : B ≤ 2 ^ 57) (hA : |A| ≤ 2 ^ 87) :
    |A - fl (fl (1 / B) * A) * B| ≤ 11 / 5 * (1 / 2 ^ 53) * |A| + 1 / 2 ^ 100 := by
  have hB0 : 0 < B := by linarith
  have h1 := fl_rel (1 / B)
  have h2 := fl_rel (fl (1 / B) * A)
  have hη : (eta : ℝ) ≤ 1 / 2 ^ 250 := by
    have : (eta : ℝ) ≤ 2 ^ (-250 : ℤ) := by unfold eta; exact zp_mono (by norm_num)
    refine this.trans (le_of_eq ?_)
    rw [zpow_neg, one_div, show (2 : ℝ) ^ (250 : ℤ) = 2 ^ 250 from zp_nat 250]
  have hη0 : (0 : ℝ) < eta := eta_pos
  generalize (eta : ℝ) = η at *
  rw [abs_of_pos (by positivity : 0 < 1 / B)] at h1
  unfold eps at h1 h2
  have hA0 := abs_nonneg A
  set i := fl (1 / B) with hi
  set b := fl (i * A) with hb
  have h3 : |i * B - 1| ≤ 1 / 2 ^ 53 + η * B := by
    have e : i * B - 1 = (i - 1 / B) * B := by field_simp
    rw [e, abs_mul, abs_of_pos hB0]
    have := mul_le_mul_of_nonneg_right h1 hB0.le
    refine this.trans (le_of_eq ?_)
    field_simp
  have h4 : η * B ≤ 1 / 2 ^ 190 := by
    refine (mul_le_mul hη hB2 hB0.le (by norm_num)).trans ?_
    norm_num
  have h5 : |i * A| * B ≤ (1 + 1 / 2 ^ 50) * |A| := by
    have e : |i * A| * B = |i * B| * |A| := by rw [abs_mul, abs_mul, abs_of_pos hB0]; ring
    rw [e]
    refine mul_le_mul_of_nonneg_right ?_ hA0
    have := abs_add_le (i * B - 1) 1
    rw [sub_add_cancel, abs_one] at this
    generalize |i * B| = z at this ⊢
    norm_num at h3 h4 ⊢
    linarith
  have h6 : |A - i * A * B| ≤ (1 / 2 ^ 53 + η * B) * |A| := by
    have e : A - i * A * B = -((i * B - 1) * A) := by ring
    rw [e, abs_neg, abs_mul]
    exact mul_le_mul_of_nonneg_right h3 hA0
  have h7 : |i * A * B - b * B| ≤ 1 / 2 ^ 53 * ((1 + 1 / 2 ^ 50) * |A|) + 1 / 2 ^ 190 := by
    have e : i * A * B - b * B = -((b - i * A) * B) := by ring
    rw [e, abs_neg, abs_mul, abs_of_pos hB0]
    have a1 := mul_le_mul_of_nonneg_right h2 hB0.le
    have a2 := mul_le_mul_of_nonneg_left h5 (show (0 : ℝ) ≤ 1 / 2 ^ 53 by norm_num)
    linarith
  have h8 := abs_sub_le A (i * A * B) (b * B)
  have h9 : η * B * |A| ≤ 1 / 2 ^ 190 * 2 ^ 87 := mul_le_mul h4 hA hA0 (by norm_num)
  norm_num at h6 h7 h9 ⊢
  linarith

/-- The estimates of the sum of the weights, put together. -/
theorem sum_arith {h κ N t Y Aa Ab Aw V Sw Sa Sb oA oB be : ℝ} (hh1 : 3 / 2 ^ 53 ≤ h) (hh2 : h ≤ 1 / 2 ^ 20)
    (hk1 : 25 / 8 * h ≤ κ) (hN1 : 1 ≤ N) (hN54 : N ≤ 2 ^ 53) (hκN : κ * N ≤ 15 / 16) (hY0 : 0 ≤ Y) (ht0 : 0 < t)
    (ht1 : t ≤ 1 / 2 ^ 200) (ea0 : 0 ≤ Aa) (hSaA : |Sa| ≤ Aa) (za : Aa ≤ 16 * N * (Y + t))
    (zb : Ab ≤ 16 * N * (1 + t)) (zw : Aw ≤ 16 * N * (1001 / 1000 * (Y + |be|) + t))
    (zv : V ≤ N * ((Y + |be|) / 2 ^ 53 + (κ * Aw + t) + (κ * Aa + t) + |be| * (κ * Ab + t)))
    (quo : |oA - be * oB| ≤ 11 / 5 * (1 / 2 ^ 53) * |oA| + 1 / 2 ^ 100)
    (nA : |oA - Sa| ≤ 2 * h * Aa + 1 / 2 ^ 100) (nB : |oB - Sb| ≤ 2 * h * Ab + 1 / 2 ^ 100)
    (sumv : |Sw - Sa + be * Sb| ≤ V) :
    |Sw| ≤ 48 * (N * (κ * N * (Y + |be|))) + (1 + |be|) / 2 ^ 90 := by
  have hκ0 : 0 ≤ κ := by linarith
  set B := Y + |be| with hB
  have hbe := abs_nonneg be
  have hYB : Y ≤ B := by rw [hB]; linarith
  have hbB : |be| ≤ B := by rw [hB]; linarith
  set c := |be| with hc
  have hcY : Y = B - c := by rw [hB]; ring
  set k := κ * N with hk
  have hk0 : 0 ≤ k := mul_nonneg hκ0 (by linarith)
  have hB0 : 0 ≤ B := by linarith
  -- the right-hand side
  have p1 : κ * Aw ≤ 16 * k * (1001 / 1000 * B + t) := by
    have := mul_le_mul_of_nonneg_left zw hκ0
    rw [hk]; linarith
  have p2 : κ * Aa ≤ 16 * k * (Y + t) := by
    have := mul_le_mul_of_nonneg_left za hκ0
    rw [hk]; linarith
  have p3 : c * (κ * Ab) ≤ 16 * k * (c * (1 + t)) := by
    have a1 := mul_le_mul_of_nonneg_left zb hκ0
    have a2 := mul_le_mul_of_nonneg_left a1 hbe
    have e : c * (κ * (16 * N * (1 + t))) = 16 * k * (c * (1 + t)) := by rw [hk]; ring
    linarith
  have p4 : B / 2 ^ 53 ≤ 16 / 100 * (k * B) := by
    have a1 : 1 / 2 ^ 53 ≤ 16 / 100 * κ := by linarith
    have a2 : κ ≤ k := by rw [hk]; have := mul_le_mul_of_nonneg_left hN1 hκ0; linarith
    have a3 := mul_le_mul_of_nonneg_right (a1.trans (mul_le_mul_of_nonneg_left a2 (by norm_num))) hB0
    norm_num at a3 ⊢
    linarith
  have p5 : 16 * k * ((2 + c) * t) ≤ 15 * ((2 + c) * t) :=
    mul_le_mul_of_nonneg_right (by linarith) (by positivity)
  have p6 : B / 2 ^ 53 + (κ * Aw + t) + (κ * Aa + t) + c * (κ * Ab + t) ≤ 322 / 10 * (k * B) + 16 * ((2 + c) * t) := by
    have hkB : 0 ≤ k * B := mul_nonneg hk0 hB0
    have e1 : 16 * k * (1001 / 1000 * B + t) + 16 * k * (Y + t) + 16 * k * (c * (1 + t)) =
        16 * (2001 / 1000) * (k * B) + 16 * k * ((2 + c) * t) := by rw [hcY]; ring
    linarith
  have p7 : V ≤ 322 / 10 * (N * (k * B)) + 16 * (2 ^ 53 * ((2 + c) * t)) := by
    have a1 := mul_le_mul_of_nonneg_left p6 (show (0 : ℝ) ≤ N by linarith)
    have a2 := mul_le_mul_of_nonneg_right hN54 (show 0 ≤ (2 + c) * t by positivity)
    linarith
  -- the sums
  have q1 : |Sa - be * Sb| ≤ |oA - be * oB| + (2 * h * Aa + 1 / 2 ^ 100) + c * (2 * h * Ab + 1 / 2 ^ 100) := by
    have e : Sa - be * Sb = (oA - be * oB) - (oA - Sa) + be * (oB - Sb) := by ring
    rw [e]
    have y1 := abs_add_le ((oA - be * oB) - (oA - Sa)) (be * (oB - Sb))
    have y2 := abs_sub (oA - be * oB) (oA - Sa)
    have y3 : |be * (oB - Sb)| ≤ c * (2 * h * Ab + 1 / 2 ^ 100) := by
      rw [abs_mul]
      exact mul_le_mul_of_nonneg_left nB (abs_nonneg _)
    linarith
  have q2 : |oA| ≤ 11 / 10 * Aa + 1 / 2 ^ 100 := by
    have a1 := abs_add_le (oA - Sa) Sa
    rw [sub_add_cancel] at a1
    have a2 : 2 * h * Aa ≤ 1 / 10 * Aa := mul_le_mul_of_nonneg_right (by linarith) ea0
    linarith
  have q3 : 11 / 5 * (1 / 2 ^ 53) * |oA| ≤ 81 / 100 * h * Aa + 1 / 2 ^ 100 := by
    have a1 := mul_le_mul_of_nonneg_left q2 (show (0 : ℝ) ≤ 11 / 5 * (1 / 2 ^ 53) by norm_num)
    have a2 : 11 / 5 * (1 / 2 ^ 53) * (11 / 10) * Aa ≤ 81 / 100 * h * Aa :=
      mul_le_mul_of_nonneg_right (by linarith) ea0
    norm_num at a1 a2 ⊢
    linarith
  have q4 : |Sa - be * Sb| ≤ 281 / 100 * (h * Aa) + 2 * (c * (h * Ab)) + (3 + c) / 2 ^ 100 := by
    norm_num at q1 quo q3 ⊢
    linarith
  have q5 : h * Aa ≤ 128 / 25 * (k * (Y + t)) := by
    have a1 := mul_le_mul_of_nonneg_left za (show 0 ≤ h by linarith)
    have a2 : h * (16 * N * (Y + t)) ≤ 8 / 25 * κ * (16 * N * (Y + t)) :=
      mul_le_mul_of_nonneg_right (by linarith) (by positivity)
    rw [hk]; linarith
  have q6 : c * (h * Ab) ≤ 128 / 25 * (k * (c * (1 + t))) := by
    have a1 := mul_le_mul_of_nonneg_left zb (show 0 ≤ h by linarith)
    have a2 : h * (16 * N * (1 + t)) ≤ 8 / 25 * κ * (16 * N * (1 + t)) :=
      mul_le_mul_of_nonneg_right (by linarith) (by positivity)
    have a3 := mul_le_mul_of_nonneg_left (a1.trans a2) hbe
    rw [hk]; linarith
  have q7 : |Sa - be * Sb| ≤ 144 / 10 * (N * (k * B)) + 15 * ((2 + c) * t) + (3 + c) / 2 ^ 100 := by
    have a1 : 0 ≤ k * (c * (1 + t)) := by positivity
    have a2 : k * (Y + t) + k * (c * (1 + t)) = k * B + k * ((1 + c) * t) := by rw [hcY]; ring
    have a3 : k * ((1 + c) * t) ≤ 15 / 16 * ((2 + c) * t) := by
      refine mul_le_mul hκN (mul_le_mul_of_nonneg_right (by linarith) ht0.le) (by positivity) (by norm_num)
    have a4 : k * B ≤ N * (k * B) := by
      have := mul_le_mul_of_nonneg_right hN1 (mul_nonneg hk0 hB0)
      linarith
    have a5 : 0 ≤ (2 + c) * t := by positivity
    linarith
  have q8 : |Sw| ≤ V + |Sa - be * Sb| := by
    have := abs_add_le (Sw - Sa + be * Sb) (Sa - be * Sb)
    have e : Sw - Sa + be * Sb + (Sa - be * Sb) = Sw := by ring
    rw [e] at this
    linarith
  have r1 : (2 + c) * t ≤ (2 + c) * (1 / 2 ^ 200) := mul_le_mul_of_nonneg_left ht1 (by linarith)
  have r3 : 0 ≤ N * (k * B) := mul_nonneg (by linarith) (mul_nonneg hk0 hB0)
  norm_num at r1 p7 q7 ⊢
  linarith

/-- The sum of the weights of a model with a margin, if the mean is the generalized least squares estimate. -/
theorem Sys.sum_weights (S : Sys sqrt L s n m F R G Lf M μ t) (hμ1 : μ ≤ 1) (hn0 : 0 < n) (hn : n < 2 ^ 32) {y : List ℝ}
    (hy : y.length = n) (hyd : Doubles y) {Y : ℝ} (hY : ∀ a, a < n → |vecFun y a| ≤ Y) (hY2 : Y ≤ 2 ^ 30) {f : Fit ℝ}
    (hf : fit sqrt L s false y = .ok (some f)) :
    |∑ j ∈ range n, vecFun f.weights j| ≤
      150 * (hh n * M) * (n / μ) ^ 2 * (Y + |f.beta0|) + (1 + |f.beta0|) / 2 ^ 90 := by
  have h100 : (2 : ℝ) ^ (100 : ℤ) = 2 ^ 100 := zp_nat 100
  have hn1 : (1 : ℝ) ≤ n := by exact_mod_cast hn0
  have hys : ∀ a, a < n → |vecFun y a| ≤ 2 ^ 30 := fun a ha => (hY a ha).trans hY2
  have hY0 : 0 ≤ Y := (abs_nonneg _).trans (hY 0 hn0)
  obtain ⟨be, be1, be2, be3⟩ := beta_ok S.t_pos S.t_le hn0 hn S.sym S.one_le S.le_three S.entry S.margin S.mu_low S.solve
    S.size hy hyd hys false
  unfold fit at hf
  rw [S.matrix, okBind, S.factor, okBind, if_neg (by norm_num), be1, okBind] at hf
  have hdiff : ∀ i, i < n → |vecFun y i - be| ≤ Y + |be| := fun i hi =>
    (abs_sub _ _).trans (add_le_add (hY i hi) le_rfl)
  have hdiff2 : Y + |be| ≤ 2 ^ 96 := by
    norm_num at hY2 be3 ⊢
    linarith
  obtain ⟨d, d1, d2, d3, d4⟩ := subScalar_ok hy (b := be) fun i hi =>
    (hdiff i hi).trans (hdiff2.trans (by rw [h100]; norm_num))
  rw [d1, okBind] at hf
  have hyi : ∀ i, i < n → IsDouble (vecFun y i) := fun i hi => vecFun_all hyd (by omega)
  have d5 : ∀ i, i < n → |vecFun d i - (vecFun y i - be)| ≤ (Y + |be|) / 2 ^ 53 := fun i hi => by
    rw [d4 i hi]
    exact (fl_sub_err (hyi i hi) be2).trans (div_le_div_of_nonneg_right (hdiff i hi) (by norm_num))
  have d6 : ∀ i, i < n → |vecFun d i| ≤ 1001 / 1000 * (Y + |be|) := fun i hi => by
    have a1 := abs_add_le (vecFun d i - (vecFun y i - be)) (vecFun y i - be)
    rw [sub_add_cancel] at a1
    have a2 := d5 i hi
    have a3 := hdiff i hi
    have a4 := abs_nonneg be
    norm_num at a2 ⊢
    linarith
  obtain ⟨w, w1, w2, w3⟩ := S.solve d d2 d3 (fun i hi => (d6 i hi).trans (by
    rw [h100]
    norm_num at hdiff2 ⊢
    linarith))
  rw [w1, okBind] at hf
  have hf' : f.beta0 = be ∧ f.weights = w := by
    obtain ⟨_, -, hf⟩ := bind_ok_inv hf
    obtain ⟨_, -, hf⟩ := bind_ok_inv hf
    obtain ⟨_, -, hf⟩ := bind_ok_inv hf
    cases hf
    exact ⟨rfl, rfl⟩
  rw [hf'.1, hf'.2]
  clear hf hf'
  -- the mean
  unfold beta0 at be1
  simp only [Bool.false_eq_true, if_false, hy] at be1
  have hrep : (List.replicate n (1 : ℝ)).length = n := by simp
  obtain ⟨a, ea, la, ra⟩ := S.solve y hy hyd (fun i hi => (hys i hi).trans (by rw [h100]; norm_num))
  obtain ⟨b, oB, eb, lb, sb, eB, lB, uB⟩ := S.ones hn0 hn
  obtain ⟨b', eb', -, rb⟩ := S.solve _ hrep (doubles_replicate n) (fun i hi => by
    rw [vecFun_replicate hi, h100]; norm_num)
  rw [eb] at eb'
  cases eb'
  rw [ea, okBind, eb, okBind, eB, okBind] at be1
  obtain ⟨iv, i1, be1⟩ := bind_ok_inv be1
  obtain ⟨oA, eA, be1⟩ := bind_ok_inv be1
  have i2 := (div_ok i1).2
  have be1 := mul_ok be1
  rw [i2] at be1
  have ht1 := S.t_le
  have ht0 := S.t_pos
  have hμ0 := S.mu_pos
  have one : ∀ c : List ℝ, ∀ i ∈ range n, vecFun (List.replicate n (1 : ℝ)) i * vecFun c i = vecFun c i :=
    fun c i hi => by rw [vecFun_replicate (mem_range.1 hi), one_mul]
  have tot : ∀ c : List ℝ, ∑ i ∈ range n, |vecFun (List.replicate n (1 : ℝ)) i * vecFun c i| =
      ∑ i ∈ range n, |vecFun c i| := fun c => sum_congr rfl fun i hi => by rw [one c i hi]
  have tot' : ∀ c : List ℝ, ∑ i ∈ range n, vecFun (List.replicate n (1 : ℝ)) i * vecFun c i =
      ∑ i ∈ range n, vecFun c i := fun c => sum_congr rfl fun i hi => one c i hi
  have sa := S.size y a _ (by positivity) hys ra
  obtain ⟨oA', eA', -, bA, nA⟩ := dot_size hrep la hn (T := 2 ^ 85) (by
    rw [tot]; refine sa.trans ?_
    norm_num at ht1 ⊢
    linarith) (by norm_num)
  rw [eA] at eA'
  cases eA'
  obtain ⟨oB', eB', -, -, nB⟩ := dot_size hrep lb hn (T := 2 ^ 55) (by rw [tot]; exact sb) (by norm_num)
  rw [eB] at eB'
  cases eB'
  rw [tot, tot'] at nA nB
  have quo := quotient_near lB uB (A := oA) (bA.trans (by norm_num))
  rw [← be1] at quo
  -- sizes
  have sza := solve_size S.margin hμ0 S.kappa ht0.le hY0 hY ra
  have szb := solve_size S.margin hμ0 S.kappa ht0.le (by norm_num : (0 : ℝ) ≤ 1)
    (fun i hi => by rw [vecFun_replicate hi]; norm_num) rb
  have hB0 : 0 ≤ Y + |be| := by positivity
  have szw := solve_size S.margin hμ0 S.kappa ht0.le (by positivity : (0 : ℝ) ≤ 1001 / 1000 * (Y + |be|)) d6 w3
  set Aa := ∑ j ∈ range n, |vecFun a j| with hAa
  set Ab := ∑ j ∈ range n, |vecFun b j| with hAb
  set Aw := ∑ j ∈ range n, |vecFun w j| with hAw
  have ea0 : 0 ≤ Aa := sum_nonneg fun _ _ => abs_nonneg _
  have ew0 : 0 ≤ Aw := sum_nonneg fun _ _ => abs_nonneg _
  set κ := 25 / 8 * hh n * M with hκ
  have hh1 := hh_low (K := ℝ) hn0
  have hh2 := hh_high (K := ℝ) hn.le
  have hM1 := S.one_le
  have hM3 := S.le_three
  have hk1 : 25 / 8 * hh n ≤ κ := by
    rw [hκ]
    have := mul_le_mul_of_nonneg_left hM1 (show 0 ≤ 25 / 8 * hh (K := ℝ) n by linarith)
    linarith
  have hκ0 : 0 ≤ κ := by linarith
  set N := (n : ℝ) / μ with hN
  have hN1 : 1 ≤ N := by rw [hN, le_div_iff₀ hμ0]; linarith
  have hκN : κ * N ≤ 15 / 16 := by
    rw [hN, ← mul_div_assoc, div_le_iff₀ hμ0]
    have := S.kappa
    rw [← hκ] at this
    linarith
  have toN : ∀ {A c : ℝ}, μ * A ≤ 16 * n * c → A ≤ 16 * N * c := by
    intro A c h
    have : 16 * N * c = 16 * n * c / μ := by rw [hN]; ring
    rw [this, le_div_iff₀ hμ0]
    linarith
  have za := toN sza
  have zb := toN szb
  have zw := toN szw
  have hN54 : N ≤ 2 ^ 53 := by
    have a1 : 3 / 2 ^ 53 * N ≤ 15 / 16 := le_trans (mul_le_mul_of_nonneg_right (by linarith) (by linarith)) hκN
    norm_num at a1 ⊢
    linarith
  -- the difference of the three solutions
  have gam := solution_size (F := G) S.margin hμ0 (v := fun j => vecFun w j - vecFun a j + be * vecFun b j)
    (γ := (Y + |be|) / 2 ^ 53 + (κ * Aw + t) + (κ * Aa + t) + |be| * (κ * Ab + t)) (by positivity) (fun i hi => by
      have e : ∑ j ∈ range n, G i j * (vecFun w j - vecFun a j + be * vecFun b j) =
          ∑ j ∈ range n, G i j * vecFun w j - ∑ j ∈ range n, G i j * vecFun a j +
            be * ∑ j ∈ range n, G i j * vecFun b j := by
        rw [mul_sum, ← sum_sub_distrib, ← sum_add_distrib]
        exact sum_congr rfl fun j _ => by ring
      rw [e]
      have x1 := w3 i hi
      have x2 := ra i hi
      have x3 := rb i hi
      rw [vecFun_replicate hi] at x3
      have x4 := d5 i hi
      set gw := ∑ j ∈ range n, G i j * vecFun w j
      set ga := ∑ j ∈ range n, G i j * vecFun a j
      set gb := ∑ j ∈ range n, G i j * vecFun b j
      have e2 : gw - ga + be * gb = (vecFun d i - (vecFun y i - be)) - (vecFun d i - gw) + (vecFun y i - ga) -
          be * (1 - gb) := by ring
      rw [e2]
      have y1 := abs_sub ((vecFun d i - (vecFun y i - be)) - (vecFun d i - gw) + (vecFun y i - ga)) (be * (1 - gb))
      have y2 := abs_add_le ((vecFun d i - (vecFun y i - be)) - (vecFun d i - gw)) (vecFun y i - ga)
      have y3 := abs_sub (vecFun d i - (vecFun y i - be)) (vecFun d i - gw)
      have y4 : |be * (1 - gb)| ≤ |be| * (κ * Ab + t) := by
        rw [abs_mul]
        exact mul_le_mul_of_nonneg_left x3 (abs_nonneg _)
      linarith)
  have sumv : |∑ j ∈ range n, (vecFun w j - vecFun a j + be * vecFun b j)| ≤
      ∑ j ∈ range n, |vecFun w j - vecFun a j + be * vecFun b j| := abs_sum_le_sum_abs _ _
  set V := ∑ j ∈ range n, |vecFun w j - vecFun a j + be * vecFun b j| with hV
  have split : ∑ j ∈ range n, (vecFun w j - vecFun a j + be * vecFun b j) =
      ∑ j ∈ range n, vecFun w j - ∑ j ∈ range n, vecFun a j + be * ∑ j ∈ range n, vecFun b j := by
    rw [mul_sum, ← sum_sub_distrib, ← sum_add_distrib]
  rw [split] at sumv
  have zv : V ≤ N * ((Y + |be|) / 2 ^ 53 + (κ * Aw + t) + (κ * Aa + t) + |be| * (κ * Ab + t)) := by
    have : N * ((Y + |be|) / 2 ^ 53 + (κ * Aw + t) + (κ * Aa + t) + |be| * (κ * Ab + t)) =
        n * ((Y + |be|) / 2 ^ 53 + (κ * Aw + t) + (κ * Aa + t) + |be| * (κ * Ab + t)) / μ := by rw [hN]; ring
    rw [this, le_div_iff₀ hμ0]
    linarith
  set Sw := ∑ j ∈ range n, vecFun w j with hSw
  set Sa := ∑ j ∈ range n, vecFun a j with hSa
  set Sb := ∑ j ∈ range n, vecFun b j with hSb
  have hSaA : |Sa| ≤ Aa := abs_sum_le_sum_abs _ _
  have r1 := sum_arith hh1 hh2 hk1 hN1 hN54 hκN hY0 ht0 ht1 ea0 hSaA za zb zw zv quo nA nB sumv
  refine r1.trans (le_of_eq ?_)
  rw [hκ]
  ring

end Mean

end Rodeo.Dbl
