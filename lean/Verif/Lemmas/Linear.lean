import Verif.Model.Linear
import Verif.Spec.Regression
import Verif.Lemmas.Corr
import Verif.Lemmas.Matrix
import Verif.Props.Solve
import Mathlib.Algebra.Order.Chebyshev
import Mathlib.LinearAlgebra.Matrix.ToLinearEquiv

set_option linter.unusedSectionVars false

namespace Rodeo
open Spec Mat

variable {K : Type} [Field K] [LinearOrder K] [IsStrictOrderedRing K]

theorem bind_err {α β : Type} {x : Res α} {f : α → Res β} {e : Err} (h : x = .error e) :
    (x >>= f) = .error e := by
  subst h; rfl

/-! ## Ridge regression, on index functions -/

/-- Entries of the matrix with a column of ones in front. -/
def augFun (X : Nat → Nat → K) (i j : Nat) : K := if j = 0 then 1 else X i (j - 1)

theorem affine_eq (dim : Nat) (X : Nat → Nat → K) (w : Nat → K) (i : Nat) :
    affine dim w (X i) = ∑ j ∈ Finset.range (dim + 1), augFun X i j * w j := by
  rw [Finset.sum_range_succ', affine, add_comm]
  simp [augFun]

theorem ridge_expand {n m : Nat} {A : Nat → Nat → K} {y w d : Nat → K} {lambda : K}
    (h : ∀ i, i < m → ∑ j ∈ Finset.range m,
      (if i = j then (∑ k ∈ Finset.range n, A k i * A k j) + lambda
        else ∑ k ∈ Finset.range n, A k i * A k j) * w j = ∑ k ∈ Finset.range n, A k i * y k) :
    ∑ i ∈ Finset.range n, (y i - ∑ j ∈ Finset.range m, A i j * (w j + d j)) ^ 2 +
        lambda * ∑ j ∈ Finset.range m, (w j + d j) ^ 2 =
      (∑ i ∈ Finset.range n, (y i - ∑ j ∈ Finset.range m, A i j * w j) ^ 2 +
        lambda * ∑ j ∈ Finset.range m, w j ^ 2) +
      (∑ i ∈ Finset.range n, (∑ j ∈ Finset.range m, A i j * d j) ^ 2 +
        lambda * ∑ j ∈ Finset.range m, d j ^ 2) := by
  -- the residual times the change
  have cross : ∑ i ∈ Finset.range n, (y i - ∑ j ∈ Finset.range m, A i j * w j) *
      (∑ j ∈ Finset.range m, A i j * d j) = lambda * ∑ j ∈ Finset.range m, w j * d j := by
    have e1 : ∀ j, j < m → ∑ i ∈ Finset.range n, A i j * (y i - ∑ l ∈ Finset.range m, A i l * w l)
        = lambda * w j := by
      intro j hj
      have h' := h j hj
      have e2 : ∑ l ∈ Finset.range m, (if j = l then (∑ k ∈ Finset.range n, A k j * A k l) + lambda
          else ∑ k ∈ Finset.range n, A k j * A k l) * w l
          = (∑ l ∈ Finset.range m, (∑ k ∈ Finset.range n, A k j * A k l) * w l) + lambda * w j := by
        have : ∀ l, (if j = l then (∑ k ∈ Finset.range n, A k j * A k l) + lambda
          else ∑ k ∈ Finset.range n, A k j * A k l) * w l =
          (∑ k ∈ Finset.range n, A k j * A k l) * w l + (if j = l then lambda * w l else 0) := by
          intro l; split_ifs <;> ring
        simp only [this, Finset.sum_add_distrib]
        rw [Finset.sum_ite_eq, if_pos (Finset.mem_range.2 hj)]
      rw [e2] at h'
      have e3 : ∑ l ∈ Finset.range m, (∑ k ∈ Finset.range n, A k j * A k l) * w l
          = ∑ i ∈ Finset.range n, A i j * ∑ l ∈ Finset.range m, A i l * w l := by
        simp only [Finset.sum_mul, Finset.mul_sum]
        rw [Finset.sum_comm]
        refine Finset.sum_congr rfl fun i _ => Finset.sum_congr rfl fun l _ => by ring
      simp only [mul_sub, Finset.sum_sub_distrib]
      rw [← h', e3]; ring
    have e4 : ∑ i ∈ Finset.range n, (y i - ∑ j ∈ Finset.range m, A i j * w j) *
        (∑ j ∈ Finset.range m, A i j * d j) = ∑ j ∈ Finset.range m,
          (∑ i ∈ Finset.range n, A i j * (y i - ∑ l ∈ Finset.range m, A i l * w l)) * d j := by
      simp only [Finset.mul_sum (s := Finset.range m) (f := fun j => A _ j * d j), Finset.sum_mul]
      rw [Finset.sum_comm]
      refine Finset.sum_congr rfl fun j _ => Finset.sum_congr rfl fun i _ => by ring
    rw [e4, Finset.mul_sum]
    refine Finset.sum_congr rfl fun j hj => ?_
    rw [e1 j (Finset.mem_range.1 hj)]; ring
  have e5 : ∀ i, ∑ j ∈ Finset.range m, A i j * (w j + d j)
      = (∑ j ∈ Finset.range m, A i j * w j) + ∑ j ∈ Finset.range m, A i j * d j := by
    intro i; simp only [mul_add, Finset.sum_add_distrib]
  have e6 : ∑ i ∈ Finset.range n, (y i - ∑ j ∈ Finset.range m, A i j * (w j + d j)) ^ 2
      = ∑ i ∈ Finset.range n, (y i - ∑ j ∈ Finset.range m, A i j * w j) ^ 2
        - 2 * (∑ i ∈ Finset.range n, (y i - ∑ j ∈ Finset.range m, A i j * w j) *
          (∑ j ∈ Finset.range m, A i j * d j))
        + ∑ i ∈ Finset.range n, (∑ j ∈ Finset.range m, A i j * d j) ^ 2 := by
    rw [Finset.mul_sum, ← Finset.sum_sub_distrib, ← Finset.sum_add_distrib]
    refine Finset.sum_congr rfl fun i _ => ?_
    rw [e5]; ring
  have e7 : ∑ j ∈ Finset.range m, (w j + d j) ^ 2 = ∑ j ∈ Finset.range m, w j ^ 2
      + 2 * (∑ j ∈ Finset.range m, w j * d j) + ∑ j ∈ Finset.range m, d j ^ 2 := by
    rw [Finset.mul_sum, ← Finset.sum_add_distrib, ← Finset.sum_add_distrib]
    refine Finset.sum_congr rfl fun i _ => by ring
  rw [e6, e7, cross]; ring

/-- A solution of the normal equations is the only minimizer. -/
theorem isRidge_of_normal {n dim : Nat} {X : Nat → Nat → K} {y w : Nat → K} {lambda : K}
    (hl : 0 < lambda)
    (h : ∀ i, i < dim + 1 → ∑ j ∈ Finset.range (dim + 1),
      (if i = j then (∑ k ∈ Finset.range n, augFun X k i * augFun X k j) + lambda
        else ∑ k ∈ Finset.range n, augFun X k i * augFun X k j) * w j
        = ∑ k ∈ Finset.range n, augFun X k i * y k) :
    IsRidge n dim X y lambda w := by
  intro w'
  have e := ridge_expand (d := fun j => w' j - w j) h
  simp only [add_sub_cancel] at e
  have h1 : ridgeLoss n dim X y lambda w' = ridgeLoss n dim X y lambda w +
      (∑ i ∈ Finset.range n, (∑ j ∈ Finset.range (dim + 1), augFun X i j * (w' j - w j)) ^ 2 +
        lambda * ∑ j ∈ Finset.range (dim + 1), (w' j - w j) ^ 2) := by
    unfold ridgeLoss
    simp only [affine_eq]
    exact e
  have p1 : 0 ≤ ∑ i ∈ Finset.range n, (∑ j ∈ Finset.range (dim + 1), augFun X i j * (w' j - w j)) ^ 2 :=
    Finset.sum_nonneg fun i _ => sq_nonneg _
  have p2 : 0 ≤ ∑ j ∈ Finset.range (dim + 1), (w' j - w j) ^ 2 :=
    Finset.sum_nonneg fun i _ => sq_nonneg _
  have p3 := mul_nonneg hl.le p2
  refine ⟨by rw [h1]; linarith, fun heq j hj => ?_⟩
  rw [h1] at heq
  have z : lambda * ∑ j ∈ Finset.range (dim + 1), (w' j - w j) ^ 2 = 0 := by linarith
  have z2 : ∑ j ∈ Finset.range (dim + 1), (w' j - w j) ^ 2 = 0 :=
    (mul_eq_zero.1 z).resolve_left hl.ne'
  have := (Finset.sum_eq_zero_iff_of_nonneg (fun i _ => sq_nonneg _)).1 z2 j
    (Finset.mem_range.2 (by omega))
  exact sub_eq_zero.1 (pow_eq_zero_iff (two_ne_zero)|>.1 this)

/-- The regularized normal matrix has an inverse with small rows. -/
theorem ridge_inverse {n m : Nat} {A : Nat → Nat → K} {lambda : K} (hl : 0 < lambda)
    (hsize : (m : K) ≤ (10 ^ 9 * lambda) ^ 2) :
    ∃ G : Nat → Nat → K, (∀ i j, i < m → j < m → ∑ k ∈ Finset.range m, G i k *
      (if k = j then (∑ l ∈ Finset.range n, A l k * A l j) + lambda
        else ∑ l ∈ Finset.range n, A l k * A l j) = if i = j then 1 else 0) ∧
      ∀ i, i < m → ∑ k ∈ Finset.range m, |G i k| ≤ 10 ^ 9 := by
  set F : Nat → Nat → K := fun k j => if k = j then (∑ l ∈ Finset.range n, A l k * A l j) + lambda
        else ∑ l ∈ Finset.range n, A l k * A l j with hF
  have hsymm : ∀ i j, F i j = F j i := by
    intro i j
    simp only [hF]
    have : ∑ l ∈ Finset.range n, A l i * A l j = ∑ l ∈ Finset.range n, A l j * A l i :=
      Finset.sum_congr rfl fun l _ => mul_comm _ _
    by_cases hij : i = j
    · rw [if_pos hij, if_pos hij.symm, this]
    · rw [if_neg hij, if_neg (Ne.symm hij), this]
  -- lambda |x|^2 <= x . F x
  have hq : ∀ x : Nat → K, lambda * ∑ j ∈ Finset.range m, x j ^ 2 ≤
      ∑ i ∈ Finset.range m, x i * ∑ j ∈ Finset.range m, F i j * x j := by
    intro x
    have e1 : ∑ i ∈ Finset.range m, x i * ∑ j ∈ Finset.range m, F i j * x j =
        ∑ l ∈ Finset.range n, (∑ j ∈ Finset.range m, A l j * x j) ^ 2 +
          lambda * ∑ j ∈ Finset.range m, x j ^ 2 := by
      have e2 : ∀ i, i ∈ Finset.range m → ∑ j ∈ Finset.range m, F i j * x j =
          (∑ l ∈ Finset.range n, A l i * ∑ j ∈ Finset.range m, A l j * x j) + lambda * x i := by
        intro i hi
        have : ∀ j, F i j * x j = (∑ l ∈ Finset.range n, A l i * A l j) * x j +
            (if i = j then lambda * x j else 0) := by
          intro j; simp only [hF]; split_ifs <;> ring
        simp only [this, Finset.sum_add_distrib]
        rw [Finset.sum_ite_eq, if_pos hi]
        congr 1
        simp only [Finset.sum_mul, Finset.mul_sum]
        rw [Finset.sum_comm]
        refine Finset.sum_congr rfl fun l _ => Finset.sum_congr rfl fun j _ => by ring
      rw [Finset.sum_congr rfl fun i hi => by rw [e2 i hi]]
      simp only [mul_add, Finset.sum_add_distrib]
      congr 1
      · simp only [Finset.mul_sum (s := Finset.range n)]
        rw [Finset.sum_comm]
        refine Finset.sum_congr rfl fun l _ => ?_
        rw [sq, Finset.sum_mul]
        refine Finset.sum_congr rfl fun j _ => by ring
      · rw [Finset.mul_sum]
        refine Finset.sum_congr rfl fun j _ => by ring
    rw [e1]
    have : 0 ≤ ∑ l ∈ Finset.range n, (∑ j ∈ Finset.range m, A l j * x j) ^ 2 :=
      Finset.sum_nonneg fun i _ => sq_nonneg _
    linarith
  have hdet : (toMatrix m F).det ≠ 0 := by
    intro h0
    obtain ⟨v, hv, hv0⟩ := Matrix.exists_mulVec_eq_zero_iff.2 h0
    set x : Nat → K := fun i => if hi : i < m then v ⟨i, hi⟩ else 0 with hx
    have hz : ∀ i, i < m → ∑ j ∈ Finset.range m, F i j * x j = 0 := by
      intro i hi
      have := congrFun hv0 ⟨i, hi⟩
      rw [Finset.sum_range]
      simpa [hx, Matrix.mulVec, dotProduct, toMatrix] using this
    have h1 := hq x
    rw [Finset.sum_eq_zero (s := Finset.range m) (f := fun i => x i * _)
      (fun i hi => by rw [hz i (Finset.mem_range.1 hi), mul_zero])] at h1
    have h2 : 0 ≤ ∑ j ∈ Finset.range m, x j ^ 2 := Finset.sum_nonneg fun i _ => sq_nonneg _
    have h3 : ∑ j ∈ Finset.range m, x j ^ 2 = 0 := by
      by_contra hne
      have := mul_pos hl (lt_of_le_of_ne h2 (Ne.symm hne))
      linarith
    apply hv
    funext i
    have := (Finset.sum_eq_zero_iff_of_nonneg (fun i _ => sq_nonneg _)).1 h3 i (Finset.mem_range.2 i.2)
    have := pow_eq_zero_iff (two_ne_zero)|>.1 this
    simpa [hx] using this
  have hu : IsUnit (toMatrix m F).det := isUnit_iff_ne_zero.2 hdet
  have hinv := Matrix.nonsing_inv_mul _ hu
  set G : Nat → Nat → K := fun i j => if h : i < m ∧ j < m then (toMatrix m F)⁻¹ ⟨i, h.1⟩ ⟨j, h.2⟩ else 0
    with hG
  have hleft : ∀ i j, i < m → j < m → ∑ k ∈ Finset.range m, G i k * F k j = if i = j then 1 else 0 := by
    intro i j hi hj
    have := congrFun (congrFun hinv ⟨i, hi⟩) ⟨j, hj⟩
    rw [Matrix.mul_apply, Matrix.one_apply] at this
    rw [Finset.sum_range]
    simpa [hG, toMatrix, Fin.ext_iff, hi] using this
  refine ⟨G, hleft, ?_⟩
  intro i hi
  have q := hq (G i)
  have q2 : ∑ a ∈ Finset.range m, G i a * ∑ j ∈ Finset.range m, F a j * G i j = G i i := by
    have : ∀ a, a ∈ Finset.range m → G i a * ∑ j ∈ Finset.range m, F a j * G i j
        = G i a * (if i = a then 1 else 0) := by
      intro a ha
      rw [← hleft i a hi (Finset.mem_range.1 ha)]
      congr 1
      refine Finset.sum_congr rfl fun j _ => by rw [hsymm a j]; ring
    rw [Finset.sum_congr rfl this]
    simp [hi]
  rw [q2] at q
  set S := ∑ j ∈ Finset.range m, G i j ^ 2 with hS
  have hS0 : 0 ≤ S := Finset.sum_nonneg fun i _ => sq_nonneg _
  have hgi : G i i ^ 2 ≤ S :=
    Finset.single_le_sum (f := fun j => G i j ^ 2) (fun j _ => sq_nonneg _) (Finset.mem_range.2 hi)
  have hlS : 0 ≤ lambda * S := mul_nonneg hl.le hS0
  have h1 : (lambda * S) ^ 2 ≤ S := by
    refine le_trans ?_ hgi
    exact pow_le_pow_left₀ hlS q 2
  have h2 : lambda ^ 2 * S ≤ 1 := by
    rcases hS0.eq_or_lt with h | h
    · rw [← h]; simp
    · have : S * (lambda ^ 2 * S) ≤ S * 1 := by nlinarith
      exact le_of_mul_le_mul_left this h
  have h3 : (∑ k ∈ Finset.range m, |G i k|) ^ 2 ≤ m * S := by
    have := sq_sum_le_card_mul_sum_sq (s := Finset.range m) (f := fun k => |G i k|)
    simpa [sq_abs] using this
  have h4 : (∑ k ∈ Finset.range m, |G i k|) ^ 2 ≤ (10 ^ 9 : K) ^ 2 := by
    refine h3.trans ?_
    have := mul_le_mul_of_nonneg_right hsize hS0
    refine this.trans ?_
    have : ((10 ^ 9 * lambda) ^ 2) * S = (10 ^ 9 : K) ^ 2 * (lambda ^ 2 * S) := by ring
    rw [this]
    have p : (0 : K) ≤ (10 ^ 9 : K) ^ 2 := by positivity
    calc _ ≤ (10 ^ 9 : K) ^ 2 * 1 := mul_le_mul_of_nonneg_left h2 p
      _ = _ := mul_one _
  exact (pow_le_pow_iff_left₀ (Finset.sum_nonneg fun _ _ => abs_nonneg _) (by positivity)
    two_ne_zero).1 h4

/-! ## The code -/

namespace LinearModel

theorem augmented_ok {X : Mat K} {n dim : Nat} {F : Nat → Nat → K} (hX : IsMat X n dim F) :
    OkP (augmented X n dim) (fun B => IsMat B n (dim + 1) (augFun F)) := by
  unfold augmented
  refine OkP.bind (okP_for (fun c d => Rep2 d n (dim + 1) (fun i j =>
      if i < c then some (augFun F i j) else some 0)) ?_ ?_) ?_
  · exact (rep2_zeros _ _).start (by omega)
  · intro c d hc' hd
    refine (okP_for (fun r d => Rep2 d n (dim + 1) (fun i j =>
      if i < c ∨ (i = c ∧ j < r) then some (augFun F i j) else some 0)) ?_ ?_).mono ?_
    · exact hd.cond (by omega)
    · intro r d hr' hd
      by_cases h0 : r = 0
      · rw [if_pos h0, wrAt_eq hc' hr']
        exact hd.wr_next c r hc' hr' rfl (by simp [augFun, h0]) (by omega)
      · rw [if_neg h0]
        refine bind_okP (hX.2.2.2 c (r - 1) hc' (by omega)) ?_
        rw [wrAt_eq hc' hr']
        exact hd.wr_next c r hc' hr' rfl (by simp [augFun, h0]) (by omega)
    · intro d hd
      exact hd.cond (by omega)
  · intro d hd
    refine OkP.bind (okP_freeze (hd.done (by omega))) ?_
    intro l hl
    exact okP_ok hl

theorem interpolate_ok {m : LinearModel K} {x : List K} (hw : m.weights.length = m.dimension + 1)
    (hx : m.dimension ≤ x.length) :
    m.interpolate x = .ok (affine m.dimension (vecFun m.weights) (vecFun x)) := by
  unfold interpolate
  refine bind_eq (vat_vecFun (by omega)) ?_
  obtain ⟨s, h1, h2⟩ := forRange_inv (n := m.dimension) (s := vecFun m.weights 0)
    (body := fun i f => do
      let a ← vat x i
      let w ← vat m.weights (i + 1)
      .ok (f + a * w))
    (fun i s => s = affine i (vecFun m.weights) (vecFun x)) (by simp [affine])
    (by
      intro j s hj hs
      refine ⟨_, bind_eq (vat_vecFun (by omega)) (bind_eq (vat_vecFun (by omega)) rfl), ?_⟩
      rw [hs, affine, affine, Finset.sum_range_succ]; ring)
  rw [h1, h2]

end LinearModel
end Rodeo
