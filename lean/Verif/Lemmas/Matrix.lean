import Verif.Spec.LinSys
import Mathlib.LinearAlgebra.Matrix.NonsingularInverse
import Mathlib.LinearAlgebra.Matrix.Block

/-! Index functions as Mathlib matrices. -/

set_option linter.unusedSectionVars false

namespace Rodeo
open Spec

variable {K : Type} [Field K] [LinearOrder K] [IsStrictOrderedRing K]

theorem det_ne_zero_of_solvable {n : Nat} {F : Nat → Nat → K}
    (h : ∀ b : Nat → K, ∃ x, Solves n F x b) : (toMatrix n F).det ≠ 0 := by
  have hs : Function.Surjective (toMatrix n F).mulVec := by
    intro b
    obtain ⟨x, hx⟩ := h (fun i => if hi : i < n then b ⟨i, hi⟩ else 0)
    refine ⟨fun j => x j, ?_⟩
    funext i
    have := hx i i.2
    simp only [Fin.is_lt, dif_pos] at this
    rw [Finset.sum_range] at this
    exact this
  have := (Matrix.mulVec_surjective_iff_isUnit).1 hs
  exact ((Matrix.isUnit_iff_isUnit_det _).1 this).ne_zero

theorem left_inverse_of_right {n : Nat} {F G : Nat → Nat → K}
    (h : ∀ i j, i < n → j < n → ∑ k ∈ Finset.range n, F i k * G k j = if i = j then 1 else 0) :
    ∀ i j, i < n → j < n → ∑ k ∈ Finset.range n, G i k * F k j = if i = j then 1 else 0 := by
  have h1 : toMatrix n F * toMatrix n G = 1 := by
    ext i j
    have := h i j i.2 j.2
    rw [Finset.sum_range] at this
    rw [Matrix.mul_apply, Matrix.one_apply]
    simpa [toMatrix, Fin.ext_iff] using this
  have h2 := mul_eq_one_comm.1 h1
  intro i j hi hj
  have := congrFun (congrFun h2 ⟨i, hi⟩) ⟨j, hj⟩
  rw [Matrix.mul_apply, Matrix.one_apply] at this
  rw [Finset.sum_range]
  simpa [toMatrix, Fin.ext_iff] using this

/-- Determinant of `L L^T` for a lower triangular `L`. -/
theorem det_gram {n : Nat} {F L : Nat → Nat → K} (hl : ∀ i j, i < n → j < n → i < j → L i j = 0)
    (h : ∀ i j, i < n → j < n → ∑ k ∈ Finset.range n, L i k * L j k = F i j) :
    (toMatrix n F).det = (∏ i ∈ Finset.range n, L i i) ^ 2 := by
  have h1 : toMatrix n F = toMatrix n L * (toMatrix n L).transpose := by
    ext i j
    have := h i j i.2 j.2
    rw [Finset.sum_range] at this
    rw [Matrix.mul_apply]
    simpa [toMatrix] using this.symm
  have h2 : (toMatrix n L).det = ∏ i ∈ Finset.range n, L i i := by
    rw [Matrix.det_of_isLowerTriangular, Finset.prod_range]
    · rfl
    · intro i j hij
      exact hl i j i.2 j.2 hij
  rw [h1, Matrix.det_mul, Matrix.det_transpose, h2, sq]

end Rodeo
