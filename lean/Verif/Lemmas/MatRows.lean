import Verif.Lemmas.MatEdit
import Verif.Lemmas.Mat

/-! # Tables as lists of rows -/

set_option linter.unusedSectionVars false

namespace Rodeo
open Spec Mat

variable {K : Type} [Field K] [LinearOrder K] [IsStrictOrderedRing K]

/-- `A` has the rows `R`, all of length `m`. -/
def Mat.HasRows (A : Mat K) (m : Nat) (R : List (List K)) : Prop :=
  (∀ r ∈ R, r.length = m) ∧
    ((R = [] ∧ A = Mat.empty) ∨ IsMat A R.length m (fun i j => (R.getD i []).getD j 0))

theorem Mat.hasRows_empty (m : Nat) : HasRows (Mat.empty : Mat K) m [] :=
  ⟨fun r hr => (by cases hr), Or.inl ⟨rfl, rfl⟩⟩

theorem Mat.isMat_empty : IsMat (Mat.empty : Mat K) 0 0 (fun _ _ => 0) :=
  ⟨rfl, rfl, rfl, fun i j hi _ => absurd hi (by omega)⟩

theorem Mat.addRow_hasRows {A : Mat K} {m : Nat} {R : List (List K)} (hA : HasRows A m R)
    {v : List K} (hv : v.length = m) :
    ∃ B, addRow A v (-1) = .ok B ∧ HasRows B m (R ++ [v]) ∧
      IsMat B (R ++ [v]).length m (fun i j => ((R ++ [v]).getD i []).getD j 0) := by
  have hall : ∀ r ∈ R ++ [v], r.length = m := by
    intro r hr
    rcases List.mem_append.1 hr with hr | hr
    · exact hA.1 r hr
    · simp only [List.mem_singleton] at hr; rw [hr]; exact hv
  rcases hA.2 with ⟨rfl, rfl⟩ | hM
  · obtain ⟨B, h1, h2⟩ := addRow_ok (isMat_empty (K := K)) (v := v) (Or.inl rfl) (position := -1)
      (p := 0) (le_refl _) (Or.inr ⟨rfl, rfl⟩)
    have h3 : IsMat B ([] ++ [v]).length m (fun i j => (([] ++ [v]).getD i []).getD j 0) := by
      rw [hv] at h2
      refine IsMat.congr h2 fun i j hi hj => ?_
      have : i = 0 := by simpa using hi
      subst this
      simp [insertRow, vecFun, List.getD]
    exact ⟨B, h1, ⟨hall, Or.inr h3⟩, h3⟩
  · obtain ⟨B, h1, h2⟩ := addRow_ok hM (v := v) (Or.inr hv) (position := -1)
      (p := R.length) (le_refl _) (Or.inr ⟨rfl, rfl⟩)
    have h3 : IsMat B (R ++ [v]).length m (fun i j => ((R ++ [v]).getD i []).getD j 0) := by
      rw [hv] at h2
      have hl : (R ++ [v]).length = R.length + 1 := by simp
      rw [hl]
      refine IsMat.congr h2 fun i j hi hj => ?_
      unfold insertRow vecFun
      by_cases h : i < R.length
      · rw [if_pos h]
        simp [List.getD, List.getElem?_append_left h]
      · have hi' : i = R.length := by omega
        subst hi'
        rw [if_neg h, if_pos rfl]
        simp [List.getD]
    exact ⟨B, h1, ⟨hall, Or.inr h3⟩, h3⟩

theorem Mat.HasRows.isMat {A : Mat K} {m : Nat} {R : List (List K)} (h : HasRows A m R) (hR : R ≠ []) :
    IsMat A R.length m (fun i j => (R.getD i []).getD j 0) := by
  rcases h.2 with ⟨h1, -⟩ | h1
  · exact absurd h1 hR
  · exact h1

end Rodeo
