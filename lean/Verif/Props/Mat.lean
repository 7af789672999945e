import Verif.Lemmas.MatEdit
import Verif.Lemmas.MatDelete
import Mathlib.Data.Rat.Floor
import Mathlib.Algebra.BigOperators.Ring.Finset

/-! # C43, C44, C45, C49: matrices

`IsMat A n m F` (Spec/Mat.lean): the object `A` is the `n x m` matrix with entries `F i j`. -/

set_option linter.unusedSectionVars false

namespace Rodeo
open Spec Mat

variable {K : Type} [Field K] [LinearOrder K] [IsStrictOrderedRing K]

/-- A concrete 2 x 3 matrix, rows (1 2 3) and (4 5 6), stored column by column. -/
def exA : Mat ℚ := ⟨2, 3, [1, 4, 2, 5, 3, 6]⟩

theorem exA_isMat : IsMat exA 2 3 (fun i j => (3 * i + j + 1 : ℚ)) := by
  refine ⟨rfl, rfl, rfl, ?_⟩
  intro i j hi hj
  have h1 : i = 0 ∨ i = 1 := by omega
  have h2 : j = 0 ∨ j = 1 ∨ j = 2 := by omega
  rcases h1 with rfl | rfl <;> rcases h2 with rfl | rfl | rfl <;>
    norm_num [exA, at', rawAt]

/-! ## C43 -/

/-- The full property: whatever `int` position is given, each editing call either throws or gives
exactly the edited matrix; undefined behaviour never happens. -/
def C43_full (K : Type) [Field K] [LinearOrder K] [IsStrictOrderedRing K] : Prop :=
  ∀ (A : Mat K) (n m : Nat) (F : Nat → Nat → K), IsMat A n m F →
    (∀ (v : List K) (position : Int),
      (∃ e, e ≠ Err.ub ∧ addRow A v position = .error e) ∨
      ∃ B p, addRow A v position = .ok B ∧ p ≤ n ∧ (position = (p : Int) ∨ position = -1 ∧ p = n) ∧
        IsMat B (n + 1) v.length (insertRow F p (vecFun v))) ∧
    (∀ (v : List K) (position : Int),
      (∃ e, e ≠ Err.ub ∧ addColumn A v position = .error e) ∨
      ∃ B p, addColumn A v position = .ok B ∧ p ≤ m ∧
        (position = (p : Int) ∨ position = -1 ∧ p = m) ∧
        IsMat B v.length (m + 1) (insertCol F p (vecFun v))) ∧
    (∀ rowIndex : Int,
      (∃ e, e ≠ Err.ub ∧ deleteRow A rowIndex = .error e) ∨
      ∃ B p, deleteRow A rowIndex = .ok B ∧ p < n ∧
        (rowIndex = (p : Int) ∨ rowIndex = -1 ∧ p + 1 = n) ∧
        (n = 1 ∧ B = Mat.empty ∨ IsMat B (n - 1) m (removeRow F p)))

/-- Not true of the code: `addRow` at position -2 writes in front of the new storage. -/
theorem C43_false : ¬ C43_full ℚ := by
  intro h
  have h1 := (h exA 2 3 _ exA_isMat).1 [7, 8, 9] (-2)
  have h2 : addRow exA [7, 8, 9] (-2) = .error .ub := by decide +kernel
  rw [h2] at h1
  rcases h1 with ⟨e, he, h⟩ | ⟨B, p, h, _⟩
  · exact he (Except.error.inj h).symm
  · cases h

/-- More generally every position below -1 is undefined behaviour for every nonempty row of a
matching size, in every matrix. -/
theorem C43_false_addRow_negative {A : Mat K} {n m : Nat} {F : Nat → Nat → K} (hA : IsMat A n m F)
    {v : List K} (hv : v.length = m) (hm : 0 < m) {position : Int} (hp : position < -1) :
    addRow A v position = .error .ub := by
  obtain ⟨hr, hc, -, -⟩ := id hA
  obtain ⟨x, v', rfl⟩ : ∃ x v', v = x :: v' := by
    cases v with
    | nil => simp at hv; omega
    | cons x v' => exact ⟨x, v', rfl⟩
  have hcols : (if A.isEmpty then (x :: v').length else A.ncols) = m := by
    split_ifs <;> omega
  unfold addRow
  simp only [hcols]
  rw [if_neg (show ¬ (position = -1) by omega), if_neg (by omega), if_neg (by omega)]
  obtain ⟨k, rfl⟩ : ∃ k, m = k + 1 := ⟨m - 1, by omega⟩
  have ht : position.toNat = 0 := by omega
  simp only [forRange, loopFrom, ht, bind, Except.bind, vat, List.getElem?_cons_zero, wrI]
  rw [if_pos (by simp; omega)]

/-- Appending a row to a matrix that has rows but no columns reads outside its storage. -/
theorem C43_false_addRow_no_columns :
    addRow (⟨2, 0, []⟩ : Mat ℚ) [1] (-1) = .error .ub ∧
    addRow (⟨2, 0, []⟩ : Mat ℚ) [1] 0 = .error .ub ∧
    addColumn (⟨0, 2, []⟩ : Mat ℚ) [1] (-1) = .error .ub := by
  decide +kernel

/-- `deleteRow(-2)` returns, but with storage that was never written; `deleteRow(-1)` on an empty
matrix returns a matrix that claims 4294967295 rows. -/
theorem C43_false_deleteRow :
    deleteRow exA (-2) = .error .ub ∧
    deleteRow (Mat.empty : Mat ℚ) (-1) = .ok ⟨4294967295, 0, []⟩ := by
  decide +kernel

/-- `addRow` for positions from -1 on, on matrices that do not have rows without columns: the call
throws `invalid_argument` exactly when the position is past the end or the size does not match,
and otherwise the new row is where it was asked for and every other entry is unchanged.
Missing for the full property: positions below -1 and `n x 0` shapes with `n > 0`
(undefined behaviour, see `C43_false_addRow_negative`, `C43_false_addRow_no_columns`). -/
theorem C43_addRow_partial {A : Mat K} {n m : Nat} {F : Nat → Nat → K} (hA : IsMat A n m F)
    (hs : n = 0 ∨ m ≠ 0) (v : List K) {position : Int} (hp : -1 ≤ position) :
    if position > n ∨ (n ≠ 0 ∧ v.length ≠ m) then addRow A v position = .error .invalidArgument
    else ∃ B p, addRow A v position = .ok B ∧ p ≤ n ∧
      (position = (p : Int) ∨ position = -1 ∧ p = n) ∧
      IsMat B (n + 1) v.length (insertRow F p (vecFun v)) := by
  obtain ⟨hr, hc, -, -⟩ := id hA
  split_ifs with h
  · unfold addRow
    rcases h with h | ⟨h1, h2⟩
    · simp only []
      rw [if_pos]
      rw [if_neg (by omega)]; omega
    · have he : A.isEmpty = false := by simp [isEmpty]; omega
      simp only [he]
      by_cases hq : (if position = -1 then (A.nrows : Int) else position) > A.nrows
      · rw [if_pos hq]
      · rw [if_neg hq, if_pos]
        simp; omega
  · obtain ⟨B, h1, h2⟩ := addRow_ok hA (v := v) (by omega) (position := position)
      (p := if position = -1 then n else position.toNat)
      (by split_ifs <;> omega) (by split_ifs <;> omega)
    exact ⟨B, _, h1, by split_ifs <;> omega, by split_ifs <;> omega, h2⟩

/-- `addColumn`, as `C43_addRow_partial`.  Missing: positions below -1, and `0 x m` shapes with
`m > 0`. -/
theorem C43_addColumn_partial {A : Mat K} {n m : Nat} {F : Nat → Nat → K} (hA : IsMat A n m F)
    (hs : m = 0 ∨ n ≠ 0) (v : List K) {position : Int} (hp : -1 ≤ position) :
    if position > m ∨ (m ≠ 0 ∧ v.length ≠ n) then addColumn A v position = .error .invalidArgument
    else ∃ B p, addColumn A v position = .ok B ∧ p ≤ m ∧
      (position = (p : Int) ∨ position = -1 ∧ p = m) ∧
      IsMat B v.length (m + 1) (insertCol F p (vecFun v)) := by
  obtain ⟨hr, hc, -, -⟩ := id hA
  split_ifs with h
  · unfold addColumn
    rcases h with h | ⟨h1, h2⟩
    · simp only []
      rw [if_pos]
      rw [if_neg (by omega)]; omega
    · have he : A.isEmpty = false := by simp [isEmpty]; omega
      simp only [he]
      by_cases hq : (if position = -1 then (A.ncols : Int) else position) > A.ncols
      · rw [if_pos hq]
      · rw [if_neg hq, if_pos]
        simp; omega
  · obtain ⟨B, h1, h2⟩ := addColumn_ok hA (v := v) (by omega) (position := position)
      (p := if position = -1 then m else position.toNat)
      (by split_ifs <;> omega) (by split_ifs <;> omega)
    exact ⟨B, _, h1, by split_ifs <;> omega, by split_ifs <;> omega, h2⟩

/-- `deleteRow` on a matrix with at least one row, for indices from -1 on: throws `out_of_range`
exactly for indices past the end, otherwise removes exactly that row (the last row of a one-row
matrix leaves the empty matrix).  Missing: indices below -1, and -1 on a matrix without rows. -/
theorem C43_deleteRow_partial {A : Mat K} {n m : Nat} {F : Nat → Nat → K} (hA : IsMat A n m F)
    (hn : 0 < n) {rowIndex : Int} (hp : -1 ≤ rowIndex) :
    if rowIndex ≥ n then deleteRow A rowIndex = .error .outOfRange
    else ∃ B p, deleteRow A rowIndex = .ok B ∧ p < n ∧
      (rowIndex = (p : Int) ∨ rowIndex = -1 ∧ p + 1 = n) ∧
      (n = 1 ∧ B = Mat.empty ∨ n ≠ 1 ∧ IsMat B (n - 1) m (removeRow F p)) := by
  obtain ⟨hr, hc, -, -⟩ := id hA
  split_ifs with h
  · unfold deleteRow
    simp only []
    rw [if_pos]
    rw [if_neg (by omega)]; omega
  · by_cases h1 : n = 1
    · refine ⟨Mat.empty, 0, ?_, by omega, by omega, Or.inl ⟨h1, rfl⟩⟩
      unfold deleteRow
      simp only []
      rw [if_neg (by split_ifs <;> omega), if_neg (by rw [predU32, if_neg (by omega)]; omega)]
    · obtain ⟨B, h2, h3⟩ := deleteRow_ok hA (by omega) (rowIndex := rowIndex)
        (p := if rowIndex = -1 then n - 1 else rowIndex.toNat)
        (by split_ifs <;> omega) (by split_ifs <;> omega)
      exact ⟨B, _, h2, by split_ifs <;> omega, by split_ifs <;> omega, Or.inr ⟨h1, h3⟩⟩

/-- `deleteRows`: no restriction.  An index outside `0..n-1` throws `out_of_range` (and, since the
model returns no new matrix, leaves the object alone); an empty list changes nothing; otherwise the
result consists of exactly the rows whose index is not listed, in the old order (`keep` lists
them), duplicates in the list being harmless. -/
theorem C43_deleteRows {A : Mat K} {n m : Nat} {F : Nat → Nat → K} (hA : IsMat A n m F)
    (rows : List Int) :
    if rows = [] then deleteRows A rows = .ok A
    else if ∃ a ∈ rows, a < 0 ∨ a ≥ n then deleteRows A rows = .error .outOfRange
    else ∃ keep : List Nat, ∃ B, deleteRows A rows = .ok B ∧
      keep.Pairwise (· < ·) ∧ (∀ i : Nat, i ∈ keep ↔ i < n ∧ (i : Int) ∉ rows) ∧
      (keep = [] ∧ B = Mat.empty ∨
        keep ≠ [] ∧ IsMat B keep.length m (fun i j => F (keep.getD i 0) j)) := by
  obtain ⟨hr, hc, -, -⟩ := id hA
  split_ifs with h1 h2
  · unfold deleteRows; rw [if_pos h1]
  · unfold deleteRows
    rw [if_neg h1]
    obtain ⟨a, ha, hbad⟩ := h2
    have hmem := (mem_sortedUnique rows a).2 ha
    have hS := pairwise_sortedUnique rows
    simp only []
    generalize sortedUnique rows = S at hmem hS ⊢
    have hne : S ≠ [] := List.ne_nil_of_mem hmem
    rw [List.getLast?_eq_some_getLast hne, List.head?_eq_some_head hne]
    simp only []
    rw [if_pos]
    rw [hr]
    rcases hbad with hb | hb
    · right
      obtain ⟨x, S', rfl⟩ := List.exists_cons_of_ne_nil hne
      rcases List.mem_cons.1 hmem with rfl | hm
      · simpa using hb
      · have := (List.pairwise_cons.1 hS).1 a hm
        simp; omega
    · left
      have hsplit := List.dropLast_append_getLast hne
      rw [← hsplit, List.mem_append] at hmem
      rw [← hsplit, List.pairwise_append] at hS
      rcases hmem with hm | hm
      · have := hS.2.2 a hm (S.getLast hne) (by simp)
        omega
      · simp at hm; omega
  · push Not at h2
    obtain ⟨B, h3, h4⟩ := deleteRows_ok hA h1 (fun a ha => (h2 a ha).1) (fun a ha => (h2 a ha).2)
    refine ⟨kept rows n, B, h3, ?_, ?_, h4⟩
    · exact List.Pairwise.filter _ List.pairwise_lt_range
    · intro i; simp [kept]

/-- `setRow`: no restriction. -/
theorem C43_setRow {A : Mat K} {n m : Nat} {F : Nat → Nat → K} (hA : IsMat A n m F)
    (v : List K) (p : Nat) :
    if p ≥ n then setRow A v p = .error .outOfRange
    else if v.length ≠ m then setRow A v p = .error .invalidArgument
    else ∃ B, setRow A v p = .ok B ∧
      IsMat B n m (fun i j => if i = p then vecFun v j else F i j) := by
  obtain ⟨hr, hc, -, -⟩ := id hA
  split_ifs with h1 h2
  · unfold setRow; rw [if_pos (by omega)]
  · unfold setRow; rw [if_neg (by omega), if_pos (by omega)]
  · exact setRow_ok hA (by omega) (by omega)

/-- `setCol`: no restriction. -/
theorem C43_setCol {A : Mat K} {n m : Nat} {F : Nat → Nat → K} (hA : IsMat A n m F)
    (v : List K) (p : Nat) :
    if p ≥ m then setCol A v p = .error .outOfRange
    else if v.length ≠ n then setCol A v p = .error .invalidArgument
    else ∃ B, setCol A v p = .ok B ∧
      IsMat B n m (fun i j => if j = p then vecFun v i else F i j) := by
  obtain ⟨hr, hc, -, -⟩ := id hA
  split_ifs with h1 h2
  · unfold setCol; rw [if_pos (by omega)]
  · unfold setCol; rw [if_neg (by omega), if_pos (by omega)]
  · exact setCol_ok hA (by omega) (by omega)

example : addRow exA [7, 8, 9] 1 = .ok ⟨3, 3, [1, 7, 4, 2, 8, 5, 3, 9, 6]⟩ := by decide +kernel
example : addRow exA [7, 8, 9] (-1) = .ok ⟨3, 3, [1, 4, 7, 2, 5, 8, 3, 6, 9]⟩ := by decide +kernel
example : addColumn exA [7, 8] 0 = .ok ⟨2, 4, [7, 8, 1, 4, 2, 5, 3, 6]⟩ := by decide +kernel
example : deleteRow exA 0 = .ok ⟨1, 3, [4, 5, 6]⟩ := by decide +kernel
example : setRow exA [7, 8, 9] 1 = .ok ⟨2, 3, [1, 7, 2, 8, 3, 9]⟩ := by decide +kernel
example : setCol exA [7, 8] 1 = .ok ⟨2, 3, [1, 4, 7, 8, 3, 6]⟩ := by decide +kernel
/-- The hypotheses of `C43_deleteRows` are met by a deletion with a duplicate. -/
example : ¬ (([1, 1] : List Int) = []) ∧ ¬ (∃ a ∈ ([1, 1] : List Int), a < 0 ∨ a ≥ (2 : Nat)) := by
  decide

/-! ## C44 -/

/-- Full property for the two readers that take an `int`. -/
def C44_full (K : Type) [Field K] [LinearOrder K] [IsStrictOrderedRing K] : Prop :=
  ∀ (A : Mat K) (n m : Nat) (F : Nat → Nat → K), IsMat A n m F → ∀ index : Int,
    ((∃ e, e ≠ Err.ub ∧ getCol A index = .error e) ∨
      ∃ p, p < m ∧ (index = (p : Int) ∨ index = -1 ∧ p + 1 = m) ∧
        getCol A index = .ok ((List.range n).map (fun i => F i p))) ∧
    ((∃ e, e ≠ Err.ub ∧ getRow A index = .error e) ∨
      ∃ p, p < n ∧ (index = (p : Int) ∨ index = -1 ∧ p + 1 = n) ∧
        getRow A index = .ok ((List.range m).map (fun j => F p j)))

/-- Not true: "the last column" of a matrix with rows but no columns reads outside the storage
(and so does the last row of a matrix with columns but no rows). -/
theorem C44_false : ¬ C44_full ℚ := by
  intro h
  have h1 := (h ⟨2, 0, []⟩ 2 0 (fun _ _ => 0) ⟨rfl, rfl, rfl, by omega⟩ (-1)).1
  have h2 : getCol (⟨2, 0, []⟩ : Mat ℚ) (-1) = .error .ub := by decide +kernel
  rw [h2] at h1
  rcases h1 with ⟨e, he, h⟩ | ⟨p, hp, _⟩
  · exact he (Except.error.inj h).symm
  · omega

/-- The same for rows. -/
theorem C44_false_row : getRow (⟨0, 2, []⟩ : Mat ℚ) (-1) = .error .ub := by decide +kernel

/-- `getCol`: column `index`, or the last column for -1; everything else throws.  Missing for the
full property: `getCol(-1)` on a matrix without columns. -/
theorem C44_getCol_partial {A : Mat K} {n m : Nat} {F : Nat → Nat → K} (hA : IsMat A n m F)
    {index : Int} (h : index ≠ -1 ∨ m ≠ 0) :
    if index ≥ m then getCol A index = .error .outOfRange
    else if index < -1 then getCol A index = .error .invalidArgument
    else ∃ p, p < m ∧ (index = (p : Int) ∨ index = -1 ∧ p + 1 = m) ∧
        getCol A index = .ok ((List.range n).map (fun i => F i p)) := by
  obtain ⟨hr, hc, -, -⟩ := id hA
  split_ifs with h1 h2
  · unfold getCol; rw [if_pos (by omega)]
  · unfold getCol; rw [if_neg (by omega), if_pos (by omega)]
  · refine ⟨if index = -1 then m - 1 else index.toNat, by split_ifs <;> omega,
      by split_ifs <;> omega, ?_⟩
    exact getCol_ok hA (by split_ifs <;> omega) (by split_ifs <;> omega)

/-- `getRow`.  Missing: `getRow(-1)` on a matrix without rows. -/
theorem C44_getRow_partial {A : Mat K} {n m : Nat} {F : Nat → Nat → K} (hA : IsMat A n m F)
    {index : Int} (h : index ≠ -1 ∨ n ≠ 0) :
    if index ≥ n then getRow A index = .error .outOfRange
    else if index < -1 then getRow A index = .error .invalidArgument
    else ∃ p, p < n ∧ (index = (p : Int) ∨ index = -1 ∧ p + 1 = n) ∧
        getRow A index = .ok ((List.range m).map (fun j => F p j)) := by
  obtain ⟨hr, hc, -, -⟩ := id hA
  split_ifs with h1 h2
  · unfold getRow; rw [if_pos (by omega)]
  · unfold getRow; rw [if_neg (by omega), if_pos (by omega)]
  · refine ⟨if index = -1 then n - 1 else index.toNat, by split_ifs <;> omega,
      by split_ifs <;> omega, ?_⟩
    exact getRow_ok hA (by split_ifs <;> omega) (by split_ifs <;> omega)

/-- `submat(r0, r1, c0, c1)`: exactly rows `r0..r1` and columns `c0..c1`, or a thrown
`invalid_argument`. -/
theorem C44_submat {A : Mat K} {n m : Nat} {F : Nat → Nat → K} (hA : IsMat A n m F)
    (r0 r1 c0 c1 : Nat) :
    if r0 ≤ r1 ∧ r1 < n ∧ c0 ≤ c1 ∧ c1 < m then
      ∃ B, submat A r0 r1 c0 c1 = .ok B ∧
        IsMat B (r1 - r0 + 1) (c1 - c0 + 1) (fun i j => F (r0 + i) (c0 + j))
    else submat A r0 r1 c0 c1 = .error .invalidArgument := by
  obtain ⟨hr, hc, -, -⟩ := id hA
  split_ifs with h
  · exact submat_ok hA h.1 h.2.1 h.2.2.1 h.2.2.2
  · unfold submat; rw [if_pos (by omega)]

/-- `resize`: the common part is kept, new entries are 0. -/
theorem C44_resize {A : Mat K} {n m : Nat} {F : Nat → Nat → K} (hA : IsMat A n m F) (r c : Nat) :
    ∃ B, resize A r c = .ok B ∧ IsMat B r c (fun i j => if i < n ∧ j < m then F i j else 0) :=
  resize_ok hA r c

/-- `transpose`. -/
theorem C44_transpose {A : Mat K} {n m : Nat} {F : Nat → Nat → K} (hA : IsMat A n m F) :
    ∃ B, transpose A = .ok B ∧ IsMat B m n (fun i j => F j i) :=
  transpose_ok hA

theorem isMat_ext {A B : Mat K} {n m : Nat} {F : Nat → Nat → K} (hA : IsMat A n m F)
    (hB : IsMat B n m F) : A = B := by
  obtain ⟨a1, a2, a3, a4⟩ := isMat_iff.1 hA
  obtain ⟨b1, b2, b3, b4⟩ := isMat_iff.1 hB
  obtain ⟨r, c, buf⟩ := A
  obtain ⟨r', c', buf'⟩ := B
  simp only at a1 a2 a3 a4 b1 b2 b3 b4
  subst a1 a2 b1 b2
  congr 1
  apply List.ext_getElem?
  intro k
  by_cases hk : k < r' * c'
  · obtain ⟨i, j, hi, hj, rfl⟩ := colmajor_split hk
    rw [a4 i j hi hj, b4 i j hi hj]
  · rw [List.getElem?_eq_none (by omega), List.getElem?_eq_none (by omega)]

/-- Transposing twice gives back the same object, for every shape. -/
theorem C44_transpose_transpose {A : Mat K} (hA : A.WF) :
    ∃ B, transpose A = .ok B ∧ transpose B = .ok A := by
  obtain ⟨F, hF⟩ := exists_isMat hA
  obtain ⟨B, h1, h2⟩ := transpose_ok hF
  obtain ⟨C, h3, h4⟩ := transpose_ok h2
  exact ⟨B, h1, by rw [h3, isMat_ext h4 hF]⟩

/-- `concatenateRowWise`: the rows of the first matrix followed by those of the second. A matrix
without rows is neutral, whatever its column count. -/
theorem C44_concatenateRowWise {A B : Mat K} {n m n' m' : Nat} {F G : Nat → Nat → K}
    (hA : IsMat A n m F) (hB : IsMat B n' m' G) :
    if n = 0 then concatenateRowWise A B = .ok B
    else if n' = 0 then concatenateRowWise A B = .ok A
    else if m ≠ m' then concatenateRowWise A B = .error .invalidArgument
    else ∃ C, concatenateRowWise A B = .ok C ∧
      IsMat C (n + n') m (fun i j => if i < n then F i j else G (i - n) j) := by
  obtain ⟨hr, hc, -, -⟩ := id hA
  obtain ⟨hr', hc', -, -⟩ := id hB
  split_ifs with h1 h2 h3
  · unfold concatenateRowWise; rw [if_pos (by omega)]
  · unfold concatenateRowWise; rw [if_neg (by omega), if_pos (by omega)]
  · unfold concatenateRowWise; rw [if_neg (by omega), if_neg (by omega), if_pos (by omega)]
  · push Not at h3; subst h3
    exact concatenateRowWise_ok hA hB h1 h2

/-- `concatenateColumnWise`. -/
theorem C44_concatenateColumnWise {A B : Mat K} {n m n' m' : Nat} {F G : Nat → Nat → K}
    (hA : IsMat A n m F) (hB : IsMat B n' m' G) :
    if m = 0 then concatenateColumnWise A B = .ok B
    else if m' = 0 then concatenateColumnWise A B = .ok A
    else if n ≠ n' then concatenateColumnWise A B = .error .invalidArgument
    else ∃ C, concatenateColumnWise A B = .ok C ∧
      IsMat C n (m + m') (fun i j => if j < m then F i j else G i (j - m)) := by
  obtain ⟨hr, hc, -, -⟩ := id hA
  obtain ⟨hr', hc', -, -⟩ := id hB
  split_ifs with h1 h2 h3
  · unfold concatenateColumnWise; rw [if_pos (by omega)]
  · unfold concatenateColumnWise; rw [if_neg (by omega), if_pos (by omega)]
  · unfold concatenateColumnWise; rw [if_neg (by omega), if_neg (by omega), if_pos (by omega)]
  · push Not at h3; subst h3
    exact concatenateColumnWise_ok hA hB h1 h2

/-- Shuffling the rows only reorders them: row `i` of the result is row `perm i` of the argument,
for every outcome `perm` of the shuffle. -/
theorem C44_shuffleRows {A : Mat K} {n m : Nat} {F : Nat → Nat → K} (hA : IsMat A n m F)
    {perm : List Nat} (hp : perm.Perm (List.range n)) :
    ∃ B, shuffleRows A perm = .ok B ∧ IsMat B n m (fun i j => F (perm.getD i 0) j) :=
  shuffleRows_ok hA (by rw [hp.length_eq]; simp) (fun i hi => by
    have := hp.mem_iff.1 hi; simpa using this)

example : submat exA 1 1 1 2 = .ok ⟨1, 2, [5, 6]⟩ := by decide +kernel
example : getRow exA (-1) = .ok [4, 5, 6] ∧ getCol exA 1 = .ok [2, 5] := by decide +kernel
example : resize exA 1 4 = .ok ⟨1, 4, [1, 2, 3, 0]⟩ := by decide +kernel
example : transpose exA = .ok ⟨3, 2, [1, 2, 3, 4, 5, 6]⟩ := by decide +kernel
example : concatenateRowWise exA ⟨1, 3, [7, 8, 9]⟩ = .ok ⟨3, 3, [1, 4, 7, 2, 5, 8, 3, 6, 9]⟩ := by
  decide +kernel
example : concatenateColumnWise exA ⟨2, 1, [7, 8]⟩ = .ok ⟨2, 4, [1, 4, 2, 5, 3, 6, 7, 8]⟩ := by
  decide +kernel
example : shuffleRows exA [1, 0] = .ok ⟨2, 3, [4, 1, 5, 2, 6, 3]⟩ := by decide +kernel

/-! ## C45 -/

/-- Matrix-vector product. -/
theorem C45_matVecProduct {A : Mat K} {n m : Nat} {F : Nat → Nat → K} (hA : IsMat A n m F)
    (v : List K) :
    if v.length ≠ m then matVecProduct A v = .error .invalidArgument
    else matVecProduct A v
      = .ok ((List.range n).map (fun i => ∑ j ∈ Finset.range m, F i j * vecFun v j)) := by
  obtain ⟨hr, hc, -, -⟩ := id hA
  split_ifs with h
  · unfold matVecProduct; rw [if_pos (by omega)]
  · exact matVecProduct_ok hA (by omega)

/-- Matrix-matrix product. -/
theorem C45_matMatProduct {A B : Mat K} {n m m' q : Nat} {F G : Nat → Nat → K}
    (hA : IsMat A n m F) (hB : IsMat B m' q G) :
    if m ≠ m' then matMatProduct A B = .error .invalidArgument
    else ∃ C, matMatProduct A B = .ok C ∧
      IsMat C n q (fun i j => ∑ k ∈ Finset.range m, F i k * G k j) := by
  obtain ⟨hr, hc, -, -⟩ := id hA
  obtain ⟨hr', hc', -, -⟩ := id hB
  split_ifs with h
  · unfold matMatProduct; rw [if_pos (by omega)]
  · push Not at h; subst h
    exact matMatProduct_ok hA hB

/-- `(AB)C = A(BC)` as objects. -/
theorem C45_assoc {A B C : Mat K} {n m q r : Nat} {F G H : Nat → Nat → K}
    (hA : IsMat A n m F) (hB : IsMat B m q G) (hC : IsMat C q r H) :
    ∃ AB BC R, matMatProduct A B = .ok AB ∧ matMatProduct B C = .ok BC ∧
      matMatProduct AB C = .ok R ∧ matMatProduct A BC = .ok R := by
  obtain ⟨AB, h1, h2⟩ := matMatProduct_ok hA hB
  obtain ⟨BC, h3, h4⟩ := matMatProduct_ok hB hC
  obtain ⟨R, h5, h6⟩ := matMatProduct_ok h2 hC
  obtain ⟨R', h7, h8⟩ := matMatProduct_ok hA h4
  refine ⟨AB, BC, R, h1, h3, h5, ?_⟩
  rw [h7, isMat_ext h8 (h6.congr ?_)]
  intro i j _ _
  simp only [Finset.sum_mul, Finset.mul_sum]
  rw [Finset.sum_comm]
  simp only [mul_assoc]

/-- `(AB)^T = B^T A^T` as objects. -/
theorem C45_transpose {A B : Mat K} {n m q : Nat} {F G : Nat → Nat → K}
    (hA : IsMat A n m F) (hB : IsMat B m q G) :
    ∃ AB At Bt R, matMatProduct A B = .ok AB ∧ transpose A = .ok At ∧ transpose B = .ok Bt ∧
      transpose AB = .ok R ∧ matMatProduct Bt At = .ok R := by
  obtain ⟨AB, h1, h2⟩ := matMatProduct_ok hA hB
  obtain ⟨At, h3, h4⟩ := transpose_ok hA
  obtain ⟨Bt, h5, h6⟩ := transpose_ok hB
  obtain ⟨R, h7, h8⟩ := transpose_ok h2
  obtain ⟨R', h9, h10⟩ := matMatProduct_ok h6 h4
  refine ⟨AB, At, Bt, R, h1, h3, h5, h7, ?_⟩
  rw [h9, isMat_ext h10 (h8.congr ?_)]
  intro i j _ _
  exact Finset.sum_congr rfl (fun k _ => mul_comm _ _)

/-- `A(B + C) = AB + AC` as objects. -/
theorem C45_distrib {A B C : Mat K} {n m q : Nat} {F G H : Nat → Nat → K}
    (hA : IsMat A n m F) (hB : IsMat B m q G) (hC : IsMat C m q H) :
    ∃ S AB AC R, add B C = .ok S ∧ matMatProduct A B = .ok AB ∧ matMatProduct A C = .ok AC ∧
      matMatProduct A S = .ok R ∧ add AB AC = .ok R := by
  obtain ⟨S, h1, h2⟩ := add_ok hB hC
  obtain ⟨AB, h3, h4⟩ := matMatProduct_ok hA hB
  obtain ⟨AC, h5, h6⟩ := matMatProduct_ok hA hC
  obtain ⟨R, h7, h8⟩ := matMatProduct_ok hA h2
  obtain ⟨R', h9, h10⟩ := add_ok h4 h6
  refine ⟨S, AB, AC, R, h1, h3, h5, h7, ?_⟩
  rw [h9, isMat_ext h10 (h8.congr ?_)]
  intro i j _ _
  rw [← Finset.sum_add_distrib]
  exact Finset.sum_congr rfl (fun k _ => mul_add _ _ _)

/-- Difference and scaling are entrywise, and a difference of mismatched shapes is rejected. -/
theorem C45_sub_smul {A B : Mat K} {n m n' m' : Nat} {F G : Nat → Nat → K}
    (hA : IsMat A n m F) (hB : IsMat B n' m' G) (s : K) :
    (if n ≠ n' ∨ m ≠ m' then sub A B = .error .invalidArgument
      else ∃ C, sub A B = .ok C ∧ IsMat C n m (fun i j => F i j - G i j)) ∧
    ∃ C, smul A s = .ok C ∧ IsMat C n m (fun i j => s * F i j) := by
  obtain ⟨hr, hc, -, -⟩ := id hA
  obtain ⟨hr', hc', -, -⟩ := id hB
  refine ⟨?_, smul_ok hA s⟩
  split_ifs with h
  · unfold sub; rw [if_pos (by omega)]
  · push Not at h; obtain ⟨rfl, rfl⟩ := h
    exact sub_ok hA hB

example : matMatProduct exA ⟨3, 1, [1, 0, 2]⟩ = .ok ⟨2, 1, [7, 16]⟩ ∧
    matVecProduct exA [1, 0, 2] = .ok [7, 16] := by decide +kernel

/-! ## C49 -/

/-- Row lookup: first match or -1, wrong sizes rejected. -/
theorem C49_findRowIndex {A : Mat K} {n m : Nat} {F : Nat → Nat → K} (hA : IsMat A n m F)
    (v : List K) (tol : K) :
    if v.length ≠ m then findRowIndex A v tol = .error .invalidArgument
    else
      (∃ p : Nat, findRowIndex A v tol = .ok (p : Int) ∧ p < n ∧
        (∀ j, j < m → |F p j - vecFun v j| ≤ tol) ∧
        ∀ q, q < p → ∃ j, j < m ∧ tol < |F q j - vecFun v j|) ∨
      (findRowIndex A v tol = .ok (-1) ∧
        ∀ q, q < n → ∃ j, j < m ∧ tol < |F q j - vecFun v j|) := by
  obtain ⟨hr, hc, -, -⟩ := id hA
  unfold findRowIndex
  split_ifs with h1 h2 h3
  · rfl
  · omega
  · omega
  · rw [hr]
    obtain ⟨r, e, h⟩ := findRowLoop_ok hA (v := v) (by omega) tol n 0 (by omega)
    rcases h with ⟨p, rfl, -, h4, h5, h6⟩ | ⟨rfl, h4⟩
    · refine Or.inl ⟨p, e, h4, h5, ?_⟩
      intro q hq
      have := h6 q (by omega) hq
      push Not at this
      exact this
    · refine Or.inr ⟨e, ?_⟩
      intro q hq
      have := h4 q (by omega) hq
      push Not at this
      exact this

/-- `isRowInMatrix` says true exactly when some row matches. -/
theorem C49_isRowInMatrix {A : Mat K} {n m : Nat} {F : Nat → Nat → K} (hA : IsMat A n m F)
    (v : List K) (tol : K) :
    ∃ b, isRowInMatrix A v tol = .ok b ∧
      (b = true ↔ v.length = m ∧ ∃ p, p < n ∧ ∀ j, j < m → |F p j - vecFun v j| ≤ tol) := by
  obtain ⟨hr, hc, -, -⟩ := id hA
  unfold isRowInMatrix
  split_ifs with h1
  · exact ⟨false, rfl, by simp; omega⟩
  · rw [hr]
    obtain ⟨r, e, h⟩ := isRowLoop_ok hA (v := v) (by omega) tol n 0 (by omega)
    refine ⟨r, e, h.trans ?_⟩
    constructor
    · rintro ⟨p, -, h2⟩; exact ⟨by omega, p, h2⟩
    · rintro ⟨-, p, h2⟩; exact ⟨p, by omega, h2⟩

/-- The two lookups agree. -/
theorem C49_agree {A : Mat K} {n m : Nat} {F : Nat → Nat → K} (hA : IsMat A n m F)
    {v : List K} (hv : v.length = m) (tol : K) :
    ∃ r b, findRowIndex A v tol = .ok r ∧ isRowInMatrix A v tol = .ok b ∧
      (b = true ↔ r ≠ -1) := by
  have h1 := C49_findRowIndex hA v tol
  rw [if_neg (by omega)] at h1
  obtain ⟨b, h2, h3⟩ := C49_isRowInMatrix hA v tol
  rcases h1 with ⟨p, h4, h5, h6, h7⟩ | ⟨h4, h5⟩
  · exact ⟨p, b, h4, h2, h3.trans ⟨fun _ => by omega, fun _ => ⟨hv, p, h5, h6⟩⟩⟩
  · refine ⟨-1, b, h4, h2, h3.trans ⟨?_, fun h => absurd rfl h⟩⟩
    rintro ⟨-, p, hp, hp'⟩
    obtain ⟨j, hj, hj'⟩ := h5 p hp
    exact absurd (hp' j hj) (not_le.2 hj')

/-- A row taken from the matrix is always found (at its own index or an earlier equal one). -/
theorem C49_own_row {A : Mat K} {n m : Nat} {F : Nat → Nat → K} (hA : IsMat A n m F)
    {i : Nat} (hi : i < n) {tol : K} (ht : 0 ≤ tol) :
    ∃ (v : List K) (p : Nat), getRow A i = .ok v ∧ findRowIndex A v tol = .ok (p : Int) ∧ p ≤ i := by
  refine ⟨(List.range m).map (fun j => F i j), ?_⟩
  have hg := getRow_ok hA (rowIndex := i) hi (Or.inl rfl)
  have h1 := C49_findRowIndex hA ((List.range m).map (fun j => F i j)) tol
  have hmatch : ∀ j, j < m → |F i j - vecFun ((List.range m).map (fun j => F i j)) j| ≤ tol := by
    intro j hj
    have : vecFun ((List.range m).map (fun j => F i j)) j = F i j := by
      simp [vecFun, List.getD, hj]
    rw [this]; simpa using ht
  rw [if_neg (by simp)] at h1
  rcases h1 with ⟨p, h4, h5, h6, h7⟩ | ⟨h4, h5⟩
  · refine ⟨p, hg, h4, ?_⟩
    by_contra hlt
    obtain ⟨j, hj, hj'⟩ := h7 i (by omega)
    exact absurd (hmatch j hj) (not_le.2 hj')
  · obtain ⟨j, hj, hj'⟩ := h5 i hi
    exact absurd (hmatch j hj) (not_le.2 hj')

example : findRowIndex exA [4, 5, 6] (1/10) = .ok 1 ∧ findRowIndex exA [4, 5, 7] (1/10) = .ok (-1) ∧
    isRowInMatrix exA [4, 5, 6] (1/10) = .ok true ∧ isRowInMatrix exA [4, 5] (1/10) = .ok false := by
  decide +kernel

end Rodeo
