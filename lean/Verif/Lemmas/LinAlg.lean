import Verif.Lemmas.Basic
import Mathlib.Algebra.BigOperators.Ring.Finset
import Mathlib.Algebra.BigOperators.Intervals
import Mathlib.Algebra.Order.BigOperators.Group.Finset
import Mathlib.Tactic.FieldSimp

/-! Elimination and triangular solves, as pure algebra on index functions. -/

set_option linter.unusedSectionVars false

namespace Rodeo

variable {K : Type} [Field K] [LinearOrder K] [IsStrictOrderedRing K]

open Finset

/-- An upper triangular system with nonzero diagonal has a solution. -/
theorem upper_solve (U : Nat → Nat → K) :
    ∀ (k : Nat), (∀ l, l < k → U l l ≠ 0) → ∀ c : Nat → K,
      ∃ x : Nat → K, ∀ l, l < k → ∑ j ∈ range k, (if l ≤ j then U l j * x j else 0) = c l := by
  intro k
  induction k with
  | zero => intro _ c; exact ⟨fun _ => 0, by omega⟩
  | succ k ih =>
    intro h c
    obtain ⟨x, hx⟩ := ih (fun l hl => h l (by omega)) (fun l => c l - U l k * (c k / U k k))
    refine ⟨fun j => if j = k then c k / U k k else x j, ?_⟩
    intro l hl
    rw [sum_range_succ]
    have hs : ∑ j ∈ range k, (if l ≤ j then U l j * (if j = k then c k / U k k else x j) else 0)
        = ∑ j ∈ range k, (if l ≤ j then U l j * x j else 0) := by
      apply sum_congr rfl
      intro j hj
      rw [mem_range] at hj
      rw [if_neg (show ¬ j = k by omega)]
    rw [hs, if_pos (by omega)]
    simp only [if_true]
    by_cases hlk : l = k
    · subst hlk
      have hz : ∑ j ∈ range l, (if l ≤ j then U l j * x j else 0) = 0 := by
        apply sum_eq_zero
        intro j hj
        rw [mem_range] at hj
        rw [if_neg (by omega)]
      rw [hz, zero_add, mul_div_cancel₀ _ (h l (by omega))]
    · rw [hx l (by omega)]; ring

/-- State of the elimination after `k` columns: rows of `F` reordered by `π` are (strict lower part
of the first `k` columns of `M`, unit diagonal) times (first `k` rows of the upper part), plus
what is left to eliminate. -/
def LUInv (n k : Nat) (F : Nat → Nat → K) (π : Nat → Nat) (M : Nat → Nat → K) : Prop :=
  (∀ i, i < n → π i < n) ∧ (∀ r, r < n → ∃ i, i < n ∧ π i = r) ∧ (∀ l, l < k → M l l ≠ 0) ∧
  ∀ i j, i < n → j < n → F (π i) j =
    (∑ l ∈ range k, (if l < i then M i l else 0) * (if l ≤ j then M l j else 0)) +
      (if j < k ∧ j < i then 0 else M i j)

theorem LUInv.start (n : Nat) (F : Nat → Nat → K) : LUInv n 0 F (fun i => i) F :=
  ⟨fun i hi => hi, fun r hr => ⟨r, hr, rfl⟩, by omega, fun i j _ _ => by simp⟩

/-- Exchange of two indices. -/
def swapIdx (k r i : Nat) : Nat := if i = k then r else if i = r then k else i

theorem LUInv.swap {n k : Nat} {F : Nat → Nat → K} {π : Nat → Nat} {M : Nat → Nat → K}
    (h : LUInv n k F π M) {r : Nat} (hk : k < n) (hr : r < n) (hkr : k ≤ r) :
    LUInv n k F (fun i => π (swapIdx k r i)) (fun i j => M (swapIdx k r i) j) := by
  obtain ⟨h1, h2, h3, h4⟩ := h
  have hs : ∀ i, i < n → swapIdx k r i < n := by intro i hi; unfold swapIdx; split_ifs <;> omega
  have hss : ∀ i, swapIdx k r (swapIdx k r i) = i := by
    intro i; unfold swapIdx; split_ifs <;> omega
  have hlow : ∀ l, l < k → swapIdx k r l = l := by
    intro l hl; unfold swapIdx; split_ifs <;> omega
  have hlt : ∀ l i, l < k → (l < swapIdx k r i ↔ l < i) := by
    intro l i hl; unfold swapIdx; split_ifs <;> omega
  refine ⟨fun i hi => h1 _ (hs i hi), ?_, ?_, ?_⟩
  · intro q hq
    obtain ⟨i, hi, rfl⟩ := h2 q hq
    exact ⟨swapIdx k r i, hs i hi, by simp only [hss]⟩
  · intro l hl
    simp only [hlow l hl]
    exact h3 l hl
  · intro i j hi hj
    rw [h4 _ j (hs i hi) hj]
    congr 1
    · apply sum_congr rfl
      intro l hl
      rw [mem_range] at hl
      simp only [hlow l hl, hlt l i hl]
    · by_cases hjk : j < k
      · simp only [hlt j i hjk]
      · rw [if_neg (by omega), if_neg (by omega)]

/-- The matrix after one elimination round. -/
def elim (k : Nat) (M : Nat → Nat → K) (i j : Nat) : K :=
  if k < i then
    if j = k then M i k / M k k
    else if k < j then M i j - M i k / M k k * M k j else M i j
  else M i j

theorem LUInv.elim {n k : Nat} {F : Nat → Nat → K} {π : Nat → Nat} {M : Nat → Nat → K}
    (h : LUInv n k F π M) (hp : M k k ≠ 0) : LUInv n (k + 1) F π (elim k M) := by
  obtain ⟨h1, h2, h3, h4⟩ := h
  refine ⟨h1, h2, ?_, ?_⟩
  · intro l hl
    unfold Rodeo.elim
    rw [if_neg (by omega)]
    by_cases hlk : l = k
    · subst hlk; exact hp
    · exact h3 l (by omega)
  · intro i j hi hj
    rw [h4 i j hi hj, sum_range_succ, add_assoc]
    congr 1
    · apply sum_congr rfl
      intro l hl
      rw [mem_range] at hl
      congr 1
      · unfold Rodeo.elim
        by_cases hki : k < i
        · rw [if_pos hki, if_neg (show ¬ l = k by omega), if_neg (show ¬ k < l by omega)]
        · rw [if_neg hki]
      · unfold Rodeo.elim
        rw [if_neg (show ¬ k < l by omega)]
    · unfold Rodeo.elim
      by_cases hki : k < i
      · simp only [hki, if_true, lt_irrefl, if_false]
        rcases lt_trichotomy j k with hjk | hjk | hjk
        · rw [if_pos (by omega), if_neg (show ¬ k ≤ j by omega), if_pos (by omega)]; ring
        · subst hjk
          simp only [lt_irrefl, false_and, if_false, le_refl, if_true, Nat.lt_succ_self, hki,
            and_self, add_zero]
          exact (div_mul_cancel₀ _ hp).symm
        · rw [if_neg (by omega), if_pos (show k ≤ j by omega), if_neg (by omega),
            if_neg (show ¬ j = k by omega), if_pos hjk]
          ring
      · rw [if_neg hki, if_neg hki, zero_mul, zero_add]
        by_cases hji : j < i
        · rw [if_pos (by omega), if_pos (by omega)]
        · rw [if_neg (by omega), if_neg (by omega)]

/-- Row sums of the invariant against a vector. -/
theorem LUInv.mulVec {n k : Nat} {F : Nat → Nat → K} {π : Nat → Nat} {M : Nat → Nat → K}
    (h : LUInv n k F π M) (x : Nat → K) {i : Nat} (hi : i < n) :
    ∑ j ∈ range n, F (π i) j * x j =
      (∑ l ∈ range k, (if l < i then M i l else 0) *
        ∑ j ∈ range n, (if l ≤ j then M l j * x j else 0)) +
      ∑ j ∈ range n, (if j < k ∧ j < i then 0 else M i j * x j) := by
  have : ∀ j ∈ range n, F (π i) j * x j =
      (∑ l ∈ range k, (if l < i then M i l else 0) * (if l ≤ j then M l j * x j else 0)) +
      (if j < k ∧ j < i then 0 else M i j * x j) := by
    intro j hj
    rw [mem_range] at hj
    rw [h.2.2.2 i j hi hj, add_mul, sum_mul]
    congr 1
    · apply sum_congr rfl
      intro l _
      split_ifs <;> ring
    · split_ifs <;> ring
  rw [sum_congr rfl this, sum_add_distrib, sum_comm]
  simp only [mul_sum]

/-- A finished factorization, a forward and a backward solution give a solution of the system. -/
theorem LUInv.solve {n : Nat} {F : Nat → Nat → K} {π : Nat → Nat} {M : Nat → Nat → K}
    (h : LUInv n n F π M) {b y x : Nat → K}
    (hy : ∀ i, i < n → y i = b (π i) - ∑ l ∈ range i, M i l * y l)
    (hx : ∀ i, i < n → ∑ j ∈ range n, (if i ≤ j then M i j * x j else 0) = y i) :
    ∀ r, r < n → ∑ j ∈ range n, F r j * x j = b r := by
  intro r hr
  obtain ⟨i, hi, rfl⟩ := h.2.1 r hr
  rw [h.mulVec x hi]
  have h1 : ∑ l ∈ range n, (if l < i then M i l else 0) *
        ∑ j ∈ range n, (if l ≤ j then M l j * x j else 0) = ∑ l ∈ range i, M i l * y l := by
    have e : range i = (range n).filter (· < i) := by
      ext a; simp only [mem_range, mem_filter]; omega
    rw [e, sum_filter]
    apply sum_congr rfl
    intro l hl
    rw [mem_range] at hl
    rw [hx l hl]
    split_ifs <;> ring
  have h2 : ∑ j ∈ range n, (if j < n ∧ j < i then 0 else M i j * x j) = y i := by
    rw [← hx i hi]
    apply sum_congr rfl
    intro j hj
    rw [mem_range] at hj
    by_cases hji : j < i
    · rw [if_pos ⟨hj, hji⟩, if_neg (by omega)]
    · rw [if_neg (by omega), if_pos (by omega)]
  rw [h1, h2, hy i hi]; ring

/-- When the whole remaining column is small, some vector with an entry 1 has a small image. -/
theorem LUInv.stuck {n k : Nat} {F : Nat → Nat → K} {π : Nat → Nat} {M : Nat → Nat → K}
    (h : LUInv n k F π M) (hk : k < n) {tol : K} (ht : 0 < tol)
    (hs : ∀ i, k ≤ i → i < n → |M i k| < tol) :
    ∃ x : Nat → K, x k = 1 ∧ ∀ r, r < n → |∑ j ∈ range n, F r j * x j| < tol := by
  obtain ⟨z, hz⟩ := upper_solve M k h.2.2.1 (fun l => - M l k)
  let x : Nat → K := fun j => if j < k then z j else if j = k then 1 else 0
  have hxk : x k = 1 := by simp [x]
  -- sums over all columns stop at column k
  have hsum : ∀ c : Nat → K, ∑ j ∈ range n, c j * x j = (∑ j ∈ range k, c j * z j) + c k := by
    intro c
    have e : range n = range (k + 1) ∪ (range n).filter (k < ·) := by
      ext a; simp only [mem_range, mem_union, mem_filter]; omega
    have hd : Disjoint (range (k + 1)) ((range n).filter (k < ·)) := by
      rw [Finset.disjoint_left]
      intro a ha hb
      simp only [mem_range, mem_filter] at ha hb
      omega
    rw [e, sum_union hd, sum_range_succ, hxk, mul_one]
    have h0 : ∑ j ∈ (range n).filter (k < ·), c j * x j = 0 := by
      apply sum_eq_zero
      intro j hj
      simp only [mem_range, mem_filter] at hj
      have : x j = 0 := by simp only [x]; rw [if_neg (by omega), if_neg (by omega)]
      rw [this, mul_zero]
    rw [h0, add_zero]
    congr 1
    apply sum_congr rfl
    intro j hj
    rw [mem_range] at hj
    simp only [x, if_pos hj]
  have hrow : ∀ l, l < k → ∑ j ∈ range n, (if l ≤ j then M l j * x j else 0) = 0 := by
    intro l hl
    have e : ∑ j ∈ range n, (if l ≤ j then M l j * x j else 0)
        = ∑ j ∈ range n, (if l ≤ j then M l j else 0) * x j := by
      apply sum_congr rfl; intro j _; split_ifs <;> ring
    rw [e, hsum, if_pos (by omega)]
    have := hz l hl
    have e2 : ∑ j ∈ range k, (if l ≤ j then M l j else 0) * z j
        = ∑ j ∈ range k, (if l ≤ j then M l j * z j else 0) := by
      apply sum_congr rfl; intro j _; split_ifs <;> ring
    rw [e2, this]; ring
  refine ⟨x, hxk, ?_⟩
  intro r hr
  obtain ⟨i, hi, rfl⟩ := h.2.1 r hr
  rw [h.mulVec x hi]
  have h1 : ∑ l ∈ range k, (if l < i then M i l else 0) *
        ∑ j ∈ range n, (if l ≤ j then M l j * x j else 0) = 0 := by
    apply sum_eq_zero
    intro l hl
    rw [mem_range] at hl
    rw [hrow l hl, mul_zero]
  rw [h1, zero_add]
  by_cases hik : i < k
  · have : ∑ j ∈ range n, (if j < k ∧ j < i then 0 else M i j * x j) = 0 := by
      refine (sum_congr rfl ?_).trans (hrow i hik)
      intro j _
      by_cases hji : j < i
      · rw [if_pos (by omega), if_neg (by omega)]
      · rw [if_neg (by omega), if_pos (by omega)]
    rw [this, abs_zero]; exact ht
  · have : ∑ j ∈ range n, (if j < k ∧ j < i then 0 else M i j * x j) = M i k := by
      have e : ∑ j ∈ range n, (if j < k ∧ j < i then 0 else M i j * x j)
          = ∑ j ∈ range n, (if j < k then 0 else M i j) * x j := by
        apply sum_congr rfl
        intro j _
        by_cases hjk : j < k
        · rw [if_pos (by omega), if_pos hjk, zero_mul]
        · rw [if_neg (by omega), if_neg hjk]
      rw [e, hsum]
      have h0 : ∑ j ∈ range k, (if j < k then 0 else M i j) * z j = 0 := by
        apply sum_eq_zero
        intro j hj
        rw [mem_range] at hj
        rw [if_pos hj, zero_mul]
      rw [h0, if_neg (lt_irrefl _), zero_add]
    rw [this]
    exact hs i (by omega) hi

end Rodeo
