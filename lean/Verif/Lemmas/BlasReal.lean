import Verif.Lemmas.Blas

/-! # A library with the documented behaviour exists

`realBlas` has the documented behaviour over the reals: the vector operations are computed, the results
of the solvers are chosen among those the documentation allows. -/

set_option linter.unusedSectionVars false

namespace Rodeo
open Spec Mat

section generic
variable {K : Type} [Field K] [LinearOrder K] [IsStrictOrderedRing K]

/-- The column major block with leading dimension `ld` of a matrix given by its entries. -/
def blockOf (len ld : Nat) (F : Nat → Nat → K) : List K :=
  (List.range len).map fun q => F (q % ld) (q / ld)

theorem blockOf_length (len ld : Nat) (F : Nat → Nat → K) : (blockOf len ld F).length = len := by
  simp [blockOf]

theorem entry_blockOf {n len ld : Nat} {F : Nat → Nat → K} (hld : n ≤ ld) (hlen : ld * n ≤ len)
    {i j : Nat} (hi : i < n) (hj : j < n) : entry (blockOf len ld F) ld i j = F i j := by
  have h1 : j * ld + i < len := by
    have : (j + 1) * ld ≤ n * ld := Nat.mul_le_mul_right _ hj
    have e : (j + 1) * ld = j * ld + ld := by ring
    have e2 : n * ld = ld * n := Nat.mul_comm _ _
    omega
  have hil : i < ld := by omega
  have h2 : (j * ld + i) % ld = i := by
    rw [Nat.add_comm, Nat.add_mul_mod_self_right, Nat.mod_eq_of_lt hil]
  have h3 : (j * ld + i) / ld = j := by
    rw [Nat.add_comm, Nat.add_mul_div_right _ _ (by omega), Nat.div_eq_of_lt hil, Nat.zero_add]
  simp [entry, blockOf, List.getD, h1, h2, h3]

/-- A vector of given length with given entries. -/
def vecOf (len : Nat) (f : Nat → K) : List K := (List.range len).map f

theorem vecFun_vecOf {len : Nat} {f : Nat → K} {i : Nat} (h : i < len) : vecFun (vecOf len f) i = f i :=
  Corr.vecFun_map f h

theorem vecOf_length (len : Nat) (f : Nat → K) : (vecOf len f).length = len := by simp [vecOf]

theorem exists_solution {n : Nat} {F : Nat → Nat → K} (h : (toMatrix n F).det ≠ 0) {b : List K}
    (hb : n ≤ b.length) : ∃ x : List K, x.length = b.length ∧ Solves n F (vecFun x) (vecFun b) := by
  obtain ⟨x, hx⟩ := exists_solves h (vecFun b)
  refine ⟨vecOf b.length x, vecOf_length _ _, fun i hi => ?_⟩
  rw [← hx i hi]
  exact Finset.sum_congr rfl fun j hj => by
    rw [vecFun_vecOf (by have := Finset.mem_range.1 hj; omega)]

theorem det_lowerTri {n : Nat} {a : List K} {ld : Nat} :
    (toMatrix n (lowerTri a ld)).det = ∏ i ∈ Finset.range n, entry a ld i i := by
  rw [Matrix.det_of_isLowerTriangular, Finset.prod_range]
  · exact Finset.prod_congr rfl fun i _ => by simp [toMatrix, lowerTri]
  · intro i j hij
    have : (i : Nat) < j := hij
    show (if (j : Nat) ≤ i then _ else _) = _
    rw [if_neg (by omega)]

theorem exists_inverse {n : Nat} {F : Nat → Nat → K} (h : (toMatrix n F).det ≠ 0) :
    ∃ G : Nat → Nat → K, ∀ i j, i < n → j < n →
      ∑ k ∈ Finset.range n, F i k * G k j = if i = j then 1 else 0 := by
  choose x hx using fun j : Nat => exists_solves h (fun i => if i = j then 1 else 0)
  exact ⟨fun i j => x j i, fun i j hi _ => hx j i hi⟩

end generic

open Classical in
/-- Some value with the property, if there is one. -/
noncomputable def pick {α : Type} (d : α) (P : α → Prop) : α := if h : ∃ a, P a then h.choose else d

theorem pick_spec {α : Type} {d : α} {P : α → Prop} (h : ∃ a, P a) : P (pick d P) := by
  unfold pick
  rw [dif_pos h]
  exact h.choose_spec

/-- The Cholesky factors allowed by the documentation. -/
def IsFactor (n : Nat) (a : List ℝ) (lda : Nat) (r : List ℝ) : Prop :=
  r.length = a.length ∧ (∀ i, i < n → 0 < entry r lda i i) ∧
    ∀ i j, i < n → j < n → ∑ k ∈ Finset.range n, lowerTri r lda i k * lowerTri r lda j k =
      symTri a lda i j

theorem exists_factor {n : Nat} {a : List ℝ} {lda : Nat} (h1 : n ≤ lda) (h2 : lda * n ≤ a.length)
    (hP : PosDef n (symTri a lda)) : ∃ r, IsFactor n a lda r := by
  have hA : IsMat (⟨n, n, blockOf (n * n) n (symTri a lda)⟩ : Mat ℝ) n n (symTri a lda) :=
    (isMat_entry (blockOf_length _ _ _)).congr fun i j hi hj => entry_blockOf le_rfl le_rfl hi hj
  have hS : Symm n (symTri a lda) := by
    intro i j _ _
    unfold symTri
    rcases lt_trichotomy i j with h | h | h
    · rw [if_neg (by omega), if_pos (by omega)]
    · subst h; rfl
    · rw [if_pos (by omega), if_neg (by omega)]
  obtain ⟨c1, c2, -, -⟩ := C48_partial isSqrt_real hA hS
  obtain ⟨L, G, f1, f2, f3, -⟩ := c1 hP
  obtain ⟨-, H, k1, k2, k3, -⟩ := c2 L f1
  have hGH := (isMat_unique f2 k1).2.2
  refine ⟨blockOf a.length lda H, blockOf_length _ _ _, fun i hi => ?_, fun i j hi hj => ?_⟩
  · rw [entry_blockOf h1 h2 hi hi, ← hGH i i hi hi]; exact f3 i hi
  · have e : ∀ i k, i < n → k < n → lowerTri (blockOf a.length lda H) lda i k = H i k := by
      intro i k hi hk
      unfold lowerTri
      split_ifs with h
      · exact entry_blockOf h1 h2 hi hk
      · exact (k2 i k hi hk (by omega)).symm
    rw [← k3 i j hi hj]
    exact Finset.sum_congr rfl fun k hk => by
      rw [e i k hi (Finset.mem_range.1 hk), e j k hj (Finset.mem_range.1 hk)]

open Classical in
/-- A library with the documented behaviour. -/
noncomputable def realBlas : Blas ℝ where
  dot n x y := ∑ i ∈ Finset.range n, vecFun x i * vecFun y i
  copy n x y := vecOf y.length fun i => if i < n then vecFun x i else vecFun y i
  axpy n a x y := vecOf y.length fun i => if i < n then a * vecFun x i + vecFun y i else vecFun y i
  gemv m n alpha a lda x beta y := vecOf y.length fun i =>
    if i < m then alpha * (∑ j ∈ Finset.range n, entry a lda i j * vecFun x j) + beta * vecFun y i
    else vecFun y i
  gemm _ _ k alpha a lda b ldb beta c ldc := blockOf c.length ldc fun i j =>
    alpha * (∑ l ∈ Finset.range k, entry a lda i l * entry b ldb l j) + beta * entry c ldc i j
  trsv t n a lda x := pick x fun r => r.length = x.length ∧
    Solves n (if t then fun i j => lowerTri a lda j i else lowerTri a lda) (vecFun r) (vecFun x)
  potrf n a lda :=
    if lda < max 1 n then (a, -4)
    else if PosDef n (symTri a lda) then (pick a (IsFactor n a lda), 0) else (a, 1)
  getrf n a lda := (a, List.range n,
    if lda < max 1 n then -4 else if (toMatrix n (entry a lda)).det = 0 then 1 else 0)
  getrs n a lda _ b _ :=
    (pick b fun r => r.length = b.length ∧ Solves n (entry a lda) (vecFun r) (vecFun b), 0)
  getri n a lda _ _ :=
    (pick a fun r => r.length = a.length ∧ ∀ i j, i < n → j < n →
      ∑ k ∈ Finset.range n, entry a lda i k * entry r lda k j = if i = j then 1 else 0, 0)
  gesv n a lda b _ :=
    (pick b fun r => r.length = b.length ∧ Solves n (entry a lda) (vecFun r) (vecFun b),
      if lda < max 1 n then -4 else if (toMatrix n (entry a lda)).det = 0 then 1 else 0)

theorem entry_blockOf_rect {m n len ld : Nat} {F : Nat → Nat → ℝ} (hld : m ≤ ld) (hlen : ld * n ≤ len)
    {i j : Nat} (hi : i < m) (hj : j < n) : entry (blockOf len ld F) ld i j = F i j := by
  have h1 : j * ld + i < len := by
    have : (j + 1) * ld ≤ n * ld := Nat.mul_le_mul_right _ hj
    have e : (j + 1) * ld = j * ld + ld := by ring
    have e2 : n * ld = ld * n := Nat.mul_comm _ _
    omega
  have hil : i < ld := by omega
  have h2 : (j * ld + i) % ld = i := by
    rw [Nat.add_comm, Nat.add_mul_mod_self_right, Nat.mod_eq_of_lt hil]
  have h3 : (j * ld + i) / ld = j := by
    rw [Nat.add_comm, Nat.add_mul_div_right _ _ (by omega), Nat.div_eq_of_lt hil, Nat.zero_add]
  simp [entry, blockOf, List.getD, h1, h2, h3]

theorem realBlas_documented : Documented realBlas where
  dot _ _ _ _ _ := rfl
  copy n x y _ h2 := ⟨vecOf_length _ _, fun i hi => by
    show vecFun (vecOf y.length _) i = _
    rw [vecFun_vecOf (by omega), if_pos hi]⟩
  axpy n a x y _ h2 := ⟨vecOf_length _ _, fun i hi => by
    show vecFun (vecOf y.length _) i = _
    rw [vecFun_vecOf (by omega), if_pos hi]⟩
  gemv m n alpha a lda x beta y _ _ _ _ _ h2 := ⟨vecOf_length _ _, fun i hi => by
    show vecFun (vecOf y.length _) i = _
    rw [vecFun_vecOf (by omega), if_pos hi]⟩
  gemm m n k alpha a lda b ldb beta c ldc _ _ _ _ _ h _ _ h' := by
    have e : realBlas.gemm m n k alpha a lda b ldb beta c ldc = blockOf c.length ldc fun i j =>
        alpha * (∑ l ∈ Finset.range k, entry a lda i l * entry b ldb l j) + beta * entry c ldc i j := rfl
    rw [e]
    exact ⟨blockOf_length _ _ _, fun i j hi hj => entry_blockOf_rect h h' hi hj⟩
  trsv n a lda x _ _ _ h2 hd := by
    have hdet : (toMatrix n (lowerTri a lda)).det ≠ 0 := by
      rw [det_lowerTri]
      exact Finset.prod_ne_zero_iff.2 fun i hi => hd i (Finset.mem_range.1 hi)
    exact pick_spec (exists_solution hdet h2)
  trsvT n a lda x _ _ _ h2 hd := by
    have hdet : (toMatrix n (fun i j => lowerTri a lda j i)).det ≠ 0 := by
      have : toMatrix n (fun i j => lowerTri a lda j i) = (toMatrix n (lowerTri a lda)).transpose := by
        ext i j; rfl
      rw [this, Matrix.det_transpose, det_lowerTri]
      exact Finset.prod_ne_zero_iff.2 fun i hi => hd i (Finset.mem_range.1 hi)
    exact pick_spec (exists_solution hdet h2)
  potrf n a lda hn h1 h2 := by
    have hl : ¬ lda < max 1 n := by omega
    constructor
    · intro hP
      have hf := pick_spec (d := a) (exists_factor h1 h2 hP)
      have e : realBlas.potrf n a lda = (pick a (IsFactor n a lda), 0) := by
        show (if _ then _ else _) = _
        rw [if_neg hl, if_pos hP]
      rw [e]
      exact ⟨rfl, hf.1, hf.2.1, hf.2.2⟩
    · intro hP
      have e : realBlas.potrf n a lda = (a, 1) := by
        show (if _ then _ else _) = _
        rw [if_neg hl, if_neg hP]
      rw [e]
      exact ⟨Int.one_pos, rfl⟩
  getrf n a lda hn h1 h2 := by
    have hl : ¬ lda < max 1 n := by omega
    refine ⟨rfl, by show (List.range n).length = n; simp, fun h => ?_, fun h => ?_⟩
    · show (if _ then _ else _ : Int) = 0
      rw [if_neg hl, if_neg h]
    · show 0 < (if _ then _ else _ : Int)
      rw [if_neg hl, if_pos h]; decide
  getrs n a lda b ldb hn h1 h2 _ h4 h0 := by
    have hdet : (toMatrix n (entry a lda)).det ≠ 0 := by
      intro h
      have hl : ¬ lda < max 1 n := by omega
      have h0 : (if lda < max 1 n then -4 else if (toMatrix n (entry a lda)).det = 0 then 1 else 0 : Int)
        = 0 := h0
      rw [if_neg hl, if_pos h] at h0
      cases h0
    exact ⟨rfl, pick_spec (exists_solution hdet h4)⟩
  getri n a lda lwork hn h1 h2 _ h0 := by
    have hdet : (toMatrix n (entry a lda)).det ≠ 0 := by
      intro h
      have hl : ¬ lda < max 1 n := by omega
      have h0 : (if lda < max 1 n then -4 else if (toMatrix n (entry a lda)).det = 0 then 1 else 0 : Int)
        = 0 := h0
      rw [if_neg hl, if_pos h] at h0
      cases h0
    refine ⟨rfl, ?_⟩
    refine pick_spec (d := a) (P := fun r : List ℝ => r.length = a.length ∧ ∀ i j, i < n → j < n →
      ∑ k ∈ Finset.range n, entry a lda i k * entry r lda k j = if i = j then 1 else 0) ?_
    obtain ⟨G, hG⟩ := exists_inverse hdet
    refine ⟨blockOf a.length lda G, blockOf_length _ _ _, fun i j hi hj => ?_⟩
    rw [← hG i j hi hj]
    exact Finset.sum_congr rfl fun k hk => by rw [entry_blockOf h1 h2 (Finset.mem_range.1 hk) hj]
  gesv n a lda b ldb hn h1 h2 _ h4 := by
    have hl : ¬ lda < max 1 n := by omega
    refine ⟨fun h => ⟨?_, pick_spec (exists_solution h h4)⟩, fun h => ?_⟩
    · show (if _ then _ else _ : Int) = 0
      rw [if_neg hl, if_neg h]
    · show 0 < (if _ then _ else _ : Int)
      rw [if_neg hl, if_pos h]; decide
  illegal n a lda h := by
    have e : realBlas.potrf n a lda = (a, -4) := by
      show (if _ then _ else _) = _
      rw [if_pos h]
    rw [e]
    refine ⟨show (-4 : Int) < 0 by decide, rfl, ?_, fun b ldb => ?_⟩
    · show (if _ then _ else _ : Int) < 0
      rw [if_pos h]; decide
    · show (if _ then _ else _ : Int) < 0
      rw [if_pos h]; decide

end Rodeo
