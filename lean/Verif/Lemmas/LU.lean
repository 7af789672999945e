import Verif.Model.Solve
import Verif.Lemmas.Rep1
import Verif.Lemmas.MatRead
import Verif.Lemmas.LinAlg

set_option linter.unusedSectionVars false

namespace Rodeo
open Spec

variable {K : Type} [Field K] [LinearOrder K] [IsStrictOrderedRing K]

namespace Mat

theorem luPivotRow_ok {n k : Nat} {lu : List (Option K)} {M : Nat → Nat → K}
    (h : Rep2 lu n n (fun i j => some (M i j))) (hk : k < n) :
    OkP (luPivotRow n k lu)
      (fun r => k ≤ r ∧ r < n ∧ ∀ i, k ≤ i → i < n → |M i k| ≤ |M r k|) := by
  unfold luPivotRow
  refine (loopFrom_inv' (fun q r => k ≤ r ∧ r < q ∧ ∀ i, k ≤ i → i < q → |M i k| ≤ |M r k|)
    (by omega) ?_ ?_).mono ?_
  · refine ⟨le_refl _, by omega, ?_⟩
    intro i h1 h2
    rw [show i = k by omega]
  · rintro q r h1 h2 ⟨h3, h4, h5⟩
    refine bind_okP (h.rd (i := q) (j := k) h2 hk (Nat.add_comm _ _) rfl) ?_
    refine bind_okP (h.rd (i := r) (j := k) (by omega) hk (Nat.add_comm _ _) rfl) ?_
    refine okP_ok ?_
    split_ifs with hc
    · refine ⟨by omega, by omega, ?_⟩
      intro i h6 h7
      by_cases hi : i = q
      · rw [hi]
      · exact (h5 i h6 (by omega)).trans hc.le
    · refine ⟨h3, by omega, ?_⟩
      intro i h6 h7
      by_cases hi : i = q
      · rw [hi]; exact not_lt.1 hc
      · exact h5 i h6 (by omega)
  · rintro r ⟨h1, h2, h3⟩
    exact ⟨h1, h2, h3⟩

theorem luSwap_ok {n k r : Nat} {lu : List (Option K)} {p : List (Option Nat)}
    {M : Nat → Nat → K} {π : Nat → Nat} (h : Rep2 lu n n (fun i j => some (M i j)))
    (hp : Rep1 p n (fun i => some (π i))) (hk : k < n) (hr : r < n) :
    OkP (luSwap n k r lu p) (fun s =>
      Rep2 s.1 n n (fun i j => some (M (swapIdx k r i) j)) ∧
      Rep1 s.2 n (fun i => some (π (swapIdx k r i)))) := by
  unfold luSwap
  by_cases hrk : r = k
  · rw [if_neg (by simpa using hrk)]
    subst hrk
    have : ∀ i, swapIdx r r i = i := by intro i; unfold swapIdx; split_ifs <;> omega
    refine okP_ok ⟨h.congr ?_, hp.congr ?_⟩
    · intros; simp only [this]
    · intros; simp only [this]
  · rw [if_pos hrk]
    refine OkP.bind (okP_for (fun q d => Rep2 d n n (fun i j =>
      if j < q then some (M (swapIdx k r i) j) else some (M i j))) ?_ ?_) ?_
    · exact h.start (by omega)
    · intro q d hq hd
      refine bind_okP (hd.rd (i := k) (j := q) hk hq (Nat.add_comm _ _)
        (by rw [if_neg (lt_irrefl _)])) ?_
      refine bind_okP (hd.rd (i := r) (j := q) hr hq (Nat.add_comm _ _)
        (by rw [if_neg (lt_irrefl _)])) ?_
      obtain ⟨d1, e1, hd1⟩ := hd.wr (v := M r q) hk hq (Nat.add_comm _ _)
      refine bind_okP e1 ?_
      obtain ⟨d2, e2, hd2⟩ := hd1.wr (v := M k q) hr hq (Nat.add_comm _ _)
      refine ⟨d2, e2, hd2.congr ?_⟩
      intro i j hi hj
      unfold swapIdx
      by_cases h1 : i = r ∧ j = q
      · obtain ⟨rfl, rfl⟩ := h1
        simp [hrk]
      · rw [if_neg h1]
        by_cases h2 : i = k ∧ j = q
        · obtain ⟨rfl, rfl⟩ := h2
          simp
        · rw [if_neg h2]
          by_cases h3 : j = q
          · subst h3
            have h4 : ¬ i = r := by tauto
            have h5 : ¬ i = k := by tauto
            simp [h4, h5]
          · by_cases h4 : j < q
            · rw [if_pos h4, if_pos (show j < q + 1 by omega)]
            · rw [if_neg h4, if_neg (show ¬ j < q + 1 by omega)]
    · intro d hd
      refine bind_okP (hp.rd hk rfl) ?_
      refine bind_okP (hp.rd hr rfl) ?_
      refine OkP.bind (hp.wr (v := π r) hk) ?_
      intro p1 hp1
      refine OkP.bind (hp1.wr (v := π k) hr) ?_
      intro p2 hp2
      refine okP_ok ⟨hd.congr ?_, hp2.congr ?_⟩
      · intro i j _ hj; rw [if_pos hj]
      · intro i hi
        unfold swapIdx
        by_cases h1 : i = r
        · subst h1; simp [hrk]
        · by_cases h2 : i = k
          · subst h2; simp [h1]
          · simp [h1, h2]

theorem luEliminate_ok {n k : Nat} {lu : List (Option K)} {M : Nat → Nat → K}
    (h : Rep2 lu n n (fun i j => some (M i j))) (hk : k < n) (hp : M k k ≠ 0) :
    OkP (luEliminate n k lu) (fun d => Rep2 d n n (fun i j => some (elim k M i j))) := by
  unfold luEliminate
  refine OkP.bind (loopFrom_inv' (fun q d => Rep2 d n n (fun i j =>
      if j = k ∧ k < i ∧ i < q then some (M i k / M k k) else some (M i j)))
      (a := k + 1) (b := n) (by omega) ?_ ?_) ?_
  · exact h.start (by omega)
  · intro q d h1 h2 hd
    refine bind_okP (hd.rd (i := q) (j := k) h2 hk (Nat.add_comm _ _)
      (by rw [if_neg (by omega)])) ?_
    refine bind_okP (hd.rd (i := k) (j := k) hk hk (Nat.add_comm _ _)
      (by rw [if_neg (by omega)])) ?_
    refine bind_okP (a := M q k / M k k) (by unfold fdiv; rw [if_neg hp]) ?_
    exact hd.wr_next q k h2 hk (Nat.add_comm _ _) rfl (by omega)
  · intro d hd
    refine (loopFrom_inv' (fun q d => Rep2 d n n (fun i j =>
      if k < i ∧ (j ≤ k ∨ j < q) then some (elim k M i j) else
        if j = k ∧ k < i then some (M i k / M k k) else some (M i j)))
      (a := k + 1) (b := n) (by omega) ?_ ?_).mono ?_
    · refine hd.congr ?_
      intro i j hi hj
      unfold elim
      by_cases hki : k < i
      · rcases lt_trichotomy j k with hjk | hjk | hjk
        · rw [if_neg (by omega), if_pos (by omega), if_pos hki, if_neg (by omega),
            if_neg (by omega)]
        · subst hjk
          rw [if_pos (by omega), if_pos (by omega), if_pos hki, if_pos rfl]
        · rw [if_neg (by omega), if_neg (by omega), if_neg (by omega)]
      · rw [if_neg (by omega), if_neg (by omega), if_neg (by omega)]
    · intro q d h1 h2 hd
      refine (loopFrom_inv' (fun r d => Rep2 d n n (fun i j =>
        if k < i ∧ (j ≤ k ∨ j < q ∨ (j = q ∧ i < r)) then some (elim k M i j) else
          if j = k ∧ k < i then some (M i k / M k k) else some (M i j)))
        (a := k + 1) (b := n) (by omega) ?_ ?_).mono ?_
      · exact hd.cond (by omega)
      · intro r d h3 h4 hd
        refine bind_okP (hd.rd (i := r) (j := q) (v := M r q) h4 h2 (Nat.add_comm _ _)
          (by rw [if_neg (by omega), if_neg (by omega)])) ?_
        refine bind_okP (hd.rd (i := r) (j := k) (v := M r k / M k k) h4 hk (Nat.add_comm _ _)
          (by rw [if_pos (by omega)]; unfold elim; rw [if_pos (by omega), if_pos rfl])) ?_
        refine bind_okP (hd.rd (i := k) (j := q) (v := M k q) hk h2 (Nat.add_comm _ _)
          (by rw [if_neg (by omega), if_neg (by omega)])) ?_
        refine hd.wr_next r q h4 h2 (Nat.add_comm _ _) ?_ (by omega)
        unfold elim
        rw [if_pos (by omega), if_neg (by omega), if_pos (by omega)]
      · intro d hd
        exact hd.cond (by omega)
    · intro d hd
      refine hd.congr ?_
      intro i j hi hj
      by_cases hki : k < i
      · rw [if_pos (by omega)]
      · rw [if_neg (by omega), if_neg (by omega)]
        unfold elim; rw [if_neg hki]

theorem pivotTol_pos : (0 : K) < pivotTol := by unfold pivotTol; positivity

/-- What a call of `lu_decomposition` establishes: either a factorization with pivots above the
tolerance, or a vector with an entry 1 whose image is below the tolerance. -/
def LUOut (n : Nat) (F : Nat → Nat → K) (k : Nat)
    (s : Option (List (Option K) × List (Option Nat))) : Prop :=
  match s with
  | some (lu, p) => ∃ M π, Rep2 lu n n (fun i j => some (M i j)) ∧
      Rep1 p n (fun i => some (π i)) ∧ LUInv n k F π M
  | none => ∃ c, c < n ∧ ∃ x : Nat → K, x c = 1 ∧
      ∀ r, r < n → |∑ j ∈ Finset.range n, F r j * x j| < pivotTol

theorem luStep_ok {n k : Nat} {F M : Nat → Nat → K} {π : Nat → Nat} {lu : List (Option K)}
    {p : List (Option Nat)} (h : Rep2 lu n n (fun i j => some (M i j)))
    (hp : Rep1 p n (fun i => some (π i))) (hinv : LUInv n k F π M) (hk : k < n) :
    OkP (luStep n k lu p) (LUOut n F (k + 1)) := by
  unfold luStep
  refine OkP.bind (luPivotRow_ok h hk) ?_
  rintro r ⟨h1, h2, h3⟩
  refine OkP.bind (luSwap_ok h hp hk h2) ?_
  rintro ⟨lu', p'⟩ ⟨h4, h5⟩
  have hinv' := hinv.swap hk h2 h1
  refine bind_okP (h4.rd (i := k) (j := k) hk hk (Nat.add_comm _ _) rfl) ?_
  have hsk : swapIdx k r k = r := by simp [swapIdx]
  split_ifs with hc
  · refine okP_ok ⟨k, hk, hinv'.stuck hk pivotTol_pos ?_⟩
    intro i hi1 hi2
    refine lt_of_le_of_lt ?_ hc
    rw [hsk]
    refine h3 _ ?_ ?_ <;> unfold swapIdx <;> split_ifs <;> omega
  · have hne : M (swapIdx k r k) k ≠ 0 := by
      intro h0
      rw [h0, abs_zero] at hc
      exact hc pivotTol_pos
    refine OkP.bind (luEliminate_ok h4 hk hne) ?_
    intro lu'' h6
    exact okP_ok ⟨_, _, h6, h5, hinv'.elim hne⟩

theorem luDecomposition_ok {A : Mat K} {n : Nat} {F : Nat → Nat → K} (hA : IsMat A n n F) :
    OkP (luDecomposition A.buf n) (LUOut n F n) := by
  unfold luDecomposition
  refine OkP.bind (okP_for (fun q (s : List (Option K) × List (Option Nat)) =>
      Rep2 s.1 n n (fun i j => if i < q then some (F i j) else none) ∧
      Rep1 s.2 n (fun i => if i < q then some i else none)) ?_ ?_) ?_
  · exact ⟨(rep2_alloc n n).start (by omega), (rep1_alloc n).congr (by simp)⟩
  · rintro q ⟨lu, p⟩ hq ⟨h1, h2⟩
    refine OkP.bind (h2.wr (v := q) hq) ?_
    intro p' hp'
    refine OkP.bind (okP_for (fun r d => Rep2 d n n (fun i j =>
      if i < q ∨ (i = q ∧ j < r) then some (F i j) else none)) ?_ ?_) ?_
    · exact h1.cond (by omega)
    · intro r d hr hd
      refine bind_okP (hA.raw (i := q) (j := r) hq hr (Nat.add_comm _ _)) ?_
      exact hd.wr_next q r hq hr (Nat.add_comm _ _) rfl (by omega)
    · intro d hd
      refine okP_ok ⟨hd.cond (by omega), hp'.congr ?_⟩
      intro i hi
      by_cases h3 : i = q
      · rw [if_pos h3, if_pos (by omega), h3]
      · rw [if_neg h3]
        by_cases h4 : i < q
        · rw [if_pos h4, if_pos (by omega)]
        · rw [if_neg h4, if_neg (by omega)]
  · rintro ⟨lu, p⟩ ⟨h1, h2⟩
    refine okP_for (LUOut n F) ?_ ?_
    · refine ⟨F, fun i => i, h1.done (by omega), h2.congr ?_, LUInv.start n F⟩
      intro i hi; rw [if_pos hi]
    · rintro k (_ | ⟨lu, p⟩) hk hs
      · exact okP_ok hs
      · obtain ⟨M, π, h3, h4, h5⟩ := hs
        exact luStep_ok h3 h4 h5 hk

/-- Result of the public LU factorization. -/
theorem lu_ok {A : Mat K} {n : Nat} {F : Nat → Nat → K} (hA : IsMat A n n F) :
    OkP (lu A) (fun r => match r with
      | some (LU, p) => ∃ M π, IsMat LU n n M ∧ p = (List.range n).map π ∧ LUInv n n F π M
      | none => ∃ c, c < n ∧ ∃ x : Nat → K, x c = 1 ∧
          ∀ r, r < n → |∑ j ∈ Finset.range n, F r j * x j| < pivotTol) := by
  obtain ⟨hr, hc, -, -⟩ := id hA
  unfold lu
  rw [if_neg (by omega), hr, hc]
  refine OkP.bind (luDecomposition_ok hA) ?_
  rintro (_ | ⟨lu, p⟩) hs
  · exact okP_ok hs
  · obtain ⟨M, π, h3, h4, h5⟩ := hs
    refine OkP.bind (okP_freeze h3) ?_
    intro l hl
    refine bind_okP h4.freeze ?_
    exact okP_ok ⟨M, π, hl, rfl, h5⟩

theorem forwardSubstitution_ok {n : Nat} {LU : Mat K} {M : Nat → Nat → K} {π : Nat → Nat}
    {b : List K} (hL : IsMat LU n n M) (hπ : ∀ i, i < n → π i < n) (hb : b.length = n) :
    OkP (forwardSubstitution n LU.buf ((List.range n).map π) b (Mem.alloc n))
      (fun y => ∃ Y : Nat → K, Rep1 y n (fun i => some (Y i)) ∧
        ∀ i, i < n → Y i = vecFun b (π i) - ∑ l ∈ Finset.range i, M i l * Y l) := by
  unfold forwardSubstitution
  refine OkP.bind (okP_for (fun q y => Rep1 y n (fun i =>
      if i < q then some (vecFun b (π i)) else none)) ?_ ?_) ?_
  · exact (rep1_alloc n).congr (by simp)
  · intro q y hq hy
    refine bind_okP (a := π q) (by simp [rawAt, hq]) ?_
    refine bind_okP (a := vecFun b (π q)) ?_ ?_
    · have := hπ q hq
      simp [rawAt, vecFun, hb, this]
    · refine (hy.wr hq).mono ?_
      intro d hd
      refine hd.congr ?_
      intro i hi
      by_cases h3 : i = q
      · rw [if_pos h3, if_pos (by omega), h3]
      · rw [if_neg h3]
        by_cases h4 : i < q
        · rw [if_pos h4, if_pos (by omega)]
        · rw [if_neg h4, if_neg (by omega)]
  · intro y hy
    refine (okP_for (fun q y => ∃ Y : Nat → K, Rep1 y n (fun i => some (Y i)) ∧
      (∀ i, i < q → Y i = vecFun b (π i) - ∑ l ∈ Finset.range i, M i l * Y l) ∧
      (∀ i, q ≤ i → Y i = vecFun b (π i))) ?_ ?_).mono ?_
    · refine ⟨fun i => vecFun b (π i), hy.congr ?_, by omega, fun i _ => rfl⟩
      intro i hi; rw [if_pos hi]
    · rintro q y hq ⟨Y, h1, h2, h3⟩
      refine (okP_for (fun r y => ∃ Z : Nat → K, Rep1 y n (fun i => some (Z i)) ∧
        (∀ i, i ≠ q → Z i = Y i) ∧
        Z q = vecFun b (π q) - ∑ l ∈ Finset.range r, M q l * Y l) ?_ ?_).mono ?_
      · exact ⟨Y, h1, fun _ _ => rfl, by simp [h3 q (le_refl _)]⟩
      · rintro r y hr ⟨Z, h4, h5, h6⟩
        refine bind_okP (h4.rd hq rfl) ?_
        refine bind_okP (hL.raw (i := q) (j := r) hq (by omega) (Nat.add_comm _ _)) ?_
        refine bind_okP (h4.rd (i := r) (by omega) rfl) ?_
        refine (h4.wr hq).mono ?_
        intro d hd
        refine ⟨fun i => if i = q then Z q - M q r * Z r else Z i, hd.congr ?_, ?_, ?_⟩
        · intro i _; dsimp only; split_ifs <;> rfl
        · intro i hi; simp only [if_neg hi]; exact h5 i hi
        · simp only [if_true]
          rw [h6, Finset.sum_range_succ, h5 r (by omega)]; ring
      · rintro d ⟨Z, h4, h5, h6⟩
        refine ⟨Z, h4, ?_, ?_⟩
        · intro i hi
          by_cases hiq : i = q
          · subst hiq
            rw [h6]
            congr 1
            apply Finset.sum_congr rfl
            intro l hl
            rw [Finset.mem_range] at hl
            rw [h5 l (by omega)]
          · rw [h5 i hiq, h2 i (by omega)]
            congr 1
            apply Finset.sum_congr rfl
            intro l hl
            rw [Finset.mem_range] at hl
            rw [h5 l (by omega)]
        · intro i hi
          rw [h5 i (by omega), h3 i (by omega)]
    · rintro y ⟨Y, h1, h2, _⟩
      exact ⟨Y, h1, h2⟩

/-- One row of a triangular sum, the diagonal split off. -/
theorem upper_row_sum {n i : Nat} (hi : i < n) (f : Nat → K) :
    ∑ j ∈ Finset.range n, (if i ≤ j then f j else 0) = f i + ∑ j ∈ Finset.Ico (i + 1) n, f j := by
  rw [← Finset.sum_filter]
  have : (Finset.range n).filter (i ≤ ·) = insert i (Finset.Ico (i + 1) n) := by
    ext a; simp only [Finset.mem_filter, Finset.mem_range, Finset.mem_insert, Finset.mem_Ico]; omega
  rw [this, Finset.sum_insert (by simp)]

theorem backwardSubstitution_ok {n : Nat} {LU : Mat K} {M : Nat → Nat → K} {y : List (Option K)}
    {Y : Nat → K} (hL : IsMat LU n n M) (hd : ∀ i, i < n → M i i ≠ 0)
    (hy : Rep1 y n (fun i => some (Y i))) :
    OkP (backwardSubstitution n LU.buf y (Mem.zeros n))
      (fun x => ∃ X : Nat → K, Rep1 x n (fun i => some (X i)) ∧
        ∀ i, i < n → ∑ j ∈ Finset.range n, (if i ≤ j then M i j * X j else 0) = Y i) := by
  unfold backwardSubstitution
  refine (okP_for (fun t x => ∃ X : Nat → K, Rep1 x n (fun i => some (X i)) ∧
      ∀ i, n - t ≤ i → i < n → ∑ j ∈ Finset.range n, (if i ≤ j then M i j * X j else 0) = Y i)
      ?_ ?_).mono ?_
  · exact ⟨fun _ => 0, rep1_zeros n, by omega⟩
  · rintro t x ht ⟨X, h1, h2⟩
    have hi : n - 1 - t < n := by omega
    simp only []
    generalize hidef : n - 1 - t = i at hi ⊢
    refine bind_okP (hy.rd hi rfl) ?_
    refine OkP.bind (h1.wr (v := Y i) hi) ?_
    intro x1 hx1
    refine OkP.bind (loopFrom_inv' (fun r x => ∃ Z : Nat → K, Rep1 x n (fun a => some (Z a)) ∧
        (∀ a, a ≠ i → Z a = X a) ∧ Z i = Y i - ∑ j ∈ Finset.Ico (i + 1) r, M i j * X j)
        (a := i + 1) (b := n) (by omega) ?_ ?_) ?_
    · refine ⟨fun a => if a = i then Y i else X a, hx1.congr ?_, ?_, by simp⟩
      · intro a _; dsimp only; split_ifs <;> rfl
      · intro a ha; simp only [if_neg ha]
    · rintro r x hr1 hr2 ⟨Z, h4, h5, h6⟩
      refine bind_okP (h4.rd hi rfl) ?_
      refine bind_okP (hL.raw (i := i) (j := r) hi hr2 (Nat.add_comm _ _)) ?_
      refine bind_okP (h4.rd (i := r) hr2 rfl) ?_
      refine (h4.wr hi).mono ?_
      intro d hd
      refine ⟨fun a => if a = i then Z i - M i r * Z r else Z a, hd.congr ?_, ?_, ?_⟩
      · intro a _; dsimp only; split_ifs <;> rfl
      · intro a ha; simp only [if_neg ha]; exact h5 a ha
      · simp only [if_true]
        rw [h6, Finset.sum_Ico_succ_top (by omega), h5 r (by omega)]; ring
    · rintro x2 ⟨Z, h4, h5, h6⟩
      refine bind_okP (h4.rd hi rfl) ?_
      refine bind_okP (hL.raw (i := i) (j := i) hi hi (Nat.add_comm _ _)) ?_
      refine bind_okP (a := Z i / M i i) (by unfold fdiv; rw [if_neg (hd i hi)]) ?_
      refine (h4.wr hi).mono ?_
      intro d hd'
      refine ⟨fun a => if a = i then Z i / M i i else Z a, hd'.congr ?_, ?_⟩
      · intro a _; dsimp only; split_ifs <;> rfl
      · intro a ha1 ha2
        by_cases hai : a = i
        · subst hai
          rw [upper_row_sum hi]
          simp only [if_true]
          have : ∑ j ∈ Finset.Ico (a + 1) n, M a j * (if j = a then Z a / M a a else Z j)
              = ∑ j ∈ Finset.Ico (a + 1) n, M a j * X j := by
            apply Finset.sum_congr rfl
            intro j hj
            rw [Finset.mem_Ico] at hj
            rw [if_neg (by omega), h5 j (by omega)]
          rw [this, mul_div_cancel₀ _ (hd a hi), h6]; ring
        · rw [← h2 a (by omega) ha2]
          apply Finset.sum_congr rfl
          intro j hj
          by_cases haj : a ≤ j
          · rw [if_pos haj, if_pos haj]; dsimp only
            rw [if_neg (by omega), h5 j (by omega)]
          · rw [if_neg haj, if_neg haj]
  · rintro x ⟨X, h1, h2⟩
    exact ⟨X, h1, fun i hi => h2 i (by omega) hi⟩

theorem solveLU_ok {n : Nat} {LU : Mat K} {F M : Nat → Nat → K} {π : Nat → Nat} {b : List K}
    (hL : IsMat LU n n M) (hinv : LUInv n n F π M) (hb : b.length = n) :
    OkP (solveLU LU ((List.range n).map π) b) (fun x => x.length = n ∧
      ∀ i, i < n → ∑ j ∈ Finset.range n, F i j * vecFun x j = vecFun b i) := by
  obtain ⟨hr, hc, -, -⟩ := id hL
  unfold solveLU
  rw [if_neg (by omega), hr]
  refine OkP.bind (forwardSubstitution_ok hL hinv.1 hb) ?_
  rintro y ⟨Y, h1, h2⟩
  refine OkP.bind (backwardSubstitution_ok hL hinv.2.2.1 h1) ?_
  rintro x ⟨X, h3, h4⟩
  refine ⟨_, h3.freeze, by simp, ?_⟩
  intro i hi
  rw [← hinv.solve (b := vecFun b) h2 h4 i hi]
  apply Finset.sum_congr rfl
  intro j hj
  rw [Finset.mem_range] at hj
  congr 1
  simp [vecFun, List.getD, hj]

theorem vecFun_unitVec {n i j : Nat} (hi : i < n) (hj : j < n) :
    vecFun (unitVec n i : List K) j = if j = i then 1 else 0 := by
  unfold vecFun unitVec
  rw [List.getD_eq_getElem?_getD, List.getElem?_set]
  by_cases h : j = i
  · subst h; simp [hi]
  · have : ¬ i = j := fun h' => h h'.symm
    simp [h, this, hj]

theorem invert_ok {A : Mat K} {n : Nat} {F : Nat → Nat → K} (hA : IsMat A n n F) :
    (∃ LU p, lu A = .ok (some (LU, p)) ∧ OkP (invert A) (fun B => ∃ G, IsMat B n n G ∧
      ∀ i j, i < n → j < n → ∑ k ∈ Finset.range n, F i k * G k j = if i = j then 1 else 0)) ∨
    (lu A = .ok none ∧ invert A = .error .runtimeError) := by
  obtain ⟨hr, hc, -, -⟩ := id hA
  obtain ⟨r, h1, h2⟩ := lu_ok hA
  rcases r with _ | ⟨LU, p⟩
  · right
    refine ⟨h1, ?_⟩
    unfold invert
    rw [if_neg (by omega)]
    exact bind_eq h1 rfl
  · left
    obtain ⟨M, π, h3, rfl, h4⟩ := h2
    refine ⟨LU, _, h1, ?_⟩
    unfold invert
    rw [if_neg (by omega), hr]
    refine bind_okP h1 ?_
    have hcol : ∀ i, ∃ x, i < n → solveLU LU ((List.range n).map π) (unitVec n i) = .ok x ∧
        x.length = n ∧
        ∀ a, a < n → ∑ j ∈ Finset.range n, F a j * vecFun x j = if a = i then 1 else 0 := by
      intro i
      by_cases hi : i < n
      · obtain ⟨x, e, hx, hs⟩ := solveLU_ok h3 h4 (b := unitVec n i) (by simp [unitVec])
        refine ⟨x, fun _ => ⟨e, hx, ?_⟩⟩
        intro a ha
        rw [hs a ha, vecFun_unitVec hi ha]
      · exact ⟨[], fun h => absurd h hi⟩
    choose X hX using hcol
    refine OkP.bind (okP_for (fun q d => Rep2 d n n (fun i j =>
      if j < q then some (vecFun (X j) i) else some 0)) ?_ ?_) ?_
    · exact (rep2_zeros n n).start (by omega)
    · intro q d hq hd
      obtain ⟨e1, e2, -⟩ := hX q hq
      refine bind_okP e1 ?_
      refine (okP_for (fun r d => Rep2 d n n (fun i j =>
        if j < q ∨ (j = q ∧ i < r) then some (vecFun (X j) i) else some 0)) ?_ ?_).mono ?_
      · exact hd.cond (by omega)
      · intro r d hr' hd
        refine bind_okP (vat_vecFun (by omega)) ?_
        rw [wrAt_eq hr' hq]
        exact hd.wr_next r q hr' hq rfl rfl (by omega)
      · intro d hd
        exact hd.cond (by omega)
    · intro d hd
      refine OkP.bind (okP_freeze (hd.done (by omega))) ?_
      intro l hl
      refine okP_ok ⟨fun i j => vecFun (X j) i, hl, ?_⟩
      intro i j hi hj
      exact (hX j hj).2.2 i hi

end Mat
end Rodeo
