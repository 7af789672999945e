import Verif.Lemmas.Mat

set_option linter.unusedSectionVars false

namespace Rodeo
open Spec

variable {K : Type} [Field K] [LinearOrder K] [IsStrictOrderedRing K]

namespace Mat

theorem submat_ok {A : Mat K} {n m : Nat} {F : Nat → Nat → K} (hA : IsMat A n m F)
    {r0 r1 c0 c1 : Nat} (h1 : r0 ≤ r1) (h2 : r1 < n) (h3 : c0 ≤ c1) (h4 : c1 < m) :
    OkP (submat A r0 r1 c0 c1)
      (fun B => IsMat B (r1 - r0 + 1) (c1 - c0 + 1) (fun i j => F (r0 + i) (c0 + j))) := by
  obtain ⟨hr, hc, -, -⟩ := id hA
  unfold submat
  rw [if_neg (by omega), hr]
  refine OkP.bind (okP_for (fun c d => Rep2 d (r1 - r0 + 1) (c1 - c0 + 1) (fun i j =>
      if j < c then some (F (r0 + i) (c0 + j)) else some 0)) ?_ ?_) ?_
  · exact (rep2_zeros _ _).start (by omega)
  · intro c d hc' hd
    refine (okP_for (fun r d => Rep2 d (r1 - r0 + 1) (c1 - c0 + 1) (fun i j =>
      if j < c ∨ (j = c ∧ i < r) then some (F (r0 + i) (c0 + j)) else some 0)) ?_ ?_).mono ?_
    · exact hd.cond (by omega)
    · intro r d hr' hd
      refine bind_okP (hA.raw (i := r0 + r) (j := c0 + c) (by omega) (by omega) rfl) ?_
      rw [wrAt_eq hr' hc']
      exact hd.wr_next r c hr' hc' rfl rfl (by omega)
    · intro d hd
      exact hd.cond (by omega)
  · intro d hd
    refine OkP.bind (okP_freeze (hd.done (by omega))) ?_
    intro l hl
    exact okP_ok hl

theorem resize_ok {A : Mat K} {n m : Nat} {F : Nat → Nat → K} (hA : IsMat A n m F) (r c : Nat) :
    OkP (resize A r c)
      (fun B => IsMat B r c (fun i j => if i < n ∧ j < m then F i j else 0)) := by
  obtain ⟨hr, hc, -, -⟩ := id hA
  unfold resize
  rw [hr, hc]
  refine OkP.bind (okP_for (fun k d => Rep2 d r c (fun i j =>
      if j < k ∧ i < n then some (F i j) else some 0)) ?_ ?_) ?_
  · exact (rep2_zeros _ _).start (by omega)
  · intro k d hk hd
    refine (okP_for (fun q d => Rep2 d r c (fun i j =>
      if (j < k ∧ i < n) ∨ (j = k ∧ i < q) then some (F i j) else some 0)) ?_ ?_).mono ?_
    · exact hd.cond (by omega)
    · intro q d hq hd
      refine bind_okP (hA.raw (i := q) (j := k) (by omega) (by omega) rfl) ?_
      exact hd.wr_next q k (by omega) (by omega) rfl rfl (by omega)
    · intro d hd
      exact hd.cond (by omega)
  · intro d hd
    refine OkP.bind (okP_freeze (G := fun i j => if i < n ∧ j < m then F i j else 0)
      (hd.congr ?_)) ?_
    · intro i j hi hj
      by_cases h : i < n ∧ j < m
      · rw [if_pos (by omega), if_pos h]
      · rw [if_neg (by omega), if_neg h]
    · intro l hl
      exact okP_ok hl

theorem getCol_ok {A : Mat K} {n m : Nat} {F : Nat → Nat → K} (hA : IsMat A n m F)
    {colIndex : Int} {p : Nat} (hp : p < m)
    (h : colIndex = p ∨ (colIndex = -1 ∧ p + 1 = m)) :
    getCol A colIndex = .ok ((List.range n).map (fun i => F i p)) := by
  obtain ⟨hr, hc, -, -⟩ := id hA
  have hpos : (if colIndex = -1 then (A.ncols : Int) - 1 else colIndex) = p := by
    split_ifs <;> omega
  unfold getCol
  rw [if_neg (by omega), if_neg (by omega), hr]
  simp only [hpos]
  apply tab_ok
  intro j hj
  have e : ((p : Int) * (n : Int) + (j : Int)) = ((p * n + j : Nat) : Int) := by push_cast; ring
  unfold rawAtI
  rw [e, if_neg (by omega), Int.toNat_natCast]
  exact hA.raw hj hp rfl

theorem getRow_ok {A : Mat K} {n m : Nat} {F : Nat → Nat → K} (hA : IsMat A n m F)
    {rowIndex : Int} {p : Nat} (hp : p < n)
    (h : rowIndex = p ∨ (rowIndex = -1 ∧ p + 1 = n)) :
    getRow A rowIndex = .ok ((List.range m).map (fun j => F p j)) := by
  obtain ⟨hr, hc, -, -⟩ := id hA
  have hpos : (if rowIndex = -1 then (A.nrows : Int) - 1 else rowIndex) = p := by
    split_ifs <;> omega
  unfold getRow
  rw [if_neg (by omega), if_neg (by omega), hc]
  simp only [hpos]
  apply tab_ok
  intro j hj
  unfold rawAtI
  rw [if_neg (by omega), hr, show (((j * n : Nat) : Int) + (p : Int)).toNat = j * n + p by omega]
  exact hA.raw hp hj rfl

theorem transpose_ok {A : Mat K} {n m : Nat} {F : Nat → Nat → K} (hA : IsMat A n m F) :
    OkP (transpose A) (fun B => IsMat B m n (fun i j => F j i)) := by
  obtain ⟨hr, hc, -, -⟩ := id hA
  unfold transpose
  rw [hr, hc]
  refine OkP.bind (okP_for (fun c d => Rep2 d m n (fun i j =>
      if j < c then some (F j i) else some 0)) ?_ ?_) ?_
  · exact (rep2_zeros _ _).start (by omega)
  · intro c d hc' hd
    refine (okP_for (fun r d => Rep2 d m n (fun i j =>
      if j < c ∨ (j = c ∧ i < r) then some (F j i) else some 0)) ?_ ?_).mono ?_
    · exact hd.cond (by omega)
    · intro r d hr' hd
      refine bind_okP (hA.raw (i := c) (j := r) (by omega) (by omega) rfl) ?_
      exact hd.wr_next r c hr' hc' rfl rfl (by omega)
    · intro d hd
      exact hd.cond (by omega)
  · intro d hd
    refine OkP.bind (okP_freeze (hd.done (by omega))) ?_
    intro l hl
    exact okP_ok hl

theorem concatenateRowWise_ok {A B : Mat K} {n n' m : Nat} {F G : Nat → Nat → K}
    (hA : IsMat A n m F) (hB : IsMat B n' m G) (hn : n ≠ 0) (hn' : n' ≠ 0) :
    OkP (concatenateRowWise A B)
      (fun C => IsMat C (n + n') m (fun i j => if i < n then F i j else G (i - n) j)) := by
  obtain ⟨hr, hc, -, -⟩ := id hA
  obtain ⟨hr', hc', -, -⟩ := id hB
  unfold concatenateRowWise
  rw [if_neg (by omega), if_neg (by omega), if_neg (by omega), hr, hc, hr']
  refine OkP.bind (okP_for (fun c d => Rep2 d (n + n') m (fun i j =>
      if j < c ∧ i < n then some (if i < n then F i j else G (i - n) j) else some 0)) ?_ ?_) ?_
  · exact (rep2_zeros _ _).start (by omega)
  · intro c d hc' hd
    refine (okP_for (fun r d => Rep2 d (n + n') m (fun i j =>
      if (j < c ∧ i < n) ∨ (j = c ∧ i < r) then some (if i < n then F i j else G (i - n) j)
        else some 0)) ?_ ?_).mono ?_
    · exact hd.cond (by omega)
    · intro r d hr' hd
      refine bind_okP (hA.raw (i := r) (j := c) (by omega) (by omega) rfl) ?_
      rw [wrAt_eq (by omega) hc']
      exact hd.wr_next r c (by omega) hc' rfl (by simp [hr']) (by omega)
    · intro d hd
      exact hd.cond (by omega)
  · intro d1 hd1
    refine OkP.bind (okP_for (fun c d => Rep2 d (n + n') m (fun i j =>
      if i < n ∨ j < c then some (if i < n then F i j else G (i - n) j) else some 0)) ?_ ?_) ?_
    · exact hd1.cond (by omega)
    · intro c d hc' hd
      refine (okP_for (fun r d => Rep2 d (n + n') m (fun i j =>
        if i < n ∨ j < c ∨ (j = c ∧ i < n + r) then some (if i < n then F i j else G (i - n) j)
          else some 0)) ?_ ?_).mono ?_
      · exact hd.cond (by omega)
      · intro r d hr' hd
        refine bind_okP (hB.raw (i := r) (j := c) (by omega) (by omega) rfl) ?_
        rw [wrAt_eq (by omega) hc']
        exact hd.wr_next (n + r) c (by omega) hc' rfl (by simp) (by omega)
      · intro d hd
        exact hd.cond (by omega)
    · intro d hd
      refine OkP.bind (okP_freeze (hd.done (by omega))) ?_
      intro l hl
      exact okP_ok hl

theorem concatenateColumnWise_ok {A B : Mat K} {n m m' : Nat} {F G : Nat → Nat → K}
    (hA : IsMat A n m F) (hB : IsMat B n m' G) (hm : m ≠ 0) (hm' : m' ≠ 0) :
    OkP (concatenateColumnWise A B)
      (fun C => IsMat C n (m + m') (fun i j => if j < m then F i j else G i (j - m))) := by
  obtain ⟨hr, hc, -, -⟩ := id hA
  obtain ⟨hr', hc', -, -⟩ := id hB
  unfold concatenateColumnWise
  rw [if_neg (by omega), if_neg (by omega), if_neg (by omega), hr, hc, hc', hr']
  refine OkP.bind (okP_for (fun c d => Rep2 d n (m + m') (fun i j =>
      if j < c then some (if j < m then F i j else G i (j - m)) else some 0)) ?_ ?_) ?_
  · exact (rep2_zeros _ _).start (by omega)
  · intro c d hc' hd
    refine (okP_for (fun r d => Rep2 d n (m + m') (fun i j =>
      if j < c ∨ (j = c ∧ i < r) then some (if j < m then F i j else G i (j - m))
        else some 0)) ?_ ?_).mono ?_
    · exact hd.cond (by omega)
    · intro r d hr' hd
      refine bind_okP (hA.raw (i := r) (j := c) (by omega) (by omega) rfl) ?_
      rw [wrAt_eq (by omega) (by omega)]
      exact hd.wr_next r c (by omega) (by omega) rfl (by simp [hc']) (by omega)
    · intro d hd
      exact hd.cond (by omega)
  · intro d1 hd1
    refine OkP.bind (okP_for (fun c d => Rep2 d n (m + m') (fun i j =>
      if j < m + c then some (if j < m then F i j else G i (j - m)) else some 0)) ?_ ?_) ?_
    · exact hd1.cond (by omega)
    · intro c d hc' hd
      refine (okP_for (fun r d => Rep2 d n (m + m') (fun i j =>
        if j < m + c ∨ (j = m + c ∧ i < r) then some (if j < m then F i j else G i (j - m))
          else some 0)) ?_ ?_).mono ?_
      · exact hd.cond (by omega)
      · intro r d hr' hd
        refine bind_okP (hB.raw (i := r) (j := c) (by omega) (by omega) rfl) ?_
        rw [wrAt_eq (by omega) (by omega)]
        exact hd.wr_next r (m + c) (by omega) (by omega) rfl (by simp) (by omega)
      · intro d hd
        exact hd.cond (by omega)
    · intro d hd
      refine OkP.bind (okP_freeze (hd.done (by omega))) ?_
      intro l hl
      exact okP_ok hl

theorem sumLoop_ok {n : Nat} {f : Nat → Res K} {g : Nat → K} (h : ∀ k, k < n → f k = .ok (g k)) :
    sumLoop n f = .ok (∑ k ∈ Finset.range n, g k) := by
  obtain ⟨s, h1, h2⟩ := forRange_inv (n := n) (s := (0 : K))
    (body := fun k s => do
      let v ← f k
      .ok (s + v))
    (Inv := fun k s => s = ∑ l ∈ Finset.range k, g l) (by simp)
    (by
      rintro k s hk rfl
      exact bind_okP (h k hk) (okP_ok (by rw [Finset.sum_range_succ])))
  rw [← h2]; exact h1

theorem matVecProduct_ok {A : Mat K} {n m : Nat} {F : Nat → Nat → K} (hA : IsMat A n m F)
    {v : List K} (hv : v.length = m) :
    matVecProduct A v
      = .ok ((List.range n).map (fun i => ∑ j ∈ Finset.range m, F i j * vecFun v j)) := by
  obtain ⟨hr, hc, -, -⟩ := id hA
  unfold matVecProduct
  rw [if_neg (by omega), hr, hc]
  apply tab_ok
  intro i hi
  apply sumLoop_ok
  intro j hj
  exact bind_eq (hA.raw hi hj rfl) (bind_eq (vat_vecFun (by omega)) rfl)

theorem matMatProduct_ok {A B : Mat K} {n m q : Nat} {F G : Nat → Nat → K}
    (hA : IsMat A n m F) (hB : IsMat B m q G) :
    OkP (matMatProduct A B)
      (fun C => IsMat C n q (fun i j => ∑ k ∈ Finset.range m, F i k * G k j)) := by
  obtain ⟨hr, hc, -, -⟩ := id hA
  obtain ⟨hr', hc', -, -⟩ := id hB
  unfold matMatProduct
  rw [if_neg (by omega), hr, hc, hr', hc']
  refine OkP.bind (okP_for (fun c d => Rep2 d n q (fun i j =>
      if i < c then some (∑ k ∈ Finset.range m, F i k * G k j) else some 0)) ?_ ?_) ?_
  · exact (rep2_zeros _ _).start (by omega)
  · intro c d hc' hd
    refine (okP_for (fun r d => Rep2 d n q (fun i j =>
      if i < c ∨ (i = c ∧ j < r) then some (∑ k ∈ Finset.range m, F i k * G k j) else some 0))
        ?_ ?_).mono ?_
    · exact hd.cond (by omega)
    · intro r d hr' hd
      refine bind_okP (sumLoop_ok (g := fun k => F c k * G k r) ?_) ?_
      · intro k hk
        exact bind_eq (hA.raw hc' hk rfl) (bind_eq (hB.raw hk hr' rfl) rfl)
      · exact hd.wr_next c r hc' hr' rfl rfl (by omega)
    · intro d hd
      exact hd.cond (by omega)
  · intro d hd
    refine OkP.bind (okP_freeze (hd.done (by omega))) ?_
    intro l hl
    exact okP_ok hl

theorem tab_isMat {n m : Nat} {f : Nat → Res K} {G : Nat → Nat → K}
    (h : ∀ i j, i < n → j < m → f (j * n + i) = .ok (G i j)) :
    OkP (tab (n * m) f) (fun l => IsMat ⟨n, m, l⟩ n m G) := by
  refine ⟨_, tab_ok (g := fun k => G (k % n) (k / n)) ?_, isMat_iff.2 ⟨rfl, rfl, by simp, ?_⟩⟩
  · intro k hk
    obtain ⟨i, j, hi, hj, rfl⟩ := colmajor_split hk
    have h1 : (j * n + i) / n = j := by
      rw [Nat.mul_comm, Nat.mul_add_div (by omega), Nat.div_eq_of_lt hi]; omega
    have h2 : (j * n + i) % n = i := by
      rw [Nat.add_comm, Nat.add_mul_mod_self_right, Nat.mod_eq_of_lt hi]
    rw [h i j hi hj, h1, h2]
  · intro i j hi hj
    have h1 : (j * n + i) / n = j := by
      rw [Nat.mul_comm, Nat.mul_add_div (by omega), Nat.div_eq_of_lt hi]; omega
    have h2 : (j * n + i) % n = i := by
      rw [Nat.add_comm, Nat.add_mul_mod_self_right, Nat.mod_eq_of_lt hi]
    simp [colmajor_lt hi hj, h1, h2]

theorem add_ok {A B : Mat K} {n m : Nat} {F G : Nat → Nat → K} (hA : IsMat A n m F)
    (hB : IsMat B n m G) : OkP (add A B) (fun C => IsMat C n m (fun i j => F i j + G i j)) := by
  obtain ⟨hr, hc, -, -⟩ := id hA
  obtain ⟨hr', hc', -, -⟩ := id hB
  unfold add
  rw [if_neg (by omega), hr, hc]
  refine OkP.bind (tab_isMat (G := fun i j => F i j + G i j) ?_) (fun l hl => okP_ok hl)
  intro i j hi hj
  exact bind_eq (hA.raw hi hj rfl) (bind_eq (hB.raw hi hj rfl) rfl)

theorem sub_ok {A B : Mat K} {n m : Nat} {F G : Nat → Nat → K} (hA : IsMat A n m F)
    (hB : IsMat B n m G) : OkP (sub A B) (fun C => IsMat C n m (fun i j => F i j - G i j)) := by
  obtain ⟨hr, hc, -, -⟩ := id hA
  obtain ⟨hr', hc', -, -⟩ := id hB
  unfold sub
  rw [if_neg (by omega), hr, hc]
  refine OkP.bind (tab_isMat (G := fun i j => F i j - G i j) ?_) (fun l hl => okP_ok hl)
  intro i j hi hj
  exact bind_eq (hA.raw hi hj rfl) (bind_eq (hB.raw hi hj rfl) rfl)

theorem smul_ok {A : Mat K} {n m : Nat} {F : Nat → Nat → K} (hA : IsMat A n m F) (s : K) :
    OkP (smul A s) (fun C => IsMat C n m (fun i j => s * F i j)) := by
  obtain ⟨hr, hc, -, -⟩ := id hA
  unfold smul
  rw [hr, hc]
  refine OkP.bind (tab_isMat (G := fun i j => s * F i j) ?_) (fun l hl => okP_ok hl)
  intro i j hi hj
  exact bind_eq (hA.raw hi hj rfl) rfl

theorem diag_ok {A : Mat K} {n : Nat} {F : Nat → Nat → K} (hA : IsMat A n n F) (hn : n ≠ 0) :
    diag A = .ok ((List.range n).map (fun i => F i i)) := by
  obtain ⟨hr, hc, -, -⟩ := id hA
  unfold diag
  rw [if_neg (by omega), if_neg (by simp [isEmpty]; omega), hr]
  apply tab_ok
  intro i hi
  exact hA.raw hi hi (by ring)

theorem rowMatches_ok {A : Mat K} {n m : Nat} {F : Nat → Nat → K} (hA : IsMat A n m F)
    {v : List K} (hv : v.length = m) (tol : K) {i : Nat} (hi : i < n) :
    rowMatches A v tol i = .ok (decide (∀ j, j < m → |F i j - vecFun v j| ≤ tol)) := by
  obtain ⟨hr, hc, -, -⟩ := id hA
  unfold rowMatches
  rw [hr, hc, noneOf_eq (b := fun j => decide (|F i j - vecFun v j| > tol))]
  · simp
  · intro j hj
    exact bind_eq (hA.raw hi hj rfl) (bind_eq (vat_vecFun (by omega)) rfl)

theorem findRowLoop_ok {A : Mat K} {n m : Nat} {F : Nat → Nat → K} (hA : IsMat A n m F)
    {v : List K} (hv : v.length = m) (tol : K) :
    ∀ k i, i + k = n → OkP (findRowLoop A v tol i k) (fun r =>
      (∃ p : Nat, r = p ∧ i ≤ p ∧ p < n ∧ (∀ j, j < m → |F p j - vecFun v j| ≤ tol) ∧
        ∀ q, i ≤ q → q < p → ¬ ∀ j, j < m → |F q j - vecFun v j| ≤ tol) ∨
      (r = -1 ∧ ∀ q, i ≤ q → q < n → ¬ ∀ j, j < m → |F q j - vecFun v j| ≤ tol)) := by
  intro k
  induction k with
  | zero => intro i hi; exact okP_ok (Or.inr ⟨rfl, by omega⟩)
  | succ k ih =>
    intro i hi
    unfold findRowLoop
    refine bind_okP (rowMatches_ok hA hv tol (by omega)) ?_
    by_cases h : ∀ j, j < m → |F i j - vecFun v j| ≤ tol
    · rw [if_pos (by simpa using h)]
      exact okP_ok (Or.inl ⟨i, rfl, le_refl _, by omega, h, by omega⟩)
    · rw [if_neg (by simpa using h)]
      refine (ih (i + 1) (by omega)).mono ?_
      rintro r (⟨p, h1, h2, h3, h4, h5⟩ | ⟨h1, h2⟩)
      · refine Or.inl ⟨p, h1, by omega, h3, h4, ?_⟩
        intro q hq hq'
        by_cases hqi : q = i
        · subst hqi; exact h
        · exact h5 q (by omega) hq'
      · refine Or.inr ⟨h1, ?_⟩
        intro q hq hq'
        by_cases hqi : q = i
        · subst hqi; exact h
        · exact h2 q (by omega) hq'

theorem isRowLoop_ok {A : Mat K} {n m : Nat} {F : Nat → Nat → K} (hA : IsMat A n m F)
    {v : List K} (hv : v.length = m) (tol : K) :
    ∀ k i, i + k = n → OkP (isRowLoop A v tol i k) (fun r =>
      r = true ↔ ∃ p, i ≤ p ∧ p < n ∧ ∀ j, j < m → |F p j - vecFun v j| ≤ tol) := by
  intro k
  induction k with
  | zero => intro i hi; refine okP_ok ?_; simp; intro p hp hp'; omega
  | succ k ih =>
    intro i hi
    unfold isRowLoop
    refine bind_okP (rowMatches_ok hA hv tol (by omega)) ?_
    by_cases h : ∀ j, j < m → |F i j - vecFun v j| ≤ tol
    · rw [if_pos (by simpa using h)]
      exact okP_ok ⟨fun _ => ⟨i, le_refl _, by omega, h⟩, fun _ => rfl⟩
    · rw [if_neg (by simpa using h)]
      refine (ih (i + 1) (by omega)).mono ?_
      intro r hr
      rw [hr]
      constructor
      · rintro ⟨p, h1, h2⟩; exact ⟨p, by omega, h2⟩
      · rintro ⟨p, h1, h2, h3⟩
        refine ⟨p, ?_, h2, h3⟩
        by_cases hpi : p = i
        · subst hpi; exact absurd h3 h
        · omega

end Mat
end Rodeo
