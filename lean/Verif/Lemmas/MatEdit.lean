import Verif.Lemmas.Mat

set_option linter.unusedSectionVars false

namespace Rodeo
open Spec

variable {K : Type} [Field K] [LinearOrder K] [IsStrictOrderedRing K]

namespace Mat

theorem addRow_ok {A : Mat K} {n m : Nat} {F : Nat → Nat → K} (hA : IsMat A n m F)
    {v : List K} (hv : n = 0 ∨ v.length = m) {position : Int} {p : Nat}
    (hp : p ≤ n) (h : position = p ∨ (position = -1 ∧ p = n)) :
    OkP (addRow A v position) (fun B => IsMat B (n + 1) v.length (insertRow F p (vecFun v))) := by
  obtain ⟨hr, hc, -, -⟩ := id hA
  have hpos : (if position = -1 then (A.nrows : Int) else position) = p := by
    split_ifs <;> omega
  have hcols : (if A.isEmpty then v.length else A.ncols) = v.length := by
    unfold isEmpty
    split_ifs with h1
    · rfl
    · simp only [decide_eq_true_eq, not_or] at h1
      omega
  unfold addRow
  simp only [hpos, hcols, Int.toNat_natCast]
  rw [if_neg (by omega), if_neg (by omega), hr]
  refine OkP.bind (okP_for (fun c d => Rep2 d (n + 1) v.length (fun i j =>
      if j < c then some (insertRow F p (vecFun v) i j) else none)) ?_ ?_) ?_
  · exact (rep2_alloc _ _).start (by omega)
  · intro c d hc' hd
    refine OkP.bind (okP_for (fun r d => Rep2 d (n + 1) v.length (fun i j =>
      if j < c ∨ (j = c ∧ i < r) then some (insertRow F p (vecFun v) i j) else none)) ?_ ?_) ?_
    · exact hd.cond (by omega)
    · intro r d hr' hd
      refine bind_okP (hA.raw (i := r) (j := c) (by omega) (by omega) rfl) ?_
      exact hd.wr_next r c (by omega) hc' rfl (by simp [insertRow, hr']) (by omega)
    · intro d1 hd1
      refine bind_okP (vat_vecFun hc') ?_
      unfold wrI
      rw [if_neg (by omega)]
      refine OkP.bind (hd1.wr_next (c' := fun i j => j < c ∨ (j = c ∧ i < p + 1)) p c (by omega) hc'
        (by omega) (by simp [insertRow]) (by omega)) ?_
      intro d2 hd2
      refine (loopFrom_inv' (fun r d => Rep2 d (n + 1) v.length (fun i j =>
        if j < c ∨ (j = c ∧ i < r + 1) then some (insertRow F p (vecFun v) i j) else none))
          hp hd2 ?_).mono ?_
      · intro r d hr' hr'' hd
        refine bind_okP (hA.raw (i := r) (j := c) (by omega) (by omega) rfl) ?_
        refine hd.wr_next (r + 1) c (by omega) hc' (by omega) ?_ (by omega)
        simp [insertRow, show ¬ (r + 1 < p) by omega, show r + 1 ≠ p by omega]
      · intro d3 hd3
        exact hd3.cond (by omega)
  · intro d hd
    refine OkP.bind (okP_freeze (hd.done (by omega))) ?_
    intro l hl
    exact okP_ok hl

theorem addColumn_ok {A : Mat K} {n m : Nat} {F : Nat → Nat → K} (hA : IsMat A n m F)
    {v : List K} (hv : m = 0 ∨ v.length = n) {position : Int} {p : Nat}
    (hp : p ≤ m) (h : position = p ∨ (position = -1 ∧ p = m)) :
    OkP (addColumn A v position)
      (fun B => IsMat B v.length (m + 1) (insertCol F p (vecFun v))) := by
  obtain ⟨hr, hc, -, -⟩ := id hA
  have hpos : (if position = -1 then (A.ncols : Int) else position) = p := by
    split_ifs <;> omega
  have hrows : (if A.isEmpty then v.length else A.nrows) = v.length := by
    unfold isEmpty
    split_ifs with h1
    · rfl
    · simp only [decide_eq_true_eq, not_or] at h1
      omega
  unfold addColumn
  simp only [hpos, hrows, Int.toNat_natCast]
  rw [if_neg (by omega), if_neg (by omega), hc]
  refine OkP.bind (okP_for (fun c d => Rep2 d v.length (m + 1) (fun i j =>
      if j < c then some (insertCol F p (vecFun v) i j) else none)) ?_ ?_) ?_
  · exact (rep2_alloc _ _).start (by omega)
  · intro c d hc' hd
    refine (okP_for (fun r d => Rep2 d v.length (m + 1) (fun i j =>
      if j < c ∨ (j = c ∧ i < r) then some (insertCol F p (vecFun v) i j) else none)) ?_ ?_).mono ?_
    · exact hd.cond (by omega)
    · intro r d hr' hd
      refine bind_okP (hA.raw (i := r) (j := c) (by omega) (by omega)
        (by rw [show n = v.length by omega])) ?_
      exact hd.wr_next r c (by omega) (by omega) rfl (by simp [insertCol, hc']) (by omega)
    · intro d hd
      exact hd.cond (by omega)
  · intro d1 hd1
    refine OkP.bind (okP_for (fun r d => Rep2 d v.length (m + 1) (fun i j =>
      if j < p ∨ (j = p ∧ i < r) then some (insertCol F p (vecFun v) i j) else none)) ?_ ?_) ?_
    · exact hd1.cond (by omega)
    · intro r d hr' hd
      refine bind_okP (vat_vecFun hr') ?_
      have e : ((p : Int) * (v.length : Int) + (r : Int)) = ((p * v.length + r : Nat) : Int) := by
        push_cast; ring
      unfold wrI
      rw [e, if_neg (by omega), Int.toNat_natCast]
      exact hd.wr_next r p hr' (by omega) rfl (by simp [insertCol]) (by omega)
    · intro d2 hd2
      refine OkP.bind (loopFrom_inv' (fun c d => Rep2 d v.length (m + 1) (fun i j =>
        if j < c + 1 then some (insertCol F p (vecFun v) i j) else none))
          hp (hd2.cond (by omega)) ?_) ?_
      · intro c d hc' hc'' hd
        refine (okP_for (fun r d => Rep2 d v.length (m + 1) (fun i j =>
          if j < c + 1 ∨ (j = c + 1 ∧ i < r) then some (insertCol F p (vecFun v) i j) else none))
            ?_ ?_).mono ?_
        · exact hd.cond (by omega)
        · intro r d hr' hd
          refine bind_okP (hA.raw (i := r) (j := c) (by omega) (by omega)
            (by rw [show n = v.length by omega])) ?_
          refine hd.wr_next r (c + 1) (by omega) (by omega) rfl ?_ (by omega)
          simp [insertCol, show ¬ (c + 1 < p) by omega, show c + 1 ≠ p by omega]
        · intro d hd
          exact hd.cond (by omega)
      · intro d3 hd3
        refine OkP.bind (okP_freeze (hd3.done (by omega))) ?_
        intro l hl
        exact okP_ok hl

theorem deleteRow_ok {A : Mat K} {n m : Nat} {F : Nat → Nat → K} (hA : IsMat A n m F)
    (hn : 2 ≤ n) {rowIndex : Int} {p : Nat} (hp : p < n)
    (h : rowIndex = p ∨ (rowIndex = -1 ∧ p + 1 = n)) :
    OkP (deleteRow A rowIndex) (fun B => IsMat B (n - 1) m (removeRow F p)) := by
  obtain ⟨hr, hc, -, -⟩ := id hA
  have hpos : (if rowIndex = -1 then (A.nrows : Int) - 1 else rowIndex) = p := by
    split_ifs <;> omega
  have hpred : predU32 A.nrows = n - 1 := by
    unfold predU32; rw [if_neg (by omega)]; omega
  unfold deleteRow
  simp only [hpos, hpred, Int.toNat_natCast]
  rw [if_neg (by omega), if_pos (by omega), hr, hc]
  refine OkP.bind (okP_for (fun c d => Rep2 d (n - 1) m (fun i j =>
      if j < c then some (removeRow F p i j) else none)) ?_ ?_) ?_
  · exact (rep2_alloc _ _).start (by omega)
  · intro c d hc' hd
    refine OkP.bind (okP_for (fun r d => Rep2 d (n - 1) m (fun i j =>
      if j < c ∨ (j = c ∧ i < r) then some (removeRow F p i j) else none)) ?_ ?_) ?_
    · exact hd.cond (by omega)
    · intro r d hr' hd
      refine bind_okP (hA.raw (i := r) (j := c) (by omega) (by omega) rfl) ?_
      exact hd.wr_next r c (by omega) hc' rfl (by simp [removeRow, hr']) (by omega)
    · intro d1 hd1
      rw [if_neg (by omega), show ((p : Int) + 1).toNat = p + 1 by omega]
      refine (loopFrom_inv' (fun r d => Rep2 d (n - 1) m (fun i j =>
        if j < c ∨ (j = c ∧ i + 1 < r) then some (removeRow F p i j) else none))
          (by omega) (hd1.cond (by omega)) ?_).mono ?_
      · intro r d hr' hr'' hd
        refine bind_okP (hA.raw (i := r) (j := c) (by omega) (by omega) rfl) ?_
        refine hd.wr_next (r - 1) c (by omega) hc' (by omega) ?_ (by omega)
        simp [removeRow, show ¬ (r - 1 < p) by omega, show r - 1 + 1 = r by omega]
      · intro d3 hd3
        exact hd3.cond (by omega)
  · intro d hd
    refine OkP.bind (okP_freeze (hd.done (by omega))) ?_
    intro l hl
    exact okP_ok hl

theorem setCol_ok {A : Mat K} {n m : Nat} {F : Nat → Nat → K} (hA : IsMat A n m F)
    {v : List K} (hv : v.length = n) {p : Nat} (hp : p < m) :
    OkP (setCol A v p) (fun B => IsMat B n m (fun i j => if j = p then vecFun v i else F i j)) := by
  obtain ⟨hr, hc, hl, hb⟩ := isMat_iff.1 hA
  unfold setCol
  rw [if_neg (by omega), if_neg (by omega), hr, hc]
  refine OkP.bind (okP_for (fun r d => Rep2 d n m (fun i j =>
      if j = p ∧ i < r then some (vecFun v i) else some (F i j))) ?_ ?_) ?_
  · exact (rep2_map_some hl hb).start (by omega)
  · intro r d hr' hd
    refine bind_okP (vat_vecFun (by omega)) ?_
    exact hd.wr_next (T := fun i _ => some (vecFun v i)) r p (by omega) hp rfl rfl (by omega)
  · intro d hd
    refine OkP.bind (okP_freeze (G := fun i j => if j = p then vecFun v i else F i j)
      (hd.congr ?_)) ?_
    · intro i j hi hj
      by_cases hjp : j = p <;> simp [hjp, hi]
    · intro l hl
      exact okP_ok hl

theorem setRow_ok {A : Mat K} {n m : Nat} {F : Nat → Nat → K} (hA : IsMat A n m F)
    {v : List K} (hv : v.length = m) {p : Nat} (hp : p < n) :
    OkP (setRow A v p) (fun B => IsMat B n m (fun i j => if i = p then vecFun v j else F i j)) := by
  obtain ⟨hr, hc, hl, hb⟩ := isMat_iff.1 hA
  unfold setRow
  rw [if_neg (by omega), if_neg (by omega), hr, hc]
  refine OkP.bind (okP_for (fun c d => Rep2 d n m (fun i j =>
      if i = p ∧ j < c then some (vecFun v j) else some (F i j))) ?_ ?_) ?_
  · exact (rep2_map_some hl hb).start (by omega)
  · intro c d hc' hd
    refine bind_okP (vat_vecFun (by omega)) ?_
    exact hd.wr_next (T := fun _ j => some (vecFun v j)) p c hp (by omega) rfl rfl (by omega)
  · intro d hd
    refine OkP.bind (okP_freeze (G := fun i j => if i = p then vecFun v j else F i j)
      (hd.congr ?_)) ?_
    · intro i j hi hj
      by_cases hjp : i = p <;> simp [hjp, hj]
    · intro l hl
      exact okP_ok hl

end Mat
end Rodeo
