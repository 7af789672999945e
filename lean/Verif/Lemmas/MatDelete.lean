import Verif.Lemmas.MatRead
import Mathlib.Data.List.Sort

set_option linter.unusedSectionVars false

namespace Rodeo
open Spec

variable {K : Type} [Field K] [LinearOrder K] [IsStrictOrderedRing K]

namespace Mat

theorem mem_uniqueAdj : ∀ (l : List Int) (a : Int), a ∈ uniqueAdj l ↔ a ∈ l
  | [], _ => Iff.rfl
  | [_], _ => Iff.rfl
  | x :: y :: l, a => by
    have ih := mem_uniqueAdj (y :: l) a
    unfold uniqueAdj
    split_ifs with h
    · rw [ih]; subst h; simp
    · rw [List.mem_cons, ih]; simp [List.mem_cons]

theorem pairwise_uniqueAdj : ∀ (l : List Int), l.Pairwise (· ≤ ·) → (uniqueAdj l).Pairwise (· < ·)
  | [], _ => List.Pairwise.nil
  | [_], _ => List.pairwise_singleton _ _
  | x :: y :: l, h => by
    have h1 : (y :: l).Pairwise (· ≤ ·) := (List.pairwise_cons.1 h).2
    have h2 := (List.pairwise_cons.1 h).1
    have ih := pairwise_uniqueAdj (y :: l) h1
    unfold uniqueAdj
    split_ifs with hxy
    · exact ih
    · refine List.pairwise_cons.2 ⟨?_, ih⟩
      intro a ha
      rw [mem_uniqueAdj] at ha
      have hy : x ≤ y := h2 y (by simp)
      have : y ≤ a := by
        rcases List.mem_cons.1 ha with rfl | ha
        · exact le_refl _
        · exact (List.pairwise_cons.1 h1).1 a ha
      omega

theorem mem_sortedUnique (l : List Int) (a : Int) : a ∈ sortedUnique l ↔ a ∈ l := by
  unfold sortedUnique
  rw [mem_uniqueAdj, List.mem_mergeSort]

theorem pairwise_sortedUnique (l : List Int) : (sortedUnique l).Pairwise (· < ·) := by
  apply pairwise_uniqueAdj
  have := List.pairwise_mergeSort (le := fun (a b : Int) => decide (a ≤ b))
    (by intro a b c; simp; omega) (by intro a b; simp; omega) l
  simpa using this

/-- Rows kept among the first `r`. -/
def kept (S : List Int) (r : Nat) : List Nat :=
  (List.range r).filter (fun (i : Nat) => decide ((i : Int) ∉ S))

theorem kept_succ (S : List Int) (r : Nat) :
    kept S (r + 1) = kept S r ++ (if (r : Int) ∈ S then [] else [r]) := by
  unfold kept
  rw [List.range_succ, List.filter_append]
  congr 1
  by_cases h : (r : Int) ∈ S <;> simp [h]

theorem below_succ {S : List Int} (hS : S.Pairwise (· < ·)) (r : Nat) :
    (S.filter (fun a => decide (a < ((r + 1 : Nat) : Int)))).length
      = (S.filter (fun a => decide (a < (r : Int)))).length + (if (r : Int) ∈ S then 1 else 0) := by
  induction S with
  | nil => simp
  | cons x S ih =>
    obtain ⟨h1, h2⟩ := List.pairwise_cons.1 hS
    have ih := ih h2
    by_cases hx : x = r
    · subst hx
      have e1 : S.filter (fun a => decide (a < ((r + 1 : Nat) : Int))) = [] := by
        rw [List.filter_eq_nil_iff]; intro a ha; have := h1 a ha; simp; omega
      have e2 : S.filter (fun a => decide (a < (r : Int))) = [] := by
        rw [List.filter_eq_nil_iff]; intro a ha; have := h1 a ha; simp; omega
      rw [List.filter_cons, List.filter_cons, e1, e2]
      simp
    · rw [List.filter_cons, List.filter_cons]
      have hmem : ((r : Int) ∈ x :: S) ↔ ((r : Int) ∈ S) := by
        rw [List.mem_cons]
        constructor
        · rintro (h | h)
          · exact absurd h.symm hx
          · exact h
        · exact Or.inr
      by_cases hlt : x < r
      · rw [if_pos (by simp; omega), if_pos (by simpa using hlt)]
        simp only [List.length_cons, ih, hmem]
        omega
      · rw [if_neg (by simp; omega), if_neg (by simpa using hlt), ih]
        simp only [hmem]

theorem kept_below {S : List Int} (hS : S.Pairwise (· < ·)) (hpos : ∀ a ∈ S, 0 ≤ a) (r : Nat) :
    (kept S r).length + (S.filter (fun a => decide (a < (r : Int)))).length = r := by
  induction r with
  | zero =>
    have : S.filter (fun a => decide (a < ((0 : Nat) : Int))) = [] := by
      rw [List.filter_eq_nil_iff]; intro a ha; have := hpos a ha; simp; omega
    rw [this]; rfl
  | succ r ih =>
    rw [below_succ hS, kept_succ, List.length_append]
    split_ifs <;> simp <;> omega

theorem get_below {S : List Int} (hS : S.Pairwise (· < ·)) (r : Int) :
    S[(S.filter (fun a => decide (a < r))).length]? = some r ↔ r ∈ S := by
  constructor
  · intro h; exact List.mem_of_getElem? h
  · induction S with
    | nil => simp
    | cons x S ih =>
      intro h
      obtain ⟨h1, h2⟩ := List.pairwise_cons.1 hS
      rcases List.mem_cons.1 h with rfl | h
      · have e2 : S.filter (fun a => decide (a < r)) = [] := by
          rw [List.filter_eq_nil_iff]; intro a ha; have := h1 a ha; simp; omega
        rw [List.filter_cons, e2]; simp
      · have := h1 r h
        rw [List.filter_cons, if_pos (by simpa using this), List.length_cons]
        simpa using ih h2 h

theorem kept_get {S : List Int} {r n : Nat} (hr : r < n) (h : (r : Int) ∉ S) :
    (kept S n)[(kept S r).length]? = some r := by
  have : ∀ k, r < k → (kept S k)[(kept S r).length]? = some r := by
    intro k
    induction k with
    | zero => intro h; omega
    | succ k ih =>
      intro hk
      rw [kept_succ]
      by_cases hrk : r = k
      · subst hrk
        rw [if_neg h]
        simp
      · have := ih (by omega)
        have hlt : (kept S r).length < (kept S k).length := by
          by_contra hc
          rw [List.getElem?_eq_none (by omega)] at this
          cases this
        rw [List.getElem?_append_left hlt]
        exact this
  exact this n hr

theorem deleteRows_ok {A : Mat K} {n m : Nat} {F : Nat → Nat → K} (hA : IsMat A n m F)
    {rows : List Int} (hne : rows ≠ []) (hlo : ∀ a ∈ rows, 0 ≤ a) (hhi : ∀ a ∈ rows, a < n) :
    OkP (deleteRows A rows) (fun B =>
      (kept rows n = [] ∧ B = empty) ∨
      (kept rows n ≠ [] ∧
        IsMat B (kept rows n).length m (fun i j => F ((kept rows n).getD i 0) j))) := by
  obtain ⟨hr, hc, -, -⟩ := id hA
  have hS := pairwise_sortedUnique rows
  have hmem := mem_sortedUnique rows
  have hkept : ∀ r, kept (sortedUnique rows) r = kept rows r := by
    intro r
    unfold kept
    congr 1
    funext i
    simp [hmem]
  unfold deleteRows
  rw [if_neg hne]
  simp only []
  generalize hSdef : sortedUnique rows = S at hS hmem hkept ⊢
  have hSne : S ≠ [] := by
    intro h
    obtain ⟨a, ha⟩ := List.exists_mem_of_ne_nil rows hne
    have := (hmem a).2 ha
    rw [h] at this; simp at this
  have hlo' : ∀ a ∈ S, 0 ≤ a := fun a ha => hlo a ((hmem a).1 ha)
  have hhi' : ∀ a ∈ S, a < n := fun a ha => hhi a ((hmem a).1 ha)
  rw [List.getLast?_eq_some_getLast hSne, List.head?_eq_some_head hSne]
  have hb := hhi' _ (List.getLast_mem hSne)
  have hf := hlo' _ (List.head_mem hSne)
  have hbelow : S.filter (fun a => decide (a < (n : Int))) = S := by
    rw [List.filter_eq_self]; intro a ha; simpa using hhi' a ha
  have hcount : (kept rows n).length + S.length = n := by
    have := kept_below hS hlo' n
    rw [hbelow, hkept] at this
    exact this
  simp only []
  rw [if_neg (by omega), hr, hc, show n - S.length = (kept rows n).length by omega]
  by_cases h0 : (kept rows n).length = 0
  · rw [if_pos h0]
    exact okP_ok (Or.inl ⟨List.length_eq_zero_iff.1 h0, rfl⟩)
  · rw [if_neg h0]
    refine OkP.bind (okP_for (fun r (s : Nat × Nat × List (Option K)) =>
      s.1 = (kept rows r).length ∧
      s.2.1 = (S.filter (fun a => decide (a < (r : Int)))).length ∧
      Rep2 s.2.2 (kept rows n).length m (fun i j =>
        if i < (kept rows r).length then some (F ((kept rows n).getD i 0) j) else none)) ?_ ?_) ?_
    · refine ⟨rfl, ?_, (rep2_alloc _ _).start (by simp [kept])⟩
      have : S.filter (fun a => decide (a < ((0 : Nat) : Int))) = [] := by
        rw [List.filter_eq_nil_iff]; intro a ha; have := hlo' a ha; simp; omega
      rw [this]; rfl
    · rintro r ⟨a, b, d⟩ hrn ⟨rfl, rfl, hd⟩
      dsimp only at hd ⊢
      have hks := kept_succ S r
      rw [hkept, hkept] at hks
      by_cases hin : (r : Int) ∈ S
      · have hg := (get_below hS (r : Int)).2 hin
        have hlt : (S.filter (fun a => decide (a < (r : Int)))).length < S.length := by
          by_contra hcc
          rw [List.getElem?_eq_none (by omega)] at hg
          cases hg
        rw [if_pos ⟨hlt, hg⟩]
        rw [if_pos hin, List.append_nil] at hks
        refine okP_ok ⟨by rw [hks], ?_, ?_⟩
        · rw [below_succ hS, if_pos hin]
        · rw [hks]; exact hd
      · rw [if_neg (by rintro ⟨-, h⟩; exact hin ((get_below hS (r : Int)).1 h))]
        rw [if_neg hin] at hks
        have hkl : (kept rows (r + 1)).length = (kept rows r).length + 1 := by rw [hks]; simp
        have hget : (kept rows n)[(kept rows r).length]? = some r := by
          have := kept_get (S := S) hrn hin
          rwa [hkept, hkept] at this
        have hlt : (kept rows r).length < (kept rows n).length := by
          by_contra hcc
          rw [List.getElem?_eq_none (by omega)] at hget
          cases hget
        refine OkP.bind (okP_for (fun c d => Rep2 d (kept rows n).length m (fun i j =>
          if i < (kept rows r).length ∨ (i = (kept rows r).length ∧ j < c) then
            some (F ((kept rows n).getD i 0) j) else none)) ?_ ?_) ?_
        · exact hd.cond (by omega)
        · intro c d hcm hd
          refine bind_okP (hA.raw (i := r) (j := c) hrn hcm rfl) ?_
          refine hd.wr_next (kept rows r).length c hlt hcm rfl ?_ (by omega)
          simp [List.getD, hget]
        · intro d hd
          refine okP_ok ⟨by rw [hkl], ?_, ?_⟩
          · rw [below_succ hS, if_neg hin]; rfl
          · exact hd.cond (by rw [hkl]; omega)
    · rintro ⟨a, b, d⟩ ⟨-, -, hd⟩
      refine OkP.bind (okP_freeze (hd.done (by omega))) ?_
      intro l hl
      exact okP_ok (Or.inr ⟨by intro h; rw [h] at h0; simp at h0, hl⟩)

theorem shuffleRows_ok {A : Mat K} {n m : Nat} {F : Nat → Nat → K} (hA : IsMat A n m F)
    {perm : List Nat} (hl : perm.length = n) (hp : ∀ i ∈ perm, i < n) :
    OkP (shuffleRows A perm) (fun B => IsMat B n m (fun i j => F (perm.getD i 0) j)) := by
  obtain ⟨hr, hc, -, -⟩ := id hA
  unfold shuffleRows
  rw [hr, hc]
  refine OkP.bind (okP_for (fun c d => Rep2 d n m (fun i j =>
      if i < c then some (F (perm.getD i 0) j) else none)) ?_ ?_) ?_
  · exact (rep2_alloc _ _).start (by omega)
  · intro c d hc' hd
    refine bind_okP (rawAt_ok_of_lt (v := perm) (i := c) (by omega)) ?_
    have hlt : perm[c]'(by omega) < n := hp _ (List.getElem_mem _)
    refine (okP_for (fun r d => Rep2 d n m (fun i j =>
      if i < c ∨ (i = c ∧ j < r) then some (F (perm.getD i 0) j) else none)) ?_ ?_).mono ?_
    · exact hd.cond (by omega)
    · intro r d hr' hd
      refine bind_okP (hA.raw (i := perm[c]'(by omega)) (j := r) hlt (by omega) rfl) ?_
      exact hd.wr_next c r hc' hr' rfl (by simp [List.getD, show c < perm.length by omega])
        (by omega)
    · intro d hd
      exact hd.cond (by omega)
  · intro d hd
    refine OkP.bind (okP_freeze (hd.done (by omega))) ?_
    intro l hl
    exact okP_ok hl

theorem normalizeMatrix_ok {A : Mat K} {n m : Nat} {F : Nat → Nat → K} (hA : IsMat A n m F)
    {lb ub : List K} (hl : lb.length = m) (hu : ub.length = m) (hm : 0 < m)
    (hlt : ∀ j, j < m → vecFun lb j < vecFun ub j) :
    OkP (normalizeMatrix A lb ub) (fun B => IsMat B n m (fun i j =>
      1 / (m : K) * ((F i j - vecFun lb j) / (vecFun ub j - vecFun lb j)))) := by
  obtain ⟨hr, hc, -, -⟩ := id hA
  unfold normalizeMatrix
  rw [if_neg (by omega), if_neg (by omega)]
  refine bind_okP (noneOf_eq (b := fun j => decide (vecFun lb j ≥ vecFun ub j)) ?_) ?_
  · intro j hj
    exact bind_eq (vat_vecFun (by omega)) (bind_eq (vat_vecFun (by omega)) rfl)
  · rw [if_neg (by simp; intro j hj; exact hlt j (by omega)), hr, hc, hl]
    refine OkP.bind (okP_for (fun c d => Rep2 d n m (fun i j =>
      if i < c then some ((F i j - vecFun lb j) / (vecFun ub j - vecFun lb j)) else some 0))
        ?_ ?_) ?_
    · exact (rep2_zeros _ _).start (by omega)
    · intro c d hc' hd
      refine (okP_for (fun r d => Rep2 d n m (fun i j =>
        if i < c ∨ (i = c ∧ j < r) then some ((F i j - vecFun lb j) / (vecFun ub j - vecFun lb j))
          else some 0)) ?_ ?_).mono ?_
      · exact hd.cond (by omega)
      · intro r d hr' hd
        refine bind_okP (vat_vecFun (by omega)) (bind_okP (vat_vecFun (by omega))
          (bind_okP (hA.raw hc' hr' rfl) ?_))
        have hne : vecFun ub r - vecFun lb r ≠ 0 := by
          have := hlt r hr'; intro h; linarith
        refine bind_okP (a := (F c r - vecFun lb r) / (vecFun ub r - vecFun lb r))
          (by simp [fdiv, hne]) ?_
        rw [wrAt_eq hc' hr']
        exact hd.wr_next c r hc' hr' rfl rfl (by omega)
      · intro d hd
        exact hd.cond (by omega)
    · intro d hd
      refine OkP.bind (okP_freeze (hd.done (by omega))) ?_
      intro l hl
      have hmK : (m : K) ≠ 0 := by exact_mod_cast (by omega : m ≠ 0)
      refine bind_okP (a := 1 / (m : K)) (by simp [fdiv, hmK]) ?_
      obtain ⟨B, h1, h2⟩ := smul_ok hl (1 / (m : K))
      exact ⟨B, h1, h2⟩

end Mat
end Rodeo
