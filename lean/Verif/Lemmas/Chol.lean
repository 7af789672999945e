import Verif.Lemmas.LU
import Verif.Spec.LinSys

set_option linter.unusedSectionVars false

namespace Rodeo
open Spec

variable {K : Type} [Field K] [LinearOrder K] [IsStrictOrderedRing K]

/-- The call returns with `P`, or has divided by zero, and that only if `Z`. -/
def OkN {α : Type} (Z : Prop) (x : Res α) (P : α → Prop) : Prop :=
  (x = .error .nonFinite ∧ Z) ∨ OkP x P

theorem OkN.bind {α β : Type} {Z : Prop} {x : Res α} {f : α → Res β} {P : α → Prop} {Q : β → Prop}
    (h : OkN Z x P) (h2 : ∀ a, P a → OkN Z (f a) Q) : OkN Z (x >>= f) Q := by
  rcases h with ⟨rfl, hz⟩ | ⟨a, rfl, ha⟩
  · exact Or.inl ⟨rfl, hz⟩
  · exact h2 a ha

theorem bind_okN {α β : Type} {Z : Prop} {x : Res α} {f : α → Res β} {a : α} {Q : β → Prop}
    (h : x = .ok a) (h2 : OkN Z (f a) Q) : OkN Z (x >>= f) Q := by
  subst h; exact h2

theorem OkP.okN {α : Type} {Z : Prop} {x : Res α} {P : α → Prop} (h : OkP x P) : OkN Z x P :=
  Or.inr h

theorem OkN.mono {α : Type} {Z : Prop} {x : Res α} {P Q : α → Prop} (h : OkN Z x P)
    (h2 : ∀ a, P a → Q a) : OkN Z x Q :=
  h.imp id (fun h => h.mono h2)

theorem okN_for {σ : Type} {Z : Prop} {body : Nat → σ → Res σ} (Inv : Nat → σ → Prop) {n : Nat}
    {s : σ} (h0 : Inv 0 s) (hs : ∀ j s, j < n → Inv j s → OkN Z (body j s) (Inv (j + 1))) :
    OkN Z (forRange n body s) (Inv n) := by
  have main : ∀ k i s, Inv i s → i + k ≤ n → OkN Z (loopFrom body i k s) (Inv (i + k)) := by
    intro k
    induction k with
    | zero => intro i s h _; exact Or.inr ⟨s, rfl, h⟩
    | succ k ih =>
      intro i s h hk
      rcases hs i s (by omega) h with ⟨e, hz⟩ | ⟨s', e, h'⟩
      · exact Or.inl ⟨by simp only [loopFrom, e], hz⟩
      · have := ih (i + 1) s' h' (by omega)
        simp only [loopFrom, e]
        rwa [show i + (k + 1) = i + 1 + k by omega]
  have := main n 0 s h0 (by omega)
  rwa [Nat.zero_add] at this

open Finset

theorem sum_range_cut {a n : Nat} (h : a < n) {f : Nat → K} (hf : ∀ j, a < j → f j = 0) :
    ∑ j ∈ range n, f j = ∑ j ∈ range (a + 1), f j := by
  symm
  apply sum_subset
  · intro x; simp only [mem_range]; omega
  · intro x _ hx
    simp only [mem_range] at hx
    exact hf x (by omega)

/-- Equation for entry `(a, b)` of the factor. -/
def CholEq (F G : Nat → Nat → K) (a b : Nat) : Prop :=
  ∑ k ∈ range b, G a k * G b k + G a b * G b b = F a b

/-- Rows below `i` of `G` are a Cholesky factor of those of `F`; all pivots but the last are
known to be nonzero. -/
def CholInv (F G : Nat → Nat → K) (i : Nat) : Prop :=
  ∀ a, a < i → (∀ b, b ≤ a → CholEq F G a b) ∧ 0 ≤ G a a ∧ ∀ b, b < a → G b b ≠ 0

/-- The pivot of column `a` is a value of the quadratic form. -/
theorem chol_pivot {n a : Nat} {F G : Nat → Nat → K} (hF : Symm n F) (ha : a < n)
    (hI : CholInv F G a) (hne : ∀ b, b < a → G b b ≠ 0) (hrow : ∀ b, b < a → CholEq F G a b) :
    ∃ x : Nat → K, x a = 1 ∧
      quadForm n F x = F a a - ∑ k ∈ range a, G a k * G a k := by
  obtain ⟨z, hz⟩ := upper_solve (fun j c => G c j) a (fun l hl => hne l hl) (fun l => G a l)
  let x : Nat → K := fun j => if j < a then - z j else if j = a then 1 else 0
  have hxa : x a = 1 := by simp [x]
  have hx0 : ∀ j, a < j → x j = 0 := by
    intro j hj; simp only [x]; rw [if_neg (by omega), if_neg (by omega)]
  set fac := F a a - ∑ k ∈ range a, G a k * G a k with hfac
  let L : Nat → Nat → K := fun p k => if k ≤ p then G p k else 0
  -- the entries of the leading block
  have hlow : ∀ p q, p ≤ a → q ≤ p → F p q =
      ∑ k ∈ range a, L p k * L q k + (if p = a ∧ q = a then fac else 0) := by
    intro p q hp hq
    by_cases hqa : q = a
    · have hpa : p = a := by omega
      subst hpa; subst hqa
      rw [if_pos ⟨rfl, rfl⟩, hfac]
      have : ∑ k ∈ range q, L q k * L q k = ∑ k ∈ range q, G q k * G q k := by
        apply sum_congr rfl
        intro k hk
        rw [mem_range] at hk
        simp only [L, if_pos (show k ≤ q by omega)]
      rw [this]; ring
    · rw [if_neg (by tauto), add_zero]
      have he : CholEq F G p q := by
        by_cases hpa : p = a
        · subst hpa; exact hrow q (by omega)
        · exact (hI p (by omega)).1 q hq
      unfold CholEq at he
      rw [← he, ← sum_range_succ]
      rw [sum_range_cut (a := q) (n := a) (by omega) (f := fun k => L p k * L q k)
        (by intro j hj; simp only [L]; rw [if_neg (show ¬ j ≤ q by omega), mul_zero])]
      apply sum_congr rfl
      intro k hk
      rw [mem_range] at hk
      simp only [L]
      rw [if_pos (by omega), if_pos (by omega)]
  have hall : ∀ p q, p ≤ a → q ≤ a → F p q =
      ∑ k ∈ range a, L p k * L q k + (if p = a ∧ q = a then fac else 0) := by
    intro p q hp hq
    by_cases hqp : q ≤ p
    · exact hlow p q hp hqp
    · rw [hF p q (by omega) (by omega), hlow q p hq (by omega)]
      congr 1
      · apply sum_congr rfl; intro k _; ring
      · by_cases h : p = a ∧ q = a
        · rw [if_pos h, if_pos h.symm]
        · rw [if_neg h, if_neg (fun h' => h h'.symm)]
  have hcol : ∀ k, k < a → ∑ p ∈ range (a + 1), x p * L p k = 0 := by
    intro k hk
    rw [sum_range_succ, hxa]
    have h1 : ∑ p ∈ range a, x p * L p k = - ∑ p ∈ range a, (if k ≤ p then G p k * z p else 0) := by
      rw [← sum_neg_distrib]
      apply sum_congr rfl
      intro p hp
      rw [mem_range] at hp
      simp only [x, L, if_pos hp]
      split_ifs <;> ring
    rw [h1, hz k hk]
    simp only [L, if_pos (show k ≤ a by omega)]
    ring
  refine ⟨x, hxa, ?_⟩
  unfold quadForm
  rw [sum_range_cut ha (f := fun i => ∑ j ∈ range n, x i * F i j * x j) (by
    intro j hj; simp only [hx0 j hj, zero_mul, sum_const_zero])]
  have hin : ∀ p ∈ range (a + 1), ∑ j ∈ range n, x p * F p j * x j =
      ∑ q ∈ range (a + 1), (∑ k ∈ range a, (x p * L p k) * (x q * L q k) +
        (if p = a ∧ q = a then x p * fac * x q else 0)) := by
    intro p hp
    rw [mem_range] at hp
    rw [sum_range_cut ha (f := fun j => x p * F p j * x j) (by
      intro j hj; simp only [hx0 j hj, mul_zero])]
    apply sum_congr rfl
    intro q hq
    rw [mem_range] at hq
    rw [hall p q (by omega) (by omega), mul_add, add_mul, mul_sum, sum_mul]
    congr 1
    · apply sum_congr rfl; intro k _; ring
    · split_ifs <;> ring
  rw [sum_congr rfl hin]
  simp only [sum_add_distrib]
  have hpart1 : ∑ p ∈ range (a + 1), ∑ q ∈ range (a + 1), ∑ k ∈ range a,
      (x p * L p k) * (x q * L q k) = 0 := by
    have : ∀ p ∈ range (a + 1), ∑ q ∈ range (a + 1), ∑ k ∈ range a,
        (x p * L p k) * (x q * L q k) = 0 := by
      intro p _
      rw [sum_comm]
      apply sum_eq_zero
      intro k hk
      rw [mem_range] at hk
      rw [← mul_sum, hcol k hk, mul_zero]
    exact sum_eq_zero this
  have hpart2 : ∑ p ∈ range (a + 1), ∑ q ∈ range (a + 1),
      (if p = a ∧ q = a then x p * fac * x q else 0) = fac := by
    rw [sum_eq_single a, sum_eq_single a]
    · rw [if_pos ⟨rfl, rfl⟩, hxa]; ring
    · intro q _ hq; rw [if_neg (fun h => hq h.2)]
    · intro h; simp at h
    · intro p _ hp
      apply sum_eq_zero
      intro q _
      rw [if_neg (fun h => hp h.1)]
    · intro h; simp at h
  rw [hpart1, hpart2, zero_add]

/-- Lower triangular form of the factor. -/
def lowerPart (G : Nat → Nat → K) (i j : Nat) : K := if j ≤ i then G i j else 0

theorem chol_product {n : Nat} {F G : Nat → Nat → K} (hF : Symm n F) (hI : CholInv F G n) :
    ∀ i j, i < n → j < n →
      ∑ k ∈ range n, lowerPart G i k * lowerPart G j k = F i j := by
  have hlow : ∀ i j, i < n → j ≤ i →
      ∑ k ∈ range n, lowerPart G i k * lowerPart G j k = F i j := by
    intro i j hi hj
    rw [sum_range_cut (a := j) (n := n) (by omega)
      (f := fun k => lowerPart G i k * lowerPart G j k)
      (by intro k hk; simp only [lowerPart]; rw [if_neg (show ¬ k ≤ j by omega), mul_zero])]
    have := (hI i hi).1 j hj
    unfold CholEq at this
    rw [← this, ← sum_range_succ]
    apply sum_congr rfl
    intro k hk
    rw [mem_range] at hk
    simp only [lowerPart]
    rw [if_pos (by omega), if_pos (by omega)]
  intro i j hi hj
  by_cases h : j ≤ i
  · exact hlow i j hi h
  · rw [hF i j hi hj, ← hlow j i hj (by omega)]
    apply sum_congr rfl
    intro k _; ring

/-- A product `L L^T` is positive semidefinite. -/
theorem quadForm_gram {n : Nat} {F L : Nat → Nat → K}
    (h : ∀ i j, i < n → j < n → ∑ k ∈ range n, L i k * L j k = F i j) (x : Nat → K) :
    quadForm n F x = ∑ k ∈ range n, (∑ i ∈ range n, x i * L i k) ^ 2 := by
  unfold quadForm
  have : ∀ i ∈ range n, ∑ j ∈ range n, x i * F i j * x j =
      ∑ k ∈ range n, (x i * L i k) * ∑ j ∈ range n, x j * L j k := by
    intro i hi
    rw [mem_range] at hi
    simp only [mul_sum]
    rw [sum_comm]
    apply sum_congr rfl
    intro j hj
    rw [mem_range] at hj
    rw [← h i j hi hj, mul_sum, sum_mul]
    apply sum_congr rfl
    intro k _; ring
  rw [sum_congr rfl this, sum_comm]
  apply sum_congr rfl
  intro k _
  rw [← sum_mul, sq]

namespace Mat

theorem choleskyRow_ok {A : Mat K} {n i : Nat} {F G : Nat → Nat → K} {L : List (Option K)}
    {sqrt : K → K} (hs : IsSqrt sqrt) (hA : IsMat A n n F) (hF : Symm n F) (hi : i < n)
    (hL : Rep2 L n n (fun a b => some (G a b))) (hI : CholInv F G i) :
    OkN (∃ x : Nat → K, ∃ a, a < n ∧ x a = 1 ∧ quadForm n F x = 0) (choleskyRow sqrt A.buf n i L)
      (fun s => if s.2 then
          (∃ H : Nat → Nat → K, Rep2 s.1 n n (fun a b => some (H a b))) ∧
          ∃ x : Nat → K, ∃ a, a < n ∧ x a = 1 ∧ quadForm n F x < 0
        else ∃ H : Nat → Nat → K, Rep2 s.1 n n (fun a b => some (H a b)) ∧ CholInv F H (i + 1)) := by
  unfold choleskyRow
  refine (okN_for (fun j (s : List (Option K) × Bool) => if s.2 then
          (∃ H : Nat → Nat → K, Rep2 s.1 n n (fun a b => some (H a b))) ∧
          ∃ x : Nat → K, ∃ a, a < n ∧ x a = 1 ∧ quadForm n F x < 0
        else ∃ H : Nat → Nat → K, Rep2 s.1 n n (fun a b => some (H a b)) ∧ (∀ a b, a ≠ i → H a b = G a b) ∧
          (∀ b, b < j → CholEq F H i b) ∧ (∀ b, b < j → b < i → G b b ≠ 0) ∧
          (i < j → 0 ≤ H i i)) ?_ ?_).mono ?_
  · simp only [Bool.false_eq_true, if_false]
    exact ⟨G, hL, fun _ _ _ => rfl, by omega, by omega, by omega⟩
  · rintro j ⟨d, fl⟩ hj hInv
    cases fl with
    | true =>
      rw [if_pos rfl]
      simp only [if_true] at hInv
      refine OkP.okN (okP_ok ?_)
      simpa using hInv
    | false =>
      simp only [Bool.false_eq_true, if_false] at hInv ⊢
      obtain ⟨H, h1, h2, h3, h4, h5⟩ := hInv
      -- rows above i are unchanged, so the invariant also holds for H
      have hIH : CholInv F H i := by
        intro a ha
        obtain ⟨e1, e2, e3⟩ := hI a ha
        refine ⟨?_, by rw [h2 a a (by omega)]; exact e2, ?_⟩
        · intro b hb
          have := e1 b hb
          unfold CholEq at this ⊢
          rw [← this, h2 a b (by omega), h2 b b (by omega)]
          congr 1
          apply sum_congr rfl
          intro k _
          rw [h2 a k (by omega), h2 b k (by omega)]
        · intro b hb; rw [h2 b b (by omega)]; exact e3 b hb
      refine bind_okN (sumLoop_ok (g := fun k => H i k * H j k) ?_) ?_
      · intro k hk
        refine bind_eq (h1.rd (i := i) (j := k) hi (by omega) (Nat.add_comm _ _) rfl) ?_
        exact bind_eq (h1.rd (i := j) (j := k) (by omega) (by omega) (Nat.add_comm _ _) rfl) rfl
      · split_ifs with hij
        · subst hij
          refine bind_okN (hA.raw (i := i) (j := i) hi hi (Nat.add_comm _ _)) ?_
          have hne : ∀ b, b < i → H b b ≠ 0 := by
            intro b hb; rw [h2 b b (by omega)]; exact h4 b hb hb
          split_ifs with hneg
          · refine (okP_ok ?_).okN
            simp only [if_true]
            obtain ⟨x, hx1, hx2⟩ := chol_pivot hF hi hIH hne h3
            exact ⟨⟨H, h1⟩, x, i, hi, hx1, by rw [hx2]; exact hneg⟩
          · obtain ⟨q1, q2⟩ := hs _ (not_lt.1 hneg)
            refine OkN.bind (OkP.okN (h1.wr (v := sqrt (F i i - ∑ k ∈ range i, H i k * H i k))
              hi hi (Nat.add_comm _ _))) ?_
            intro d' hd'
            refine (okP_ok ?_).okN
            simp only [Bool.false_eq_true, if_false]
            refine ⟨fun a b => if a = i ∧ b = i then
              sqrt (F i i - ∑ k ∈ range i, H i k * H i k) else H a b, hd'.congr ?_, ?_, ?_, ?_, ?_⟩
            · intro a b _ _; dsimp only; split_ifs <;> rfl
            · intro a b ha; dsimp only; rw [if_neg (by tauto), h2 a b ha]
            · intro b hb
              unfold CholEq
              dsimp only
              have hsum : ∀ b, b ≤ i → ∑ k ∈ range b,
                  (if i = i ∧ k = i then sqrt (F i i - ∑ k ∈ range i, H i k * H i k) else H i k) *
                  (if b = i ∧ k = i then sqrt (F i i - ∑ k ∈ range i, H i k * H i k) else H b k)
                  = ∑ k ∈ range b, H i k * H b k := by
                intro b hb
                apply sum_congr rfl
                intro k hk
                rw [mem_range] at hk
                rw [if_neg (by omega), if_neg (by omega)]
              rw [hsum b (by omega)]
              by_cases hbi : b = i
              · subst hbi
                rw [if_pos ⟨rfl, rfl⟩, q2]; ring
              · rw [if_neg (by omega), if_neg (by omega)]
                exact h3 b (by omega)
            · intro b hb1 hb2; exact h4 b hb2 hb2
            · intro _; dsimp only; rw [if_pos ⟨rfl, rfl⟩]; exact q1
        · have hji : j < i := by omega
          refine bind_okN (h1.rd (i := j) (j := j) (by omega) (by omega) (Nat.add_comm _ _) rfl) ?_
          by_cases hzero : H j j = 0
          · -- division by zero
            left
            refine ⟨?_, ?_⟩
            · rw [hzero]
              unfold fdiv
              rw [if_pos rfl]; rfl
            · have hIj : CholInv F H j := fun a ha => hIH a (by omega)
              obtain ⟨x, hx1, hx2⟩ := chol_pivot hF (by omega) hIj (a := j)
                (fun b hb => (hIH j hji).2.2 b hb) (fun b hb => (hIH j hji).1 b hb.le)
              refine ⟨x, j, by omega, hx1, ?_⟩
              rw [hx2]
              have := (hIH j hji).1 j (le_refl _)
              unfold CholEq at this
              rw [← this, hzero]; ring
          · refine bind_okN (a := 1 / H j j) (by unfold fdiv; rw [if_neg hzero]) ?_
            refine bind_okN (hA.raw (i := i) (j := j) hi (by omega) (Nat.add_comm _ _)) ?_
            refine OkN.bind (OkP.okN (h1.wr
              (v := 1 / H j j * (F i j - ∑ k ∈ range j, H i k * H j k))
              hi (by omega) (Nat.add_comm _ _))) ?_
            intro d' hd'
            refine (okP_ok ?_).okN
            simp only [Bool.false_eq_true, if_false]
            refine ⟨fun a b => if a = i ∧ b = j then
              1 / H j j * (F i j - ∑ k ∈ range j, H i k * H j k) else H a b,
              hd'.congr ?_, ?_, ?_, ?_, by omega⟩
            · intro a b _ _; dsimp only; split_ifs <;> rfl
            · intro a b ha; dsimp only; rw [if_neg (by tauto), h2 a b ha]
            · intro b hb
              unfold CholEq
              dsimp only
              have hsum : ∑ k ∈ range b,
                  (if i = i ∧ k = j then 1 / H j j * (F i j - ∑ k ∈ range j, H i k * H j k)
                    else H i k) *
                  (if b = i ∧ k = j then 1 / H j j * (F i j - ∑ k ∈ range j, H i k * H j k)
                    else H b k) = ∑ k ∈ range b, H i k * H b k := by
                apply sum_congr rfl
                intro k hk
                rw [mem_range] at hk
                rw [if_neg (by omega), if_neg (by omega)]
              rw [hsum]
              by_cases hbj : b = j
              · subst hbj
                rw [if_pos ⟨rfl, rfl⟩, if_neg (by omega)]
                field_simp
                ring
              · rw [if_neg (by omega), if_neg (by omega)]
                exact h3 b (by omega)
            · intro b hb1 hb2
              by_cases hbj : b = j
              · subst hbj; rw [← h2 b b (by omega)]; exact hzero
              · exact h4 b (by omega) hb2
  · rintro ⟨d, fl⟩ hInv
    cases fl with
    | true => exact hInv
    | false =>
      simp only [Bool.false_eq_true, if_false] at hInv ⊢
      obtain ⟨H, h1, h2, h3, h4, h5⟩ := hInv
      refine ⟨H, h1, ?_⟩
      intro a ha
      by_cases hai : a = i
      · subst hai
        refine ⟨fun b hb => h3 b (by omega), h5 (by omega), ?_⟩
        intro b hb; rw [h2 b b (by omega)]; exact h4 b (by omega) hb
      · obtain ⟨e1, e2, e3⟩ := hI a (by omega)
        refine ⟨?_, by rw [h2 a a hai]; exact e2, ?_⟩
        · intro b hb
          have := e1 b hb
          unfold CholEq at this ⊢
          rw [← this, h2 a b (by omega), h2 b b (by omega)]
          congr 1
          apply sum_congr rfl
          intro k _
          rw [h2 a k (by omega), h2 b k (by omega)]
        · intro b hb; rw [h2 b b (by omega)]; exact e3 b hb

/-- Outcome of the public Cholesky factorization of a symmetric matrix. -/
theorem cholesky_ok {A : Mat K} {n : Nat} {F : Nat → Nat → K} {sqrt : K → K} (hs : IsSqrt sqrt)
    (hA : IsMat A n n F) (hF : Symm n F) :
    OkN (∃ x : Nat → K, ∃ a, a < n ∧ x a = 1 ∧ quadForm n F x = 0) (cholesky sqrt A)
      (fun r => (r.2 = 1 ∧ ∃ G, IsMat r.1 n n (lowerPart G) ∧ CholInv F G n) ∨
        (r.2 = -1 ∧ ∃ x : Nat → K, ∃ a, a < n ∧ x a = 1 ∧ quadForm n F x < 0)) := by
  obtain ⟨hr, hc, -, -⟩ := id hA
  unfold cholesky
  rw [if_neg (by omega)]
  simp only [hr, hc]
  refine OkN.bind (okN_for (fun i (s : List (Option K) × Bool) => if s.2 then
          (∃ H : Nat → Nat → K, Rep2 s.1 n n (fun a b => some (H a b))) ∧
          ∃ x : Nat → K, ∃ a, a < n ∧ x a = 1 ∧ quadForm n F x < 0
        else ∃ H : Nat → Nat → K, Rep2 s.1 n n (fun a b => some (H a b)) ∧ CholInv F H i) ?_ ?_) ?_
  · simp only [Bool.false_eq_true, if_false]
    exact ⟨fun _ _ => 0, rep2_zeros n n, fun a ha => by omega⟩
  · rintro i ⟨d, fl⟩ hi hInv
    cases fl with
    | true =>
      rw [if_pos rfl]
      simp only [if_true] at hInv
      refine OkP.okN (okP_ok ?_)
      simpa using hInv
    | false =>
      simp only [Bool.false_eq_true, if_false] at hInv ⊢
      obtain ⟨H, h1, h2⟩ := hInv
      exact choleskyRow_ok hs hA hF hi h1 h2
  · rintro ⟨d, fl⟩ hInv
    apply OkP.okN
    cases fl with
    | true =>
      rw [if_pos rfl] at hInv ⊢
      obtain ⟨⟨H, h1⟩, h2⟩ := hInv
      refine OkP.bind (okP_freeze h1) ?_
      intro l _
      exact okP_ok (Or.inr ⟨rfl, h2⟩)
    | false =>
      simp only [Bool.false_eq_true, if_false] at hInv ⊢
      obtain ⟨H, h1, h2⟩ := hInv
      refine OkP.bind (okP_for (fun i d => Rep2 d n n (fun a b =>
        if a < i ∧ a < b then some 0 else some (H a b))) ?_ ?_) ?_
      · exact h1.start (by omega)
      · intro i d hi hd
        refine (loopFrom_inv' (fun j d => Rep2 d n n (fun a b =>
          if (a < i ∧ a < b) ∨ (a = i ∧ a < b ∧ b < j) then some 0 else some (H a b)))
          (a := i + 1) (b := n) (by omega) ?_ ?_).mono ?_
        · exact hd.cond (by omega)
        · intro j d hj1 hj2 hd
          exact hd.wr_next i j hi hj2 rfl rfl (by omega)
        · intro d hd
          exact hd.cond (by omega)
      · intro d hd
        refine OkP.bind (okP_freeze (G := lowerPart H) (hd.congr ?_)) ?_
        · intro a b ha hb
          unfold lowerPart
          by_cases hba : b ≤ a
          · rw [if_neg (by omega), if_pos hba]
          · rw [if_pos (by omega), if_neg hba]
        · intro l hl
          exact okP_ok (Or.inl ⟨rfl, H, hl, h2⟩)

theorem solveCholesky_ok {L : Mat K} {n : Nat} {F G : Nat → Nat → K} {b : List K}
    (hL : IsMat L n n (lowerPart G)) (hF : Symm n F) (hI : CholInv F G n)
    (hd : ∀ i, i < n → G i i ≠ 0) (hb : b.length = n) :
    OkP (solveCholesky L b) (fun x => x.length = n ∧ Solves n F (vecFun x) (vecFun b)) := by
  obtain ⟨hr, hc, -, -⟩ := id hL
  unfold solveCholesky
  rw [if_neg (by omega)]
  simp only [hr]
  refine OkP.bind (okP_for (fun i y => ∃ Y : Nat → K, Rep1 y n (fun a => some (Y a)) ∧
      ∀ a, a < i → ∑ k ∈ range (a + 1), G a k * Y k = vecFun b a) ?_ ?_) ?_
  · exact ⟨fun _ => 0, rep1_zeros n, by omega⟩
  · rintro i y hi ⟨Y, h1, h2⟩
    refine bind_okP (sumLoop_ok (g := fun j => G i j * Y j) ?_) ?_
    · intro j hj
      refine bind_eq (hL.raw (i := i) (j := j) hi (by omega) rfl) ?_
      refine bind_eq (h1.rd (i := j) (by omega) rfl) ?_
      simp only [lowerPart, if_pos (show j ≤ i by omega)]
    · refine bind_okP (vat_vecFun (by omega)) ?_
      refine bind_okP (hL.raw (i := i) (j := i) hi hi rfl) ?_
      refine bind_okP (a := (vecFun b i - ∑ j ∈ range i, G i j * Y j) / G i i) ?_ ?_
      · simp only [lowerPart, if_pos (le_refl i)]
        unfold fdiv; rw [if_neg (hd i hi)]
      · refine (h1.wr hi).mono ?_
        intro d hd'
        refine ⟨fun a => if a = i then (vecFun b i - ∑ j ∈ range i, G i j * Y j) / G i i else Y a,
          hd'.congr ?_, ?_⟩
        · intro a _; dsimp only; split_ifs <;> rfl
        · intro a ha
          rw [sum_range_succ]
          have hsum : ∑ k ∈ range a, G a k * (if k = i then
              (vecFun b i - ∑ j ∈ range i, G i j * Y j) / G i i else Y k)
              = ∑ k ∈ range a, G a k * Y k := by
            apply sum_congr rfl
            intro k hk
            rw [mem_range] at hk
            rw [if_neg (by omega)]
          dsimp only
          rw [hsum]
          by_cases hai : a = i
          · subst hai
            rw [if_pos rfl, mul_div_cancel₀ _ (hd a hi)]; ring
          · rw [if_neg hai, ← sum_range_succ]; exact h2 a (by omega)
  · rintro y ⟨Y, h1, h2⟩
    refine OkP.bind (okP_for (fun t x => ∃ X : Nat → K, Rep1 x n (fun a => some (X a)) ∧
      ∀ a, n - t ≤ a → a < n →
        ∑ j ∈ range n, (if a ≤ j then G j a * X j else 0) = Y a) ?_ ?_) ?_
    · exact ⟨fun _ => 0, rep1_zeros n, by omega⟩
    · rintro t x ht ⟨X, h3, h4⟩
      have hi : n - 1 - t < n := by omega
      generalize hidef : n - 1 - t = i at hi ⊢
      refine OkP.bind (loopFrom_inv' (fun r s => s = ∑ j ∈ Ico (i + 1) r, G j i * X j)
        (a := i + 1) (b := n) (by omega) (by simp) ?_) ?_
      · rintro r s hr1 hr2 rfl
        refine bind_okP (hL.raw (i := r) (j := i) hr2 hi rfl) ?_
        refine bind_okP (h3.rd hr2 rfl) ?_
        refine okP_ok ?_
        rw [sum_Ico_succ_top (by omega)]
        simp only [lowerPart, if_pos (show i ≤ r by omega)]
      · rintro s rfl
        refine bind_okP (h1.rd hi rfl) ?_
        refine bind_okP (hL.raw (i := i) (j := i) hi hi rfl) ?_
        refine bind_okP (a := (Y i - ∑ j ∈ Ico (i + 1) n, G j i * X j) / G i i) ?_ ?_
        · simp only [lowerPart, if_pos (le_refl i)]
          unfold fdiv; rw [if_neg (hd i hi)]
        · refine (h3.wr hi).mono ?_
          intro d hd'
          refine ⟨fun a => if a = i then (Y i - ∑ j ∈ Ico (i + 1) n, G j i * X j) / G i i else X a,
            hd'.congr ?_, ?_⟩
          · intro a _; dsimp only; split_ifs <;> rfl
          · intro a ha1 ha2
            by_cases hai : a = i
            · subst hai
              rw [upper_row_sum hi]
              simp only [if_true]
              have : ∑ j ∈ Ico (a + 1) n, G j a * (if j = a then
                  (Y a - ∑ j ∈ Ico (a + 1) n, G j a * X j) / G a a else X j)
                  = ∑ j ∈ Ico (a + 1) n, G j a * X j := by
                apply sum_congr rfl
                intro j hj
                rw [mem_Ico] at hj
                rw [if_neg (by omega)]
              rw [this, mul_div_cancel₀ _ (hd a hi)]; ring
            · rw [← h4 a (by omega) ha2]
              apply sum_congr rfl
              intro j hj
              by_cases haj : a ≤ j
              · rw [if_pos haj, if_pos haj]; dsimp only
                rw [if_neg (by omega)]
              · rw [if_neg haj, if_neg haj]
    · rintro x ⟨X, h3, h4⟩
      refine ⟨_, h3.freeze, by simp, ?_⟩
      intro i hi
      have e1 : ∑ j ∈ range n, F i j * vecFun ((List.range n).map X) j
          = ∑ j ∈ range n, F i j * X j := by
        apply sum_congr rfl
        intro j hj
        rw [mem_range] at hj
        congr 1
        simp [vecFun, List.getD, hj]
      rw [e1, ← h2 i hi]
      have hp := chol_product hF hI
      have e2 : ∑ j ∈ range n, F i j * X j
          = ∑ j ∈ range n, ∑ k ∈ range n, lowerPart G i k * (lowerPart G j k * X j) := by
        apply sum_congr rfl
        intro j hj
        rw [mem_range] at hj
        rw [← hp i j hi hj, sum_mul]
        apply sum_congr rfl
        intro k _; ring
      have e3 : ∑ k ∈ range (i + 1), G i k * Y k
          = ∑ k ∈ range n, (if k ≤ i then G i k * Y k else 0) := by
        rw [sum_range_cut (a := i) (n := n) hi (f := fun k => if k ≤ i then G i k * Y k else 0)
          (by intro j hj; rw [if_neg (by omega)])]
        apply sum_congr rfl
        intro k hk
        rw [mem_range] at hk
        rw [if_pos (by omega)]
      rw [e2, sum_comm, e3]
      apply sum_congr rfl
      intro k hk
      rw [mem_range] at hk
      rw [← mul_sum]
      have : ∑ j ∈ range n, lowerPart G j k * X j = Y k := by
        rw [← h4 k (by omega) hk]
        apply sum_congr rfl
        intro j _
        simp only [lowerPart]
        split_ifs <;> ring
      rw [this]
      simp only [lowerPart]
      split_ifs <;> ring

end Mat
end Rodeo
