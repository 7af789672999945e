import Verif.Lemmas.DblResid
import Mathlib.Algebra.Order.Chebyshev

/-! # The pivots of a matrix that is positive definite with a margin -/

set_option linter.unusedSectionVars false

namespace Rodeo.Dbl

open Spec Finset

variable {K : Type} [Field K] [LinearOrder K] [IsStrictOrderedRing K] [FloorRing K]

theorem sum_pick {n i j : Nat} (hi : i < n) (hji : j ≤ i) {f : Nat → K}
    (hf : ∀ p, p < n → ¬ p < j → p ≠ i → f p = 0) :
    ∑ p ∈ range n, f p = ∑ p ∈ range (j + 1), f (if p = j then i else p) := by
  rw [sum_range_succ, if_pos rfl]
  have e1 : ∑ p ∈ range j, f (if p = j then i else p) = ∑ p ∈ range j, f p :=
    sum_congr rfl fun p hp => by rw [mem_range] at hp; rw [if_neg (by omega)]
  rw [e1, add_comm, ← sum_insert (by simp; omega)]
  symm
  apply sum_subset
  · intro p hp
    rw [mem_insert, mem_range] at hp
    rw [mem_range]
    omega
  · intro p hp hp2
    rw [mem_insert, mem_range, not_or] at hp2
    rw [mem_range] at hp
    exact hf p hp hp2.2 hp2.1

theorem quadForm_diff {m : Nat} {F F' : Nat → Nat → K} {δ : K} (hδ : 0 ≤ δ)
    (h : ∀ p q, p < m → q < m → |F p q - F' p q| ≤ δ) (x : Nat → K) :
    quadForm m F x ≤ quadForm m F' x + δ * (m * ∑ p ∈ range m, x p ^ 2) := by
  have h1 : quadForm m F x - quadForm m F' x ≤ δ * (∑ p ∈ range m, |x p|) ^ 2 := by
    unfold quadForm
    rw [← sum_sub_distrib, sq, sum_mul_sum, mul_sum]
    refine sum_le_sum fun p hp => ?_
    rw [← sum_sub_distrib, mul_sum]
    refine sum_le_sum fun q hq => ?_
    rw [mem_range] at hp hq
    have e : x p * F p q * x q - x p * F' p q * x q = (F p q - F' p q) * (x p * x q) := by ring
    rw [e]
    refine (le_abs_self _).trans ?_
    rw [abs_mul, abs_mul]
    exact mul_le_mul_of_nonneg_right (h p q hp hq) (by positivity)
  have h2 := sq_sum_le_card_mul_sum_sq (s := range m) (f := fun p => |x p|)
  rw [card_range] at h2
  have e : ∑ p ∈ range m, |x p| ^ 2 = ∑ p ∈ range m, x p ^ 2 := sum_congr rfl fun p _ => sq_abs _
  rw [e] at h2
  have h3 := mul_le_mul_of_nonneg_left h2 hδ
  linarith

theorem schur {n i j : Nat} {F G : Nat → Nat → K} {μ δ : K} (hi : i < n) (hji : j ≤ i) (hsym : Symm n F)
    (hμ : ∀ x : Nat → K, μ * ∑ p ∈ range n, x p ^ 2 ≤ quadForm n F x) (hδ : 0 ≤ δ) (hμδ : n * δ ≤ μ)
    (hrows : ∀ a, a < j → ∀ b, b ≤ a → |F a b - ∑ k ∈ range (b + 1), G a k * G b k| ≤ δ)
    (hdiag : ∀ a, a < j → 0 < G a a)
    (hrow : ∀ b, b < j → |F i b - ∑ k ∈ range (b + 1), G i k * G b k| ≤ δ) :
    μ - n * δ ≤ F i i - ∑ k ∈ range j, G i k * G i k := by
  let σ : Nat → Nat := fun p => if p = j then i else p
  let H : Nat → Nat → K := fun p k => G (σ p) k
  let F' : Nat → Nat → K := fun p q => if p = j ∧ q = j then F i i else
    if q ≤ p then ∑ k ∈ range (q + 1), H p k * H q k else ∑ k ∈ range (p + 1), H q k * H p k
  have hσj : σ j = i := if_pos rfl
  have hσ : ∀ p, p < j → σ p = p := fun p hp => if_neg (by omega)
  have hsym' : Symm (j + 1) F' := by
    intro p q _ _
    simp only [F']
    by_cases h : p = j ∧ q = j
    · rw [if_pos h, if_pos h.symm]
    · rw [if_neg h, if_neg (show ¬ (q = j ∧ p = j) from fun h' => h ⟨h'.2, h'.1⟩)]
      rcases lt_trichotomy p q with h1 | h1 | h1
      · rw [if_neg (by omega), if_pos (by omega)]
      · subst h1; rfl
      · rw [if_pos (by omega), if_neg (by omega)]
  have hlow : ∀ p q, q ≤ p → ¬ (p = j ∧ q = j) → CholEq F' H p q := by
    intro p q hq hne
    unfold CholEq
    simp only [F']
    rw [if_neg hne, if_pos hq, sum_range_succ]
  have hI : CholInv F' H j := by
    intro a ha
    refine ⟨fun b hb => hlow a b hb (by omega), ?_, ?_⟩
    · simp only [H, hσ a ha]; exact (hdiag a ha).le
    · intro b hb
      simp only [H, hσ b (by omega)]
      exact (hdiag b (by omega)).ne'
  obtain ⟨x, hx1, hx2⟩ := chol_pivot hsym' (Nat.lt_succ_self j) hI
    (fun b hb => by simp only [H, hσ b hb]; exact (hdiag b hb).ne')
    (fun b hb => hlow j b hb.le (by omega))
  have e1 : F' j j = F i i := if_pos ⟨rfl, rfl⟩
  have e2 : ∑ k ∈ range j, H j k * H j k = ∑ k ∈ range j, G i k * G i k := by simp only [H, hσj]
  rw [e1, e2] at hx2
  -- the vector of the large matrix
  let y : Nat → K := fun q => if q = i then x j else if q < j then x q else 0
  have hy : ∀ p, p < j + 1 → y (σ p) = x p := by
    intro p hp
    by_cases h : p = j
    · subst h; rw [hσj]; exact if_pos rfl
    · rw [hσ p (by omega)]
      simp only [y]
      rw [if_neg (by omega), if_pos (by omega)]
  have hy0 : ∀ p, p < n → ¬ p < j → p ≠ i → y p = 0 := by
    intro p _ h1 h2
    simp only [y]; rw [if_neg h2, if_neg h1]
  have q1 : ∑ p ∈ range n, y p ^ 2 = ∑ p ∈ range (j + 1), x p ^ 2 := by
    rw [sum_pick hi hji (f := fun p => y p ^ 2) (by
      intro p h1 h2 h3
      have := hy0 p h1 h2 h3
      rw [this]; ring)]
    exact sum_congr rfl fun p hp => by
      rw [mem_range] at hp
      exact congrArg (· ^ 2) (hy p hp)
  have q2 : quadForm n F y = quadForm (j + 1) (fun p q => F (σ p) (σ q)) x := by
    unfold quadForm
    rw [sum_pick hi hji (f := fun p => ∑ q ∈ range n, y p * F p q * y q) (by
      intro p h1 h2 h3
      have := hy0 p h1 h2 h3
      rw [this]
      exact sum_eq_zero fun q _ => by ring)]
    refine sum_congr rfl fun p hp => ?_
    rw [mem_range] at hp
    rw [sum_pick hi hji (f := fun q => y (if p = j then i else p) * F (if p = j then i else p) q * y q) (by
      intro q h1 h2 h3
      have := hy0 q h1 h2 h3
      rw [this]; ring)]
    refine sum_congr rfl fun q hq => ?_
    rw [mem_range] at hq
    have a1 := hy p hp
    have a2 := hy q hq
    simp only [σ] at a1 a2 ⊢
    rw [a1, a2]
  -- the entries
  have q3 : ∀ p q, p < j + 1 → q < j + 1 → |F (σ p) (σ q) - F' p q| ≤ δ := by
    have low : ∀ p q, p < j + 1 → q ≤ p → |F (σ p) (σ q) - F' p q| ≤ δ := by
      intro p q hp hq
      by_cases h : p = j ∧ q = j
      · obtain ⟨rfl, rfl⟩ := h
        rw [e1, hσj, sub_self, abs_zero]
        exact hδ
      · simp only [F']
        rw [if_neg h, if_pos hq]
        by_cases hpj : p = j
        · subst hpj
          have hqj : q < p := by omega
          simp only [H, hσj, hσ q hqj]
          exact hrow q hqj
        · simp only [H, hσ p (by omega), hσ q (by omega)]
          exact hrows p (by omega) q hq
    intro p q hp hq
    rcases le_total q p with h | h
    · exact low p q hp h
    · have hb : ∀ p, p < j + 1 → σ p < n := by
        intro p hp
        by_cases h : p = j
        · rw [h, hσj]; exact hi
        · rw [hσ p (by omega)]; omega
      rw [hsym' p q hp hq, hsym (σ p) (σ q) (hb p hp) (hb q hq)]
      exact low q p hq h
  have q4 := quadForm_diff hδ q3 x
  have q5 := hμ y
  rw [q1, q2] at q5
  rw [hx2] at q4
  have q6 : 1 ≤ ∑ p ∈ range (j + 1), x p ^ 2 := by
    have : x j ^ 2 ≤ ∑ p ∈ range (j + 1), x p ^ 2 :=
      single_le_sum (f := fun p => x p ^ 2) (fun _ _ => sq_nonneg _) (by simp)
    rw [hx1] at this
    simpa using this
  generalize ∑ p ∈ range (j + 1), x p ^ 2 = T at *
  have q7 : δ * (((j + 1 : Nat) : K) * T) ≤ n * δ * T := by
    have : ((j + 1 : Nat) : K) ≤ n := by exact_mod_cast (by omega : j + 1 ≤ n)
    calc δ * (((j + 1 : Nat) : K) * T) = ((j + 1 : Nat) : K) * (δ * T) := by ring
      _ ≤ n * (δ * T) := mul_le_mul_of_nonneg_right this (mul_nonneg hδ (by linarith))
      _ = n * δ * T := by ring
  have q8 : (μ - n * δ) * 1 ≤ (μ - n * δ) * T := mul_le_mul_of_nonneg_left q6 (by linarith)
  linarith

/-- The same when the entry `(a, b)` and its mirror image are off by `δ'` more. -/
theorem quadForm_diff2 {m a b : Nat} {F F' : Nat → Nat → K} {δ δ' : K} (hδ : 0 ≤ δ) (hδ' : 0 ≤ δ') (ha : a < m)
    (hb : b < m) (hab : a ≠ b)
    (h : ∀ p q, p < m → q < m → |F p q - F' p q| ≤
      δ + ((if p = a ∧ q = b then δ' else 0) + (if p = b ∧ q = a then δ' else 0))) (x : Nat → K) :
    quadForm m F x ≤ quadForm m F' x + δ * (m * ∑ p ∈ range m, x p ^ 2) + δ' * ∑ p ∈ range m, x p ^ 2 := by
  have pick : ∀ c d, c < m → d < m →
      ∑ p ∈ range m, ∑ q ∈ range m, (if p = c ∧ q = d then δ' else 0) * (|x p| * |x q|) = δ' * (|x c| * |x d|) := by
    intro c d hc hd
    rw [sum_eq_single c, sum_eq_single d, if_pos ⟨rfl, rfl⟩]
    · intro q _ hq; rw [if_neg (fun h => hq h.2), zero_mul]
    · intro h; exact absurd (mem_range.2 hd) h
    · intro p _ hp
      exact sum_eq_zero fun q _ => by rw [if_neg (fun h => hp h.1), zero_mul]
    · intro h; exact absurd (mem_range.2 hc) h
  have h1 : quadForm m F x - quadForm m F' x ≤ δ * (∑ p ∈ range m, |x p|) ^ 2 +
      (δ' * (|x a| * |x b|) + δ' * (|x b| * |x a|)) := by
    rw [← pick a b ha hb, ← pick b a hb ha]
    unfold quadForm
    rw [← sum_sub_distrib, sq, sum_mul_sum, mul_sum, ← sum_add_distrib, ← sum_add_distrib]
    refine sum_le_sum fun p hp => ?_
    rw [← sum_sub_distrib, mul_sum, ← sum_add_distrib, ← sum_add_distrib]
    refine sum_le_sum fun q hq => ?_
    rw [mem_range] at hp hq
    have e : x p * F p q * x q - x p * F' p q * x q = (F p q - F' p q) * (x p * x q) := by ring
    rw [e]
    refine (le_abs_self _).trans ?_
    rw [abs_mul, abs_mul]
    refine (mul_le_mul_of_nonneg_right (h p q hp hq) (by positivity)).trans (le_of_eq ?_)
    ring
  have h2 := sq_sum_le_card_mul_sum_sq (s := range m) (f := fun p => |x p|)
  rw [card_range] at h2
  have e : ∑ p ∈ range m, |x p| ^ 2 = ∑ p ∈ range m, x p ^ 2 := sum_congr rfl fun p _ => sq_abs _
  rw [e] at h2
  have h3 := mul_le_mul_of_nonneg_left h2 hδ
  have h4 : x a ^ 2 + x b ^ 2 ≤ ∑ p ∈ range m, x p ^ 2 := by
    rw [← sum_pair (f := fun p => x p ^ 2) hab]
    refine sum_le_sum_of_subset_of_nonneg ?_ fun _ _ _ => sq_nonneg _
    intro p hp
    rw [mem_insert, mem_singleton] at hp
    rw [mem_range]
    rcases hp with rfl | rfl <;> assumption
  have h5 : |x a| * |x b| + |x b| * |x a| ≤ ∑ p ∈ range m, x p ^ 2 := by
    nlinarith [sq_nonneg (|x a| - |x b|), sq_abs (x a), sq_abs (x b)]
  have h6 := mul_le_mul_of_nonneg_left h5 hδ'
  linarith

/-- The pivot of row `i` after the columns below `j`; the entry in column `c` may be off by `δ'` more. -/
theorem schur2 {n i j c : Nat} {F G : Nat → Nat → K} {μ δ δ' : K} (hi : i < n) (hji : j ≤ i) (hc : c < j)
    (hsym : Symm n F) (hμ : ∀ x : Nat → K, μ * ∑ p ∈ range n, x p ^ 2 ≤ quadForm n F x) (hδ : 0 ≤ δ)
    (hδ' : 0 ≤ δ') (hμδ : n * δ + δ' ≤ μ)
    (hrows : ∀ a, a < j → ∀ b, b ≤ a → |F a b - ∑ k ∈ range (b + 1), G a k * G b k| ≤ δ)
    (hdiag : ∀ a, a < j → 0 < G a a)
    (hrow : ∀ b, b < j → |F i b - ∑ k ∈ range (b + 1), G i k * G b k| ≤ δ + if b = c then δ' else 0) :
    μ - n * δ - δ' ≤ F i i - ∑ k ∈ range j, G i k * G i k := by
  let σ : Nat → Nat := fun p => if p = j then i else p
  let H : Nat → Nat → K := fun p k => G (σ p) k
  let F' : Nat → Nat → K := fun p q => if p = j ∧ q = j then F i i else
    if q ≤ p then ∑ k ∈ range (q + 1), H p k * H q k else ∑ k ∈ range (p + 1), H q k * H p k
  have hσj : σ j = i := if_pos rfl
  have hσ : ∀ p, p < j → σ p = p := fun p hp => if_neg (by omega)
  have hsym' : Symm (j + 1) F' := by
    intro p q _ _
    simp only [F']
    by_cases h : p = j ∧ q = j
    · rw [if_pos h, if_pos h.symm]
    · rw [if_neg h, if_neg (show ¬ (q = j ∧ p = j) from fun h' => h ⟨h'.2, h'.1⟩)]
      rcases lt_trichotomy p q with h1 | h1 | h1
      · rw [if_neg (by omega), if_pos (by omega)]
      · subst h1; rfl
      · rw [if_pos (by omega), if_neg (by omega)]
  have hlow : ∀ p q, q ≤ p → ¬ (p = j ∧ q = j) → CholEq F' H p q := by
    intro p q hq hne
    unfold CholEq
    simp only [F']
    rw [if_neg hne, if_pos hq, sum_range_succ]
  have hI : CholInv F' H j := by
    intro a ha
    refine ⟨fun b hb => hlow a b hb (by omega), ?_, ?_⟩
    · simp only [H, hσ a ha]; exact (hdiag a ha).le
    · intro b hb
      simp only [H, hσ b (by omega)]
      exact (hdiag b (by omega)).ne'
  obtain ⟨x, hx1, hx2⟩ := chol_pivot hsym' (Nat.lt_succ_self j) hI
    (fun b hb => by simp only [H, hσ b hb]; exact (hdiag b hb).ne')
    (fun b hb => hlow j b hb.le (by omega))
  have e1 : F' j j = F i i := if_pos ⟨rfl, rfl⟩
  have e2 : ∑ k ∈ range j, H j k * H j k = ∑ k ∈ range j, G i k * G i k := by simp only [H, hσj]
  rw [e1, e2] at hx2
  -- the vector of the large matrix
  let y : Nat → K := fun q => if q = i then x j else if q < j then x q else 0
  have hy : ∀ p, p < j + 1 → y (σ p) = x p := by
    intro p hp
    by_cases h : p = j
    · subst h; rw [hσj]; exact if_pos rfl
    · rw [hσ p (by omega)]
      simp only [y]
      rw [if_neg (by omega), if_pos (by omega)]
  have hy0 : ∀ p, p < n → ¬ p < j → p ≠ i → y p = 0 := by
    intro p _ h1 h2
    simp only [y]; rw [if_neg h2, if_neg h1]
  have q1 : ∑ p ∈ range n, y p ^ 2 = ∑ p ∈ range (j + 1), x p ^ 2 := by
    rw [sum_pick hi hji (f := fun p => y p ^ 2) (by
      intro p h1 h2 h3
      have := hy0 p h1 h2 h3
      rw [this]; ring)]
    exact sum_congr rfl fun p hp => by
      rw [mem_range] at hp
      exact congrArg (· ^ 2) (hy p hp)
  have q2 : quadForm n F y = quadForm (j + 1) (fun p q => F (σ p) (σ q)) x := by
    unfold quadForm
    rw [sum_pick hi hji (f := fun p => ∑ q ∈ range n, y p * F p q * y q) (by
      intro p h1 h2 h3
      have := hy0 p h1 h2 h3
      rw [this]
      exact sum_eq_zero fun q _ => by ring)]
    refine sum_congr rfl fun p hp => ?_
    rw [mem_range] at hp
    rw [sum_pick hi hji (f := fun q => y (if p = j then i else p) * F (if p = j then i else p) q * y q) (by
      intro q h1 h2 h3
      have := hy0 q h1 h2 h3
      rw [this]; ring)]
    refine sum_congr rfl fun q hq => ?_
    rw [mem_range] at hq
    have a1 := hy p hp
    have a2 := hy q hq
    simp only [σ] at a1 a2 ⊢
    rw [a1, a2]
  -- the entries
  have q3 : ∀ p q, p < j + 1 → q < j + 1 → |F (σ p) (σ q) - F' p q| ≤
      δ + ((if p = j ∧ q = c then δ' else 0) + (if p = c ∧ q = j then δ' else 0)) := by
    have low : ∀ p q, p < j + 1 → q ≤ p → |F (σ p) (σ q) - F' p q| ≤
        δ + if p = j ∧ q = c then δ' else 0 := by
      intro p q hp hq
      have hpos : 0 ≤ if p = j ∧ q = c then δ' else 0 := by split_ifs <;> linarith
      by_cases h : p = j ∧ q = j
      · obtain ⟨rfl, rfl⟩ := h
        rw [e1, hσj, sub_self, abs_zero]
        exact add_nonneg hδ hpos
      · simp only [F']
        rw [if_neg h, if_pos hq]
        by_cases hpj : p = j
        · subst hpj
          have hqj : q < p := by omega
          simp only [H, hσj, hσ q hqj]
          refine (hrow q hqj).trans (le_of_eq ?_)
          congr 1
          by_cases hqc : q = c
          · rw [if_pos hqc, if_pos (by simp [hqc])]
          · rw [if_neg hqc, if_neg (fun h => hqc h.2)]
        · simp only [H, hσ p (by omega), hσ q (by omega)]
          rw [if_neg (fun h => hpj h.1), add_zero]
          exact hrows p (by omega) q hq
    intro p q hp hq
    rcases le_total q p with h | h
    · refine (low p q hp h).trans ?_
      have : 0 ≤ if p = c ∧ q = j then δ' else 0 := by split_ifs <;> linarith
      linarith
    · have hb : ∀ p, p < j + 1 → σ p < n := by
        intro p hp
        by_cases h : p = j
        · rw [h, hσj]; exact hi
        · rw [hσ p (by omega)]; omega
      rw [hsym' p q hp hq, hsym (σ p) (σ q) (hb p hp) (hb q hq)]
      refine (low q p hq h).trans ?_
      have : 0 ≤ if p = j ∧ q = c then δ' else 0 := by split_ifs <;> linarith
      have e : (if q = j ∧ p = c then δ' else 0) = if p = c ∧ q = j then δ' else 0 := by
        by_cases hb : q = j ∧ p = c
        · rw [if_pos hb, if_pos hb.symm]
        · rw [if_neg hb, if_neg (fun h => hb h.symm)]
      rw [e]
      linarith
  have q4 := quadForm_diff2 hδ hδ' (Nat.lt_succ_self j) (by omega) (by omega) q3 x
  have q5 := hμ y
  rw [q1, q2] at q5
  rw [hx2] at q4
  have q6 : 1 ≤ ∑ p ∈ range (j + 1), x p ^ 2 := by
    have : x j ^ 2 ≤ ∑ p ∈ range (j + 1), x p ^ 2 :=
      single_le_sum (f := fun p => x p ^ 2) (fun _ _ => sq_nonneg _) (by simp)
    rw [hx1] at this
    simpa using this
  generalize ∑ p ∈ range (j + 1), x p ^ 2 = T at *
  have q7 : δ * (((j + 1 : Nat) : K) * T) ≤ n * δ * T := by
    have : ((j + 1 : Nat) : K) ≤ n := by exact_mod_cast (by omega : j + 1 ≤ n)
    calc δ * (((j + 1 : Nat) : K) * T) = ((j + 1 : Nat) : K) * (δ * T) := by ring
      _ ≤ n * (δ * T) := mul_le_mul_of_nonneg_right this (mul_nonneg hδ (by linarith))
      _ = n * δ * T := by ring
  have q8 : (μ - n * δ - δ') * 1 ≤ (μ - n * δ - δ') * T := mul_le_mul_of_nonneg_left q6 (by linarith)
  linarith

end Rodeo.Dbl
