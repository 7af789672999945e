import Verif.Lemmas.DblCholOk

/-! # The triangular solves in double arithmetic do not overflow -/

set_option linter.unusedSectionVars false

namespace Rodeo.Dbl

open Spec Finset

variable {K : Type} [Field K] [LinearOrder K] [IsStrictOrderedRing K] [FloorRing K]

/-- `G` is a lower triangular matrix with `L^T` bounded below by `ν` and rows bounded by `R`. -/
structure Margin (n : Nat) (ν R : K) (G : Nat → Nat → K) : Prop where
  below : ∀ z : Nat → K, ν * ∑ p ∈ range n, z p ^ 2 ≤
    ∑ k ∈ range n, (∑ p ∈ range n, z p * lowerPart G p k) ^ 2
  rows : ∀ i, i < n → ∑ k ∈ range (i + 1), G i k ^ 2 ≤ R
  diag : ∀ i, i < n → 2 ^ (-75 : ℤ) ≤ G i i

theorem sum_if_lt {n m : Nat} (h : m ≤ n) {f : Nat → K} :
    ∑ p ∈ range n, (if p < m then f p else 0) = ∑ p ∈ range m, f p := by
  rw [← sum_filter]
  congr 1
  ext p
  simp only [mem_filter, mem_range]
  omega

/-- Leading blocks of `L`. -/
theorem Margin.lead {n : Nat} {ν R : K} {G : Nat → Nat → K} (h : Margin n ν R G) (hν : 0 ≤ ν) {m : Nat}
    (hm : m ≤ n) (y : Nat → K) :
    ν * ∑ k ∈ range m, y k ^ 2 ≤ ∑ a ∈ range m, (∑ k ∈ range (a + 1), G a k * y k) ^ 2 := by
  obtain ⟨w, hw⟩ := upper_solve (fun k a => G a k) m
    (fun l hl => ((zp _).trans_le (h.diag l (by omega))).ne') y
  let z : Nat → K := fun p => if p < m then w p else 0
  have h1 := h.below z
  have e1 : ∑ p ∈ range n, z p ^ 2 = ∑ p ∈ range m, w p ^ 2 := by
    rw [← sum_if_lt hm]
    refine sum_congr rfl fun p _ => ?_
    simp only [z]
    split_ifs <;> ring
  have e2 : ∀ k, ∑ p ∈ range n, z p * lowerPart G p k = if k < m then y k else 0 := by
    intro k
    have e3 : ∑ p ∈ range n, z p * lowerPart G p k = ∑ p ∈ range m, (if k ≤ p then G p k * w p else 0) := by
      rw [← sum_if_lt hm]
      refine sum_congr rfl fun p _ => ?_
      simp only [z, lowerPart]
      split_ifs <;> ring
    rw [e3]
    by_cases hk : k < m
    · rw [if_pos hk]; exact hw k hk
    · rw [if_neg hk]
      exact sum_eq_zero fun p hp => by rw [mem_range] at hp; rw [if_neg (by omega)]
  have e4 : ∑ k ∈ range n, (∑ p ∈ range n, z p * lowerPart G p k) ^ 2 = ∑ k ∈ range m, y k ^ 2 := by
    rw [← sum_if_lt hm]
    refine sum_congr rfl fun k _ => ?_
    rw [e2]
    split_ifs <;> ring
  rw [e1, e4] at h1
  have e5 : ∑ k ∈ range m, y k ^ 2 = ∑ a ∈ range m, w a * ∑ k ∈ range (a + 1), G a k * y k := by
    have a1 : ∀ k ∈ range m, y k ^ 2 = ∑ a ∈ range m, (if k ≤ a then w a * (G a k * y k) else 0) := by
      intro k hk
      rw [mem_range] at hk
      rw [sq]
      nth_rw 1 [← hw k hk]
      rw [sum_mul]
      refine sum_congr rfl fun a _ => ?_
      split_ifs <;> ring
    rw [sum_congr rfl a1, sum_comm]
    refine sum_congr rfl fun a ha => ?_
    rw [mem_range] at ha
    rw [mul_sum, ← sum_if_lt (show a + 1 ≤ m by omega)]
    refine sum_congr rfl fun k _ => ?_
    by_cases hk : k ≤ a
    · rw [if_pos hk, if_pos (by omega)]
    · rw [if_neg hk, if_neg (by omega)]
  have h2 := sum_mul_sq_le_sq_mul_sq (range m) w (fun a => ∑ k ∈ range (a + 1), G a k * y k)
  rw [← e5] at h2
  set T := ∑ k ∈ range m, y k ^ 2 with hT
  set C := ∑ a ∈ range m, (∑ k ∈ range (a + 1), G a k * y k) ^ 2 with hC
  have hC0 : 0 ≤ C := sum_nonneg fun _ _ => sq_nonneg _
  have hT0 : 0 ≤ T := sum_nonneg fun _ _ => sq_nonneg _
  rcases hT0.eq_or_lt with h0 | h0
  · rw [← h0, mul_zero]; exact hC0
  · have h3 : ν * T ^ 2 ≤ ν * ((∑ p ∈ range m, w p ^ 2) * C) := mul_le_mul_of_nonneg_left h2 hν
    have h4 : ν * (∑ p ∈ range m, w p ^ 2) * C ≤ T * C := mul_le_mul_of_nonneg_right h1 hC0
    have h5 : T * (ν * T) ≤ T * C := by
      calc T * (ν * T) = ν * T ^ 2 := by ring
        _ ≤ ν * ((∑ p ∈ range m, w p ^ 2) * C) := h3
        _ = ν * (∑ p ∈ range m, w p ^ 2) * C := by ring
        _ ≤ T * C := h4
    exact le_of_mul_le_mul_left h5 h0

/-- Trailing blocks of `L^T`. -/
theorem Margin.trail {n : Nat} {ν R : K} {G : Nat → Nat → K} (h : Margin n ν R G) (hν : 0 ≤ ν) {i : Nat}
    (hi : i ≤ n) (x : Nat → K) :
    ν * ∑ j ∈ Ico i n, x j ^ 2 ≤ ∑ k ∈ Ico i n, (∑ j ∈ Ico k n, G j k * x j) ^ 2 := by
  obtain ⟨w, hw⟩ := upper_solve (fun k a => G a k) i
    (fun l hl => ((zp _).trans_le (h.diag l (by omega))).ne') (fun k => -∑ j ∈ Ico i n, G j k * x j)
  let z : Nat → K := fun p => if p < i then w p else x p
  have h1 := h.below z
  have split : ∀ f : Nat → K, ∑ p ∈ range n, f p = ∑ p ∈ range i, f p + ∑ p ∈ Ico i n, f p := fun f => by
    rw [range_eq_Ico, range_eq_Ico, sum_Ico_consecutive f (Nat.zero_le i) hi]
  have e1 : ∑ j ∈ Ico i n, x j ^ 2 ≤ ∑ p ∈ range n, z p ^ 2 := by
    rw [split]
    have a1 : ∑ p ∈ Ico i n, z p ^ 2 = ∑ j ∈ Ico i n, x j ^ 2 := sum_congr rfl fun p hp => by
      rw [mem_Ico] at hp
      simp only [z]; rw [if_neg (by omega)]
    have a2 : 0 ≤ ∑ p ∈ range i, z p ^ 2 := sum_nonneg fun _ _ => sq_nonneg _
    linarith
  have e2 : ∀ k, k < i → ∑ p ∈ range n, z p * lowerPart G p k = 0 := by
    intro k hk
    rw [split]
    have a1 : ∑ p ∈ range i, z p * lowerPart G p k = ∑ p ∈ range i, (if k ≤ p then G p k * w p else 0) :=
      sum_congr rfl fun p hp => by
        rw [mem_range] at hp
        simp only [z, lowerPart, if_pos hp]
        split_ifs <;> ring
    have a2 : ∑ p ∈ Ico i n, z p * lowerPart G p k = ∑ j ∈ Ico i n, G j k * x j :=
      sum_congr rfl fun p hp => by
        rw [mem_Ico] at hp
        simp only [z, lowerPart]
        rw [if_neg (by omega), if_pos (by omega), mul_comm]
    rw [a1, a2, hw k hk]
    ring
  have e3 : ∀ k, i ≤ k → k < n → ∑ p ∈ range n, z p * lowerPart G p k = ∑ j ∈ Ico k n, G j k * x j := by
    intro k hk hkn
    rw [range_Ico_sum hkn.le (by intro p hp; simp only [lowerPart]; rw [if_neg (by omega), mul_zero])]
    refine sum_congr rfl fun p hp => ?_
    rw [mem_Ico] at hp
    simp only [z, lowerPart]
    rw [if_neg (by omega), if_pos hp.1, mul_comm]
  have e4 : ∑ k ∈ range n, (∑ p ∈ range n, z p * lowerPart G p k) ^ 2 =
      ∑ k ∈ Ico i n, (∑ j ∈ Ico k n, G j k * x j) ^ 2 := by
    rw [split, sum_eq_zero, zero_add]
    · exact sum_congr rfl fun k hk => by
        rw [mem_Ico] at hk
        rw [e3 k hk.1 hk.2]
    · intro k hk
      rw [mem_range] at hk
      rw [e2 k hk]; ring
  rw [e4] at h1
  exact (mul_le_mul_of_nonneg_left e1 hν).trans h1

/-- From a bound below to a bound of the vector, with the errors of the equations. -/
theorem norm_bound {s : Finset Nat} {ν g t C Q T N : K} {b c D : Nat → K} (hν : 0 < ν)
    (h1 : ν * T ≤ ∑ a ∈ s, c a ^ 2) (h2 : ∀ a ∈ s, |b a - c a| ≤ g * D a + t) (h3 : ∑ a ∈ s, D a ^ 2 ≤ C * T)
    (hb : ∀ a ∈ s, b a ^ 2 ≤ Q) (hN : (s.card : K) ≤ N) (hQ : t ^ 2 ≤ Q) (hC : 6 * (g ^ 2 * C) ≤ ν) (hT : 0 ≤ T) :
    T ≤ 12 * N * Q / ν := by
  have hQ0 : 0 ≤ Q := (sq_nonneg t).trans hQ
  have h4 : ∀ a ∈ s, c a ^ 2 ≤ 3 * (Q + g ^ 2 * D a ^ 2 + Q) := by
    intro a ha
    have h5 : |c a| ≤ |b a| + g * D a + t := by
      have := h2 a ha
      rw [abs_sub_comm] at this
      have := abs_sub_abs_le_abs_sub (c a) (b a)
      linarith
    have h6 : c a ^ 2 ≤ (|b a| + g * D a + t) ^ 2 := by
      rw [← sq_abs (c a)]
      exact pow_le_pow_left₀ (abs_nonneg _) h5 2
    have h7 : (|b a| + g * D a + t) ^ 2 ≤ 3 * (|b a| ^ 2 + (g * D a) ^ 2 + t ^ 2) := by
      nlinarith [sq_nonneg (|b a| - g * D a), sq_nonneg (|b a| - t), sq_nonneg (g * D a - t)]
    rw [sq_abs, mul_pow] at h7
    have := hb a ha
    linarith
  have h5 : ∑ a ∈ s, c a ^ 2 ≤ 3 * (g ^ 2 * (C * T)) + 6 * (N * Q) := by
    refine (sum_le_sum h4).trans ?_
    have e : ∑ a ∈ s, 3 * (Q + g ^ 2 * D a ^ 2 + Q) = 3 * (g ^ 2 * ∑ a ∈ s, D a ^ 2) + 6 * (s.card * Q) := by
      rw [← mul_sum, sum_add_distrib, sum_add_distrib, sum_const, nsmul_eq_mul, ← mul_sum]
      ring
    rw [e]
    have a1 : g ^ 2 * ∑ a ∈ s, D a ^ 2 ≤ g ^ 2 * (C * T) := mul_le_mul_of_nonneg_left h3 (sq_nonneg g)
    have a2 : (s.card : K) * Q ≤ N * Q := mul_le_mul_of_nonneg_right hN hQ0
    linarith
  rw [le_div_iff₀ hν]
  have h6 : 6 * (g ^ 2 * C) * T ≤ ν * T := mul_le_mul_of_nonneg_right hC hT
  linarith

/-- The solution of the first `m` equations is bounded. -/
theorem Margin.forward {n : Nat} {ν R g t Q : K} {G : Nat → Nat → K} (h : Margin n ν R G) (hν : 0 < ν)
    {m : Nat} (hm : m ≤ n) {b y : Nat → K} (hb : ∀ a, a < n → b a ^ 2 ≤ Q)
    (hQ : t ^ 2 ≤ Q) (hC : 6 * (g ^ 2 * (n * R)) ≤ ν)
    (he : ∀ a, a < m → |b a - ∑ k ∈ range (a + 1), G a k * y k| ≤ g * ∑ k ∈ range (a + 1), |G a k * y k| + t) :
    ∑ k ∈ range m, y k ^ 2 ≤ 12 * n * Q / ν := by
  refine norm_bound (s := range m) (b := b) (D := fun a => ∑ k ∈ range (a + 1), |G a k * y k|) (C := n * R)
    hν (h.lead hν.le hm y) ?_ ?_ ?_ ?_ hQ hC
    (sum_nonneg fun _ _ => sq_nonneg _)
  · intro a ha
    rw [mem_range] at ha
    exact he a ha
  · have a1 : ∀ a ∈ range m, (∑ k ∈ range (a + 1), |G a k * y k|) ^ 2 ≤ R * ∑ k ∈ range m, y k ^ 2 := by
      intro a ha
      rw [mem_range] at ha
      have b1 := sum_mul_sq_le_sq_mul_sq (range (a + 1)) (fun k => |G a k|) (fun k => |y k|)
      simp only [sq_abs, ← abs_mul] at b1
      have b2 : ∑ k ∈ range (a + 1), y k ^ 2 ≤ ∑ k ∈ range m, y k ^ 2 :=
        sum_le_sum_of_subset_of_nonneg (range_mono (by omega)) fun _ _ _ => sq_nonneg _
      exact b1.trans (mul_le_mul (h.rows a (by omega)) b2 (sum_nonneg fun _ _ => sq_nonneg _)
        ((sum_nonneg fun _ _ => sq_nonneg _).trans (h.rows a (by omega))))
    refine (sum_le_sum a1).trans ?_
    rw [sum_const, card_range, nsmul_eq_mul, ← mul_assoc]
    refine mul_le_mul_of_nonneg_right ?_ (sum_nonneg fun _ _ => sq_nonneg _)
    rcases Nat.eq_zero_or_pos m with h0 | h0
    · subst h0
      rw [Nat.cast_zero, zero_mul]
      rcases Nat.eq_zero_or_pos n with h1 | h1
      · subst h1; simp
      · exact mul_nonneg (Nat.cast_nonneg _) ((sum_nonneg fun _ _ => sq_nonneg _).trans (h.rows 0 h1))
    · exact mul_le_mul_of_nonneg_right (by exact_mod_cast hm)
        ((sum_nonneg fun _ _ => sq_nonneg _).trans (h.rows 0 (by omega)))
  · intro a ha
    rw [mem_range] at ha
    exact hb a (by omega)
  · rw [card_range]; exact_mod_cast hm

/-- The solution of the last equations is bounded. -/
theorem Margin.backward {n : Nat} {ν R g t Q : K} {G : Nat → Nat → K} (h : Margin n ν R G) (hν : 0 < ν)
    {i : Nat} (hi : i ≤ n) {b x : Nat → K} (hb : ∀ a, a < n → b a ^ 2 ≤ Q)
    (hQ : t ^ 2 ≤ Q) (hC : 6 * (g ^ 2 * (n * R)) ≤ ν)
    (he : ∀ a, i ≤ a → a < n → |b a - ∑ j ∈ Ico a n, G j a * x j| ≤ g * ∑ j ∈ Ico a n, |G j a * x j| + t) :
    ∑ j ∈ Ico i n, x j ^ 2 ≤ 12 * n * Q / ν := by
  refine norm_bound (s := Ico i n) (b := b) (D := fun a => ∑ j ∈ Ico a n, |G j a * x j|) (C := n * R)
    hν (h.trail hν.le hi x) ?_ ?_ ?_ ?_ hQ hC
    (sum_nonneg fun _ _ => sq_nonneg _)
  · intro a ha
    rw [mem_Ico] at ha
    exact he a ha.1 ha.2
  · have a1 : ∀ a ∈ Ico i n, (∑ j ∈ Ico a n, |G j a * x j|) ^ 2 ≤
        (∑ j ∈ Ico a n, G j a ^ 2) * ∑ j ∈ Ico i n, x j ^ 2 := by
      intro a ha
      rw [mem_Ico] at ha
      have b1 := sum_mul_sq_le_sq_mul_sq (Ico a n) (fun j => |G j a|) (fun j => |x j|)
      simp only [sq_abs, ← abs_mul] at b1
      have b2 : ∑ j ∈ Ico a n, x j ^ 2 ≤ ∑ j ∈ Ico i n, x j ^ 2 :=
        sum_le_sum_of_subset_of_nonneg (Ico_subset_Ico_left ha.1) fun _ _ _ => sq_nonneg _
      exact b1.trans (mul_le_mul_of_nonneg_left b2 (sum_nonneg fun _ _ => sq_nonneg _))
    refine (sum_le_sum a1).trans ?_
    rw [← sum_mul]
    refine mul_le_mul_of_nonneg_right ?_ (sum_nonneg fun _ _ => sq_nonneg _)
    have a2 : ∑ a ∈ Ico i n, ∑ j ∈ Ico a n, G j a ^ 2 ≤ ∑ a ∈ range n, ∑ j ∈ Ico a n, G j a ^ 2 := by
      refine sum_le_sum_of_subset_of_nonneg ?_ fun _ _ _ => sum_nonneg fun _ _ => sq_nonneg _
      intro a ha
      rw [mem_Ico] at ha
      rw [mem_range]; exact ha.2
    have a3 : ∑ a ∈ range n, ∑ j ∈ Ico a n, G j a ^ 2 = ∑ j ∈ range n, ∑ a ∈ range (j + 1), G j a ^ 2 := by
      have c1 : ∀ a ∈ range n, ∑ j ∈ Ico a n, G j a ^ 2 = ∑ j ∈ range n, if a ≤ j then G j a ^ 2 else 0 := by
        intro a ha
        rw [mem_range] at ha
        rw [range_Ico_sum ha.le (by intro k hk; rw [if_neg (by omega)])]
        exact sum_congr rfl fun j hj => by rw [mem_Ico] at hj; rw [if_pos hj.1]
      rw [sum_congr rfl c1, sum_comm]
      refine sum_congr rfl fun j hj => ?_
      rw [mem_range] at hj
      rw [← sum_if_lt (show j + 1 ≤ n by omega)]
      exact sum_congr rfl fun a _ => by
        by_cases haj : a ≤ j
        · rw [if_pos haj, if_pos (by omega)]
        · rw [if_neg haj, if_neg (by omega)]
    have a4 : ∑ j ∈ range n, ∑ a ∈ range (j + 1), G j a ^ 2 ≤ ∑ _j ∈ range n, R :=
      sum_le_sum fun j hj => h.rows j (mem_range.1 hj)
    rw [sum_const, card_range, nsmul_eq_mul] at a4
    linarith
  · intro a ha
    rw [mem_Ico] at ha
    exact hb a ha.2
  · rw [Nat.card_Ico]
    exact_mod_cast (by omega : n - i ≤ n)

/-- The product of the factor with its transpose. -/
theorem good_product {n : Nat} {F G : Nat → Nat → K} {M : K} (hsym : Symm n F) (hG : GoodInv n M F G n) :
    ∀ p q, p < n → q < n →
      |F p q - ∑ k ∈ range n, lowerPart G p k * lowerPart G q k| ≤ 33 / 32 * hh n * M := by
  have prod : ∀ a b, a < n → b ≤ a → ∑ k ∈ range n, lowerPart G a k * lowerPart G b k =
      ∑ k ∈ range (b + 1), G a k * G b k := by
    intro a b ha hb
    rw [← sum_if_lt (show b + 1 ≤ n by omega)]
    refine sum_congr rfl fun k _ => ?_
    unfold lowerPart
    by_cases hk : k ≤ b
    · rw [if_pos (by omega), if_pos hk, if_pos (by omega)]
    · rw [if_neg hk, if_neg (by omega : ¬ k < b + 1), mul_zero]
  intro p q hp hq
  rcases le_total q p with h | h
  · rw [prod p q hp h]; exact (hG p hp).1 q h
  · have e : ∑ k ∈ range n, lowerPart G p k * lowerPart G q k =
        ∑ k ∈ range n, lowerPart G q k * lowerPart G p k := sum_congr rfl fun _ _ => mul_comm _ _
    rw [e, prod q p hq h, hsym p q hp hq]; exact (hG q hq).1 p h

/-- What the factorization leaves has a margin. -/
theorem margin_of_good {n : Nat} {F G : Nat → Nat → K} {M μ : K} (hn0 : 0 < n) (hn : n ≤ 2 ^ 32)
    (hsym : Symm n F) (hM0 : 0 < M) (hM : ∀ i j, i < n → j < n → |F i j| ≤ M)
    (hμ : ∀ x : Nat → K, μ * ∑ p ∈ range n, x p ^ 2 ≤ quadForm n F x) (hμ2 : 17 / 16 * (n + 5) * hh n * M ≤ μ)
    (hG : GoodInv n M F G n) : Margin n (1 / 32 * n * hh n * M) (2 * M) G := by
  have hh1 := hh_low (K := K) hn0
  have hh2 := hh_high (K := K) hn
  have hhM : 0 ≤ hh n * M := mul_nonneg (by linarith) hM0.le
  have hδ : 0 ≤ 33 / 32 * hh n * M := by linarith
  have near := good_product hsym hG
  refine ⟨fun z => ?_, fun i hi => ?_, fun i hi => (hG i hi).2.1⟩
  · have h1 := quadForm_diff hδ near z
    rw [quadForm_gram (L := lowerPart G) (fun _ _ _ _ => rfl)] at h1
    have h2 := hμ z
    have h3 : 0 ≤ ∑ p ∈ range n, z p ^ 2 := sum_nonneg fun _ _ => sq_nonneg _
    have h4 : (1 / 32 * n * hh n * M + 33 / 32 * hh n * M * n) * ∑ p ∈ range n, z p ^ 2 ≤
        μ * ∑ p ∈ range n, z p ^ 2 :=
      mul_le_mul_of_nonneg_right (by linarith) h3
    linarith
  · have h1 := (abs_le.1 ((hG i hi).1 i le_rfl)).1
    have h2 := (le_abs_self _).trans (hM i i hi hi)
    have h3 : hh n * M ≤ 1 / 2 ^ 20 * M := mul_le_mul_of_nonneg_right hh2 hM0.le
    simp only [sq]
    linarith

/-- The distance to the exact solution is the residual divided by the least eigenvalue. -/
theorem forward_error {n : Nat} {F : Nat → Nat → K} {μ ρ : K} {x b z : Nat → K} (hμ0 : 0 ≤ μ)
    (hμ : ∀ x : Nat → K, μ * ∑ p ∈ range n, x p ^ 2 ≤ quadForm n F x)
    (hr : ∀ i, i < n → |b i - ∑ j ∈ range n, F i j * x j| ≤ ρ) (hz : Solves n F z b) :
    μ ^ 2 * ∑ j ∈ range n, (x j - z j) ^ 2 ≤ n * ρ ^ 2 := by
  have h1 := hμ (fun j => x j - z j)
  let r : Nat → K := fun i => ∑ j ∈ range n, F i j * x j - b i
  have e : quadForm n F (fun j => x j - z j) = ∑ i ∈ range n, (x i - z i) * r i := by
    unfold quadForm
    refine sum_congr rfl fun i hi => ?_
    rw [mem_range] at hi
    dsimp only [r]
    rw [← hz i hi, ← sum_sub_distrib, mul_sum]
    exact sum_congr rfl fun j _ => by ring
  have h2 := sum_mul_sq_le_sq_mul_sq (range n) (fun i => x i - z i) r
  rw [← e] at h2
  have h3 : ∑ i ∈ range n, r i ^ 2 ≤ n * ρ ^ 2 := by
    have : ∑ i ∈ range n, r i ^ 2 ≤ ∑ _i ∈ range n, ρ ^ 2 := sum_le_sum fun i hi => by
      rw [mem_range] at hi
      have := hr i hi
      rw [abs_sub_comm] at this
      rw [← sq_abs (r i)]
      exact pow_le_pow_left₀ (abs_nonneg _) this 2
    rwa [sum_const, card_range, nsmul_eq_mul] at this
  set T := ∑ j ∈ range n, (x j - z j) ^ 2 with hT
  have hT0 : 0 ≤ T := sum_nonneg fun _ _ => sq_nonneg _
  have h4 : (μ * T) ^ 2 ≤ T * (n * ρ ^ 2) :=
    (pow_le_pow_left₀ (mul_nonneg hμ0 hT0) h1 2).trans (h2.trans (mul_le_mul_of_nonneg_left h3 hT0))
  rcases hT0.eq_or_lt with h0 | h0
  · rw [← h0, mul_zero]; positivity
  · refine le_of_mul_le_mul_left ?_ h0
    calc T * (μ ^ 2 * T) = (μ * T) ^ 2 := by ring
      _ ≤ _ := h4

/-- A sum of products that are not huge, with its size. -/
theorem prods_total {a b : Nat} {f : Nat → Res K} {x y : Nat → K} (hab : a ≤ b) (hn : b - a ≤ 2 ^ 32)
    (hf : ∀ k, a ≤ k → k < b → f k = mul (x k) (y k)) (hT : ∑ k ∈ Ico a b, |x k * y k| ≤ 2 ^ (700 : ℤ)) :
    ∃ s, sumFrom a b f = .ok s ∧ |s| ≤ 2 ^ (703 : ℤ) := by
  have hone : ∀ k, a ≤ k → k < b → |x k * y k| ≤ 2 ^ (700 : ℤ) := fun k h1 h2 =>
    (single_le_sum (f := fun k => |x k * y k|) (fun _ _ => abs_nonneg _) (mem_Ico.2 ⟨h1, h2⟩)).trans hT
  have hf2 : ∀ k, a ≤ k → k < b → f k = .ok (fl (x k * y k)) := fun k h1 h2 => by
    rw [hf k h1 h2]
    exact dbl_of_le (n := 700) (by norm_num) (by norm_num) (hone k h1 h2)
  have hcard : ((b - a : Nat) : K) * eta ≤ 2 ^ (700 : ℤ) := by
    have h1 : ((b - a : Nat) : K) ≤ 2 ^ (32 : ℤ) := by
      rw [show (2 : K) ^ (32 : ℤ) = 2 ^ 32 from (two_pow_cast 32).symm]
      exact_mod_cast hn
    have h2 : (eta : K) ≤ 2 ^ (0 : ℤ) := by unfold eta; exact zp_mono (by norm_num)
    refine (mul_le_mul h1 h2 eta_pos.le (zp _).le).trans ?_
    rw [← zp_add]
    exact zp_mono (by norm_num)
  have e701 : (2 : K) ^ (701 : ℤ) = 2 * 2 ^ (700 : ℤ) := by
    rw [show (701 : ℤ) = 1 + 700 by norm_num, zp_add, zpow_one]
  have e702 : (2 : K) ^ (702 : ℤ) = 4 * 2 ^ (700 : ℤ) := by
    rw [show (702 : ℤ) = 2 + 700 by norm_num, zp_add]; norm_num
  have e703 : (2 : K) ^ (703 : ℤ) = 8 * 2 ^ (700 : ℤ) := by
    rw [show (703 : ℤ) = 3 + 700 by norm_num, zp_add]; norm_num
  have hfl : ∑ k ∈ Ico a b, |fl (x k * y k)| ≤ 2 ^ (702 : ℤ) := by
    have h1 : ∑ k ∈ Ico a b, |fl (x k * y k)| ≤ ∑ k ∈ Ico a b, ((1 + eps) * |x k * y k| + eta) := by
      refine sum_le_sum fun k _ => ?_
      have h3 := fl_rel (x k * y k)
      have h4 := abs_sub_abs_le_abs_sub (fl (x k * y k)) (x k * y k)
      linarith
    rw [sum_add_distrib, ← mul_sum, sum_const, Nat.card_Ico, nsmul_eq_mul] at h1
    have h3 : (1 + eps : K) * ∑ k ∈ Ico a b, |x k * y k| ≤ 2 * 2 ^ (700 : ℤ) :=
      mul_le_mul one_eps_le hT (sum_nonneg fun _ _ => abs_nonneg _) (by norm_num)
    rw [e702]
    refine h1.trans ((add_le_add h3 hcard).trans ?_)
    have := zp (K := K) 700
    clear e701 e702 e703
    generalize (2 : K) ^ (700 : ℤ) = z at *
    linarith
  obtain ⟨s, e⟩ := sum_total hab (by omega) hf2 (fun k _ _ => fl_isDouble _) (hfl.trans (zp_mono (by norm_num)))
  refine ⟨s, e, ?_⟩
  obtain ⟨-, h2⟩ := sum_post hab (fun k h1 h2 => by rw [hf2 k h1 h2]; exact Post.ok rfl)
    (fun k _ _ => fl_isDouble _) s e
  have h3 : gam (b - a) ≤ (1 : K) := by
    have := pow_eps_le (K := K) (n := b - a) (by omega)
    unfold gam; linarith
  have h4 : |∑ k ∈ Ico a b, fl (x k * y k)| ≤ ∑ k ∈ Ico a b, |fl (x k * y k)| := abs_sum_le_sum_abs _ _
  have h5 : gam (b - a) * ∑ k ∈ Ico a b, |fl (x k * y k)| ≤ 1 * ∑ k ∈ Ico a b, |fl (x k * y k)| :=
    mul_le_mul_of_nonneg_right h3 (sum_nonneg fun _ _ => abs_nonneg _)
  have h6 := abs_sub_abs_le_abs_sub s (∑ k ∈ Ico a b, fl (x k * y k))
  rw [e703]
  rw [e702] at hfl
  have := zp (K := K) 700
  generalize (2 : K) ^ (700 : ℤ) = z at *
  linarith

theorem prod_le_sq {a b : Nat} {x y : Nat → K} :
    ∑ k ∈ Ico a b, |x k * y k| ≤ ∑ k ∈ Ico a b, x k ^ 2 + ∑ k ∈ Ico a b, y k ^ 2 := by
  rw [← sum_add_distrib]
  refine sum_le_sum fun k _ => ?_
  rw [abs_mul]
  nlinarith [sq_nonneg (|x k| - |y k|), sq_abs (x k), sq_abs (y k), sq_nonneg (x k), sq_nonneg (y k)]

theorem abs_le_of_sq {x : K} {e f : ℤ} (h : x ^ 2 ≤ 2 ^ e) (hef : e ≤ f + f) : |x| ≤ 2 ^ f := by
  by_contra hc
  push Not at hc
  have := mul_lt_mul'' hc hc (zp _).le (zp _).le
  rw [← zp_add, abs_mul_abs_self, ← sq] at this
  exact absurd ((zp_mono hef).trans_lt this) (not_lt.2 h)

/-- The quotient that ends a step of the substitution. -/
theorem quot_total {c s d : K} (hc : |c| ≤ 2 ^ (703 : ℤ)) (hs : |s| ≤ 2 ^ (703 : ℤ)) (hd : 2 ^ (-75 : ℤ) ≤ d) :
    sub c s = .ok (fl (c - s)) ∧ div (fl (c - s)) d = .ok (fl (fl (c - s) / d)) := by
  have h1 : |c - s| ≤ 2 ^ (704 : ℤ) := by
    refine (abs_sub _ _).trans ?_
    rw [show (704 : ℤ) = 1 + 703 by norm_num, zp_add, zpow_one]
    linarith
  have hd0 : 0 < d := (zp _).trans_le hd
  refine ⟨dbl_of_le (n := 704) (by norm_num) (by norm_num) h1, ?_⟩
  unfold Dbl.div
  rw [if_neg hd0.ne']
  refine dbl_of_le (n := 779) (by norm_num) (by norm_num) ?_
  rw [abs_div, abs_of_pos hd0, div_le_iff₀ hd0]
  refine (fl_abs_le (by norm_num) h1).trans ?_
  rw [show (704 : ℤ) = 779 + (-75) by norm_num, zp_add]
  exact mul_le_mul_of_nonneg_left hd (zp _).le

/-- Both substitutions return, and their results are not huge. -/
theorem solveCholesky_total {L : Mat K} {n : Nat} {G : Nat → Nat → K} {b : List K} {ν R : K} (hn : n ≤ 2 ^ 32)
    (hL : IsMat L n n (lowerPart G)) (hG : ∀ i, i < n → |G i i| ≤ 2 ^ (512 : ℤ)) (hb : b.length = n)
    (hbd : Doubles b) (hbs : ∀ a, a < n → |vecFun b a| ≤ 2 ^ (100 : ℤ)) (hm : Margin n ν R G)
    (hν : (n : K) * 2 ^ (-157 : ℤ) ≤ ν) (hR : R ≤ 2 ^ (102 : ℤ)) (hC : 6 * (gam (n + 2) ^ 2 * (n * R)) ≤ ν) :
    OkP (solveCholesky L b) (fun x => x.length = n ∧ ∀ a, a < n → |vecFun x a| ≤ 2 ^ (261 : ℤ)) := by
  obtain ⟨hr, hc, -, -⟩ := id hL
  have hν0 : 0 < n → 0 < ν := fun h =>
    lt_of_lt_of_le (mul_pos (by exact_mod_cast h) (zp _)) hν
  have bound : ∀ (e : ℤ), 0 < n → 12 * n * 2 ^ e / ν ≤ (2 : K) ^ (161 + e) := by
    intro e h
    rw [div_le_iff₀ (hν0 h)]
    have h1 : (2 : K) ^ (161 + e) * ((n : K) * 2 ^ (-157 : ℤ)) ≤ 2 ^ (161 + e) * ν :=
      mul_le_mul_of_nonneg_left hν (zp _).le
    refine le_trans ?_ h1
    have e1 : (2 : K) ^ (161 + e) * ((n : K) * 2 ^ (-157 : ℤ)) = 16 * n * 2 ^ e := by
      rw [show 161 + e = 4 + 157 + e by ring, zp_add, zp_add, zpow_neg]
      have := (zp (K := K) 157).ne'
      field_simp
      norm_num
    rw [e1]
    have : 0 ≤ (n : K) * 2 ^ e := mul_nonneg (Nat.cast_nonneg _) (zp _).le
    linarith
  have htau : ∀ e : ℤ, 0 ≤ e → (tau n : K) ^ 2 ≤ 2 ^ e := by
    intro e he
    have h1 := tau_le (K := K) hn
    have h0 := tau_nonneg (K := K) n
    have h2 : (tau n : K) ≤ 2 ^ (0 : ℤ) := h1.trans (zp_mono (by norm_num))
    rw [zpow_zero] at h2
    have h3 : (1 : K) ≤ 2 ^ e := by
      have := zp_mono (K := K) he
      rwa [zpow_zero] at this
    nlinarith
  have hb2 : ∀ a, a < n → vecFun b a ^ 2 ≤ 2 ^ (200 : ℤ) := by
    intro a ha
    have := mul_le_mul (hbs a ha) (hbs a ha) (abs_nonneg _) (zp _).le
    rwa [abs_mul_abs_self, ← sq, ← zp_add] at this
  have fwd : ∀ (m : Nat) (Y : Nat → K), m ≤ n → (∀ a, a < m → |vecFun b a - ∑ k ∈ range (a + 1), G a k * Y k| ≤
      gam (n + 2) * ∑ k ∈ range (a + 1), |G a k * Y k| + tau n) → ∑ k ∈ range m, Y k ^ 2 ≤ 2 ^ (361 : ℤ) := by
    intro m Y hmn he
    rcases Nat.eq_zero_or_pos n with h0 | h0
    · have : m = 0 := by omega
      subst this
      rw [sum_range_zero]; exact (zp _).le
    · exact (hm.forward (hν0 h0) hmn hb2 (htau 200 (by norm_num)) hC he).trans
        ((bound 200 h0).trans (le_of_eq (by norm_num)))
  have rowsq : ∀ i, i < n → ∑ k ∈ Ico 0 i, G i k ^ 2 ≤ 2 ^ (699 : ℤ) := by
    intro i hi
    have h1 := hm.rows i hi
    rw [sum_range_succ] at h1
    rw [← range_eq_Ico]
    have := sq_nonneg (G i i)
    exact (by linarith : _ ≤ R).trans (hR.trans (zp_mono (by norm_num)))
  have entry : ∀ i k, i < n → k ≤ i → G i k ^ 2 ≤ 2 ^ (102 : ℤ) := fun i k hi hk =>
    (single_le_sum (f := fun k => G i k ^ 2) (fun _ _ => sq_nonneg _)
      (mem_range.2 (by omega : k < i + 1))).trans ((hm.rows i hi).trans hR)
  have colsq : ∀ i, i < n → ∑ k ∈ Ico (i + 1) n, G k i ^ 2 ≤ 2 ^ (699 : ℤ) := by
    intro i hi
    have h1 : ∑ k ∈ Ico (i + 1) n, G k i ^ 2 ≤ ∑ k ∈ Ico (i + 1) n, (2 : K) ^ (102 : ℤ) :=
      sum_le_sum fun k hk => by
        rw [mem_Ico] at hk
        exact entry k i hk.2 (by omega)
    refine h1.trans ?_
    rw [sum_const, Nat.card_Ico, nsmul_eq_mul]
    have h2 : ((n - (i + 1) : Nat) : K) ≤ 2 ^ (32 : ℤ) := by
      rw [show (2 : K) ^ (32 : ℤ) = 2 ^ 32 from (two_pow_cast 32).symm]
      exact_mod_cast (by omega : n - (i + 1) ≤ 2 ^ 32)
    refine (mul_le_mul_of_nonneg_right h2 (zp _).le).trans ?_
    rw [← zp_add]
    exact zp_mono (by norm_num)
  have two699 : (2 : K) ^ (699 : ℤ) + 2 ^ (699 : ℤ) = 2 ^ (700 : ℤ) := by
    rw [show (700 : ℤ) = 1 + 699 by norm_num, zp_add, zpow_one, two_mul]
  unfold solveCholesky
  rw [if_neg (by omega)]
  simp only [hr]
  refine OkP.bind (Mat.okP_for (fun i y => ∃ Y : Nat → K, Rep1 y n (fun a => some (Y a)) ∧
    (∀ a, IsDouble (Y a)) ∧
    ∀ a, a < i → |vecFun b a - ∑ k ∈ range (a + 1), G a k * Y k| ≤
        gam (n + 2) * ∑ k ∈ range (a + 1), |G a k * Y k| + tau n) ?_ ?_) ?_
  · exact ⟨fun _ => 0, rep1_zeros n, fun _ => isDouble_zero, by omega⟩
  · rintro i y hi ⟨Y, h1, hYd, h2⟩
    have hT := fwd i Y hi.le h2
    rw [range_eq_Ico] at hT
    have body : ∀ k, 0 ≤ k → k < i → (do
        let l ← rawAt L.buf (k * n + i)
        let v ← Mem.rd y k
        mul l v) = mul (G i k) (Y k) := fun k _ hk =>
      bind_eq (hL.raw (i := i) (j := k) hi (by omega) rfl) (bind_eq (h1.rd (i := k) (by omega) rfl) (by
        simp only [lowerPart, if_pos (show k ≤ i by omega)]))
    obtain ⟨s, es, hs⟩ := prods_total (x := fun k => G i k) (y := Y) (Nat.zero_le i) (by omega) body
      (prod_le_sq.trans ((add_le_add (rowsq i hi) (hT.trans (zp_mono (by norm_num)))).trans two699.le))
    obtain ⟨hsd, hsum⟩ := dot_post (x := fun k => G i k) (y := Y) (Nat.zero_le i)
      (fun k h0 hk => by rw [body k h0 hk]; exact fun v hv => dbl_ok hv) s es
    rw [Nat.sub_zero, ← range_eq_Ico] at hsum
    refine bind_okP es ?_
    refine bind_okP (Mat.vat_vecFun (by omega)) ?_
    refine bind_okP (a := G i i) (by
      rw [hL.raw (i := i) (j := i) hi hi rfl]
      simp only [lowerPart, if_pos (le_refl i)]) ?_
    obtain ⟨q1, q2⟩ := quot_total ((hbs i hi).trans (zp_mono (by norm_num))) hs (hm.diag i hi)
    refine bind_okP q1 (bind_okP q2 ?_)
    have hne : G i i ≠ 0 := ((zp _).trans_le (hm.diag i hi)).ne'
    refine (h1.wr hi).mono ?_
    intro y' hy'
    refine ⟨fun a => if a = i then fl (fl (vecFun b i - s) / G i i) else Y a, hy'.congr ?_, ?_, ?_⟩
    · intro a _; dsimp only; split_ifs <;> rfl
    · intro a; dsimp only; split_ifs
      · exact fl_isDouble _
      · exact hYd a
    · intro a ha
      dsimp only
      by_cases hai : a = i
      · subst hai
        rw [sum_range_succ, sum_range_succ, sum_upd (by simp), sum_upd_abs (by simp), if_pos rfl,
          mul_comm (G a a)]
        have hbi : IsDouble (vecFun b a) := by
          have : vecFun b a = b[a]'(by omega) := by simp [vecFun, hb, hi]
          rw [this]
          exact hbd _ (List.getElem_mem _)
        exact quot_sum (by omega) hn hbi hsd hne (hG a hi) (sum_nonneg fun _ _ => abs_nonneg _) hsum
      · rw [sum_upd (by simp; omega), sum_upd_abs (by simp; omega)]
        exact h2 a (by omega)
  · rintro y ⟨Y, h1, hYd, h2⟩
    have hTY := fwd n Y le_rfl h2
    have hY2 : ∀ a, a < n → Y a ^ 2 ≤ 2 ^ (361 : ℤ) := fun a ha =>
      (single_le_sum (f := fun k => Y k ^ 2) (fun _ _ => sq_nonneg _) (mem_range.2 ha)).trans hTY
    have bwd : ∀ (i : Nat) (X : Nat → K), i ≤ n → (∀ a, i ≤ a → a < n → |Y a - ∑ j ∈ Ico a n, G j a * X j| ≤
        gam (n + 2) * ∑ j ∈ Ico a n, |G j a * X j| + tau n) → ∑ k ∈ Ico i n, X k ^ 2 ≤ 2 ^ (522 : ℤ) := by
      intro i X hin he
      rcases Nat.eq_zero_or_pos n with h0 | h0
      · rw [Ico_eq_empty_of_le (by omega), sum_empty]; exact (zp _).le
      · exact (hm.backward (hν0 h0) hin hY2 (htau 361 (by norm_num)) hC he).trans
          ((bound 361 h0).trans (le_of_eq (by norm_num)))
    refine OkP.bind (Mat.okP_for (fun t x => ∃ X : Nat → K, Rep1 x n (fun a => some (X a)) ∧
      ∀ a, n - t ≤ a → a < n → |Y a - ∑ j ∈ Ico a n, G j a * X j| ≤
        gam (n + 2) * ∑ j ∈ Ico a n, |G j a * X j| + tau n) ?_ ?_) ?_
    · exact ⟨fun _ => 0, rep1_zeros n, by omega⟩
    · rintro t x ht ⟨X, h3, h4⟩
      have hi : n - 1 - t < n := by omega
      generalize hidef : n - 1 - t = i at hi ⊢
      have hT := bwd (i + 1) X (by omega) (fun a ha1 ha2 => h4 a (by omega) ha2)
      have body : ∀ k, i + 1 ≤ k → k < n → (do
          let l ← rawAt L.buf (i * n + k)
          let v ← Mem.rd x k
          mul l v) = mul (G k i) (X k) := fun k hk1 hk =>
        bind_eq (hL.raw (i := k) (j := i) hk hi rfl) (bind_eq (h3.rd (i := k) hk rfl) (by
          simp only [lowerPart, if_pos (show i ≤ k by omega)]))
      obtain ⟨s, es, hs⟩ := prods_total (x := fun k => G k i) (y := X) (a := i + 1) (b := n) (by omega) (by omega)
        body (prod_le_sq.trans ((add_le_add (colsq i hi) (hT.trans (zp_mono (by norm_num)))).trans two699.le))
      obtain ⟨hsd, hsum⟩ := dot_post (x := fun k => G k i) (y := X) (a := i + 1) (b := n) (by omega)
        (fun k h0 hk => by rw [body k h0 hk]; exact fun v hv => dbl_ok hv) s es
      refine bind_okP es ?_
      refine bind_okP (h1.rd hi rfl) ?_
      refine bind_okP (a := G i i) (by
        rw [hL.raw (i := i) (j := i) hi hi rfl]
        simp only [lowerPart, if_pos (le_refl i)]) ?_
      obtain ⟨q1, q2⟩ := quot_total (abs_le_of_sq (hY2 i hi) (by norm_num)) hs (hm.diag i hi)
      refine bind_okP q1 (bind_okP q2 ?_)
      have hne : G i i ≠ 0 := ((zp _).trans_le (hm.diag i hi)).ne'
      refine (h3.wr hi).mono ?_
      intro x' hx'
      refine ⟨fun a => if a = i then fl (fl (Y i - s) / G i i) else X a, hx'.congr ?_, ?_⟩
      · intro a _; dsimp only; split_ifs <;> rfl
      · intro a ha1 ha2
        dsimp only
        by_cases hai : a = i
        · subst hai
          rw [sum_eq_sum_Ico_succ_bot ha2, sum_eq_sum_Ico_succ_bot ha2, sum_upd (by simp),
            sum_upd_abs (by simp), if_pos rfl, mul_comm (G a a), add_comm (fl _ * _), add_comm |fl _ * _|]
          exact quot_sum (by omega) hn (hYd a) hsd hne (hG a hi) (sum_nonneg fun _ _ => abs_nonneg _) hsum
        · rw [sum_upd (by simp; omega), sum_upd_abs (by simp; omega)]
          exact h4 a (by omega) ha2
    · rintro x ⟨X, h3, h4⟩
      rw [h3.freeze]
      refine okP_ok ⟨by simp, fun a ha => ?_⟩
      have e : vecFun ((List.range n).map X) a = X a := by simp [vecFun, List.getD, ha]
      rw [e]
      have h5 := bwd 0 X (Nat.zero_le n) (fun a _ ha2 => h4 a (by omega) ha2)
      exact abs_le_of_sq ((single_le_sum (f := fun k => X k ^ 2) (fun _ _ => sq_nonneg _)
        (mem_Ico.2 ⟨Nat.zero_le a, ha⟩)).trans h5) (by norm_num)

/-- The whole solver returns for a matrix that is positive definite with a margin. -/
theorem solveSystem_total {A : Mat K} {n : Nat} {F : Nat → Nat → K} {sqrt : K → K} {M μ : K} (hs : IsSqrt sqrt)
    (hA : IsMat A n n F) (hsym : Symm n F) (hn0 : 0 < n) (hn : n ≤ 2 ^ 32)
    (hF : ∀ i j, i < n → j < n → IsDouble (F i j)) (hM1 : 2 ^ (-100 : ℤ) ≤ M) (hM2 : M ≤ 2 ^ (100 : ℤ))
    (hM : ∀ i j, i < n → j < n → |F i j| ≤ M)
    (hμ : ∀ x : Nat → K, μ * ∑ p ∈ range n, x p ^ 2 ≤ quadForm n F x) (hμ2 : 17 / 16 * (n + 5) * hh n * M ≤ μ)
    {b : List K} (hb : b.length = n) (hbd : Doubles b) (hbs : ∀ a, a < n → |vecFun b a| ≤ 2 ^ (100 : ℤ)) :
    OkP (solveSystem sqrt A b) (fun x => x.length = n ∧ ∀ a, a < n → |vecFun x a| ≤ 2 ^ (261 : ℤ)) := by
  have hM0 : 0 < M := (zp _).trans_le hM1
  have hh1 := hh_low (K := K) hn0
  have hh2 := hh_high (K := K) hn
  have hg := gam_hh (K := K) hn
  have hg0 := gam_nonneg (K := K) (n + 2)
  have hn1 : (0 : K) ≤ n := Nat.cast_nonneg _
  unfold solveSystem
  refine OkP.bind (cholesky_total hs hA hsym hn hF hM1 hM2 hM hμ hμ2) ?_
  rintro ⟨L, ret⟩ ⟨hret, G, hL, hG⟩
  dsimp only at hret hL ⊢
  subst hret
  rw [if_neg (by norm_num)]
  refine solveCholesky_total hn hL ?_ hb hbd hbs (margin_of_good hn0 hn hsym hM0 hM hμ hμ2 hG) ?_ ?_ ?_
  · intro i hi
    obtain ⟨-, h1, h2, -⟩ := hG i hi
    rw [abs_of_pos ((zp _).trans_le h1)]
    exact h2
  · have e : (2 : K) ^ (-157 : ℤ) = 2 ^ (-57 : ℤ) * 2 ^ (-100 : ℤ) := by rw [← zp_add]; norm_num
    have h1 : (2 : K) ^ (-57 : ℤ) ≤ 1 / 32 * hh n := by
      have : (2 : K) ^ (-57 : ℤ) = 1 / 16 / 2 ^ 53 := by rw [zpow_neg]; norm_num
      rw [this]; linarith
    have h2 : (2 : K) ^ (-157 : ℤ) ≤ 1 / 32 * hh n * M := by
      rw [e]; exact mul_le_mul h1 hM1 (zp _).le (by linarith)
    have h3 : (n : K) * 2 ^ (-157 : ℤ) ≤ n * (1 / 32 * hh n * M) := mul_le_mul_of_nonneg_left h2 hn1
    refine h3.trans ?_
    linarith
  · rw [show (102 : ℤ) = 1 + 101 by norm_num, zp_add, zpow_one]
    exact mul_le_mul_of_nonneg_left (hM2.trans (zp_mono (by norm_num))) (by norm_num)
  · have h1 : gam (n + 2) ^ 2 ≤ (1 / 2 ^ 19 : K) * (2 * hh n) := by
      rw [sq]
      exact mul_le_mul (by linarith) (by linarith) hg0 (by norm_num)
    have h2 : gam (n + 2) ^ 2 * ((n : K) * (2 * M)) ≤ (1 / 2 ^ 19 * (2 * hh n)) * (n * (2 * M)) :=
      mul_le_mul_of_nonneg_right h1 (by positivity)
    have h3 : 0 ≤ n * hh n * M := mul_nonneg (mul_nonneg hn1 (by linarith)) hM0.le
    linarith

end Rodeo.Dbl
