import Verif.Props.DblLU

/-! # The triangular solves without overflow -/

set_option linter.unusedSectionVars false

namespace Rodeo.Dbl
open Spec Finset

variable {K : Type} [Field K] [LinearOrder K] [IsStrictOrderedRing K] [FloorRing K]

theorem isDouble_nat_pow {m e : Nat} (hm : m < 2 ^ 53) : IsDouble ((m : K) * 2 ^ e) := by
  have h := isDouble_pow_mul (isDouble_nat (K := K) hm) e
  rwa [mul_comm] at h

theorem finite_of_le {x : K} {e : Nat} (he : e ≤ 1023) (h : |x| ≤ 2 ^ e) : dbl x = .ok (fl x) := by
  refine dbl_of_le (n := (e : ℤ)) (by omega) (by omega) ?_
  rwa [zpow_natCast]

theorem sub_abs_le {a b A B : K} (ha : |a| ≤ A) (hb : |b| ≤ B) : |a - b| ≤ A + B :=
  (abs_sub _ _).trans (add_le_add ha hb)

/-- Forward substitution. -/
theorem forwardSubstitution_total {n : Nat} {LU : Mat K} {M : Nat → Nat → K} {π : Nat → Nat} {b : List K}
    (hL : IsMat LU n n M) (hπ : ∀ i, i < n → π i < n) (hb : b.length = n) (hb1 : ∀ i, i < n → |vecFun b i| ≤ 1)
    (hM : ∀ i l, i < n → l < i → |M i l| ≤ 1) (hn : n ≤ 1000) :
    OkP (forwardSubstitution n LU.buf ((List.range n).map π) b (Mem.alloc n))
      (fun y => ∃ Y : Nat → K, Rep1 y n (fun i => some (Y i)) ∧ ∀ i, i < n → |Y i| ≤ 2 ^ n) := by
  unfold forwardSubstitution
  refine OkP.bind (Mat.okP_for (fun q y => Rep1 y n (fun i =>
      if i < q then some (vecFun b (π i)) else none)) ?_ ?_) ?_
  · exact (rep1_alloc n).congr (by simp)
  · intro q y hq hy
    refine bind_okP (a := π q) (by simp [rawAt, hq]) ?_
    refine bind_okP (a := vecFun b (π q)) ?_ ?_
    · have := hπ q hq
      simp [rawAt, vecFun, hb, this]
    · refine (hy.wr hq).mono ?_
      intro d hd
      refine hd.congr ?_
      intro i hi
      by_cases h3 : i = q
      · rw [if_pos h3, if_pos (by omega), h3]
      · rw [if_neg h3]
        by_cases h4 : i < q
        · rw [if_pos h4, if_pos (by omega)]
        · rw [if_neg h4, if_neg (by omega)]
  · intro y hy
    refine (Mat.okP_for (fun q y => ∃ Y : Nat → K, Rep1 y n (fun i => some (Y i)) ∧
      (∀ i, i < q → |Y i| ≤ 2 ^ i) ∧ (∀ i, q ≤ i → Y i = vecFun b (π i))) ?_ ?_).mono ?_
    · refine ⟨fun i => vecFun b (π i), hy.congr ?_, by omega, fun i _ => rfl⟩
      intro i hi; rw [if_pos hi]
    · rintro q y hq ⟨Y, h1, h2, h3⟩
      refine (Mat.okP_for (fun r y => ∃ Z : Nat → K, Rep1 y n (fun i => some (Z i)) ∧
        (∀ i, i ≠ q → Z i = Y i) ∧ |Z q| ≤ 2 ^ r) ?_ ?_).mono ?_
      · refine ⟨Y, h1, fun _ _ => rfl, ?_⟩
        rw [h3 q le_rfl, pow_zero]
        exact hb1 _ (hπ q hq)
      · rintro r y hr ⟨Z, h4, h5, h6⟩
        have hZr : |Z r| ≤ 2 ^ r := by rw [h5 r (by omega)]; exact h2 r hr
        have hd : IsDouble ((2 : K) ^ r) := by
          have := isDouble_nat_pow (K := K) (m := 1) (e := r) (by norm_num)
          simpa using this
        have hm : |M q r * Z r| ≤ 2 ^ r := by
          rw [abs_mul]
          exact (mul_le_of_le_one_left (abs_nonneg _) (hM q r hq hr)).trans hZr
        have hs : |Z q - fl (M q r * Z r)| ≤ 2 ^ (r + 1) := by
          refine (sub_abs_le h6 (fl_abs_le_dbl hd hm)).trans (le_of_eq (by ring))
        refine bind_okP (h4.rd hq rfl) ?_
        refine bind_okP (hL.raw (i := q) (j := r) hq (by omega) (Nat.add_comm _ _)) ?_
        refine bind_okP (h4.rd (i := r) (by omega) rfl) ?_
        refine bind_okP (finite_of_le (by omega) hm) ?_
        refine bind_okP (finite_of_le (by omega) hs) ?_
        refine (h4.wr hq).mono ?_
        intro d hd'
        refine ⟨fun i => if i = q then fl (Z q - fl (M q r * Z r)) else Z i, hd'.congr ?_, ?_, ?_⟩
        · intro i _; dsimp only; split_ifs <;> rfl
        · intro i hi; simp only [if_neg hi]; exact h5 i hi
        · simp only [if_true]
          have hd2 : IsDouble ((2 : K) ^ (r + 1)) := by
            have := isDouble_nat_pow (K := K) (m := 1) (e := r + 1) (by norm_num)
            simpa using this
          exact fl_abs_le_dbl hd2 hs
      · rintro d ⟨Z, h4, h5, h6⟩
        refine ⟨Z, h4, ?_, ?_⟩
        · intro i hi
          by_cases hiq : i = q
          · subst hiq; exact h6
          · rw [h5 i hiq]; exact h2 i (by omega)
        · intro i hi
          rw [h5 i (by omega), h3 i (by omega)]
    · rintro y ⟨Y, h1, h2, -⟩
      exact ⟨Y, h1, fun i hi => (h2 i hi).trans (pow_le_pow_right₀ (by norm_num) hi.le)⟩

/-- Backward substitution. -/
theorem backwardSubstitution_total {n a c k : Nat} {LU : Mat K} {M : Nat → Nat → K} {y : List (Option K)}
    {Y : Nat → K} (hL : IsMat LU n n M) (hy : Rep1 y n (fun i => some (Y i)))
    (hY : ∀ i, i < n → |Y i| ≤ 2 ^ c) (hU : ∀ i j, i ≤ j → j < n → |M i j| ≤ 2 ^ a)
    (hD : ∀ i, i < n → 1 / 2 ^ 30 ≤ |M i i|) (hk : n ≤ 2 ^ k) (hn : n < 2 ^ 52) (hE : c + n * (a + 30 + k) ≤ 1000) :
    OkP (backwardSubstitution n LU.buf y (Mem.zeros n))
      (fun x => ∃ X : Nat → K, Rep1 x n (fun i => some (X i))) := by
  unfold backwardSubstitution
  refine (Mat.okP_for (fun t x => ∃ X : Nat → K, Rep1 x n (fun i => some (X i)) ∧
      ∀ i, n - t ≤ i → i < n → |X i| ≤ 2 ^ (c + t * (a + 30 + k))) ?_ ?_).mono ?_
  · exact ⟨fun _ => 0, rep1_zeros n, by omega⟩
  · rintro t x ht ⟨X, h1, h2⟩
    have hi : n - 1 - t < n := by omega
    simp only []
    generalize hidef : n - 1 - t = i at hi ⊢
    have hEt : c + (t + 1) * (a + 30 + k) ≤ 1000 := by
      have : (t + 1) * (a + 30 + k) ≤ n * (a + 30 + k) := Nat.mul_le_mul_right _ ht
      omega
    have hEs : (t + 1) * (a + 30 + k) = t * (a + 30 + k) + (a + 30 + k) := by ring
    set E := c + t * (a + 30 + k) with hEd
    have hcE : (2 : K) ^ c ≤ 2 ^ (E + a) := pow_le_pow_right₀ (by norm_num) (by omega)
    refine bind_okP (hy.rd hi rfl) ?_
    refine OkP.bind (h1.wr (v := Y i) hi) ?_
    intro x1 hx1
    refine OkP.bind (loopFrom_inv' (fun r x => ∃ Z : Nat → K, Rep1 x n (fun a => some (Z a)) ∧
        (∀ a, a ≠ i → Z a = X a) ∧ |Z i| ≤ ((r - i : Nat) : K) * 2 ^ (E + a))
        (a := i + 1) (b := n) (by omega) ?_ ?_) ?_
    · refine ⟨fun a => if a = i then Y i else X a, hx1.congr ?_, ?_, ?_⟩
      · intro a _; dsimp only; split_ifs <;> rfl
      · intro a ha; simp only [if_neg ha]
      · simp only [if_true]
        rw [show i + 1 - i = 1 by omega, Nat.cast_one, one_mul]
        exact (hY i hi).trans hcE
    · rintro r x hr1 hr2 ⟨Z, h4, h5, h6⟩
      have hZr : |Z r| ≤ 2 ^ E := by rw [h5 r (by omega)]; exact h2 r (by omega) hr2
      have hm : |M i r * Z r| ≤ 2 ^ (E + a) := by
        rw [abs_mul, pow_add, mul_comm]
        exact mul_le_mul hZr (hU i r (by omega) hr2) (abs_nonneg _) (by positivity)
      have hdm : IsDouble ((2 : K) ^ (E + a)) := by
        have := isDouble_nat_pow (K := K) (m := 1) (e := E + a) (by norm_num)
        simpa using this
      have hs : |Z i - fl (M i r * Z r)| ≤ ((r + 1 - i : Nat) : K) * 2 ^ (E + a) := by
        refine (sub_abs_le h6 (fl_abs_le_dbl hdm hm)).trans (le_of_eq ?_)
        rw [show r + 1 - i = (r - i) + 1 by omega]
        push_cast; ring
      have hs2 : ((r + 1 - i : Nat) : K) * 2 ^ (E + a) ≤ 2 ^ (k + (E + a)) := by
        rw [pow_add 2 k]
        refine mul_le_mul_of_nonneg_right ?_ (by positivity)
        have : r + 1 - i ≤ 2 ^ k := by omega
        exact_mod_cast this
      refine bind_okP (h4.rd hi rfl) ?_
      refine bind_okP (hL.raw (i := i) (j := r) hi hr2 (Nat.add_comm _ _)) ?_
      refine bind_okP (h4.rd (i := r) hr2 rfl) ?_
      refine bind_okP (finite_of_le (by omega) hm) ?_
      refine bind_okP (finite_of_le (e := k + (E + a)) (by omega) (hs.trans hs2)) ?_
      refine (h4.wr hi).mono ?_
      intro d hd
      refine ⟨fun a => if a = i then fl (Z i - fl (M i r * Z r)) else Z a, hd.congr ?_, ?_, ?_⟩
      · intro a _; dsimp only; split_ifs <;> rfl
      · intro a ha; simp only [if_neg ha]; exact h5 a ha
      · simp only [if_true]
        exact fl_abs_le_dbl (isDouble_nat_pow (by omega)) hs
    · rintro x2 ⟨Z, h4, h5, h6⟩
      have hDi := hD i hi
      have hne : M i i ≠ 0 := by
        intro h0
        rw [h0, abs_zero] at hDi
        exact absurd hDi (not_le.2 (by positivity))
      have hq : |Z i / M i i| ≤ 2 ^ (c + (t + 1) * (a + 30 + k)) := by
        rw [abs_div, div_le_iff₀ (abs_pos.2 hne)]
        have e1 : (2 : K) ^ (c + (t + 1) * (a + 30 + k)) = 2 ^ k * 2 ^ (E + a) * 2 ^ 30 := by
          rw [← pow_add, ← pow_add]; congr 1; omega
        have h7 : |Z i| ≤ 2 ^ k * 2 ^ (E + a) := by
          refine h6.trans (mul_le_mul_of_nonneg_right ?_ (by positivity))
          have : n - i ≤ 2 ^ k := by omega
          exact_mod_cast this
        have h8 : (1 : K) ≤ 2 ^ 30 * |M i i| := by
          have := mul_le_mul_of_nonneg_left hDi (by positivity : (0 : K) ≤ 2 ^ 30)
          rwa [mul_one_div, div_self (by positivity)] at this
        rw [e1, mul_assoc]
        exact h7.trans (le_mul_of_one_le_right (by positivity) h8)
      refine bind_okP (h4.rd hi rfl) ?_
      refine bind_okP (hL.raw (i := i) (j := i) hi hi (Nat.add_comm _ _)) ?_
      refine bind_okP (a := fl (Z i / M i i)) ?_ ?_
      · unfold div
        rw [if_neg hne]
        exact finite_of_le (by omega) hq
      · refine (h4.wr hi).mono ?_
        intro d hd'
        refine ⟨fun a => if a = i then fl (Z i / M i i) else Z a, hd'.congr ?_, ?_⟩
        · intro a _; dsimp only; split_ifs <;> rfl
        · intro b hb1 hb2
          dsimp only
          by_cases hbi : b = i
          · rw [if_pos hbi]
            have hd2 : IsDouble ((2 : K) ^ (c + (t + 1) * (a + 30 + k))) := by
              have := isDouble_nat_pow (K := K) (m := 1) (e := c + (t + 1) * (a + 30 + k)) (by norm_num)
              simpa using this
            exact fl_abs_le_dbl hd2 hq
          · rw [if_neg hbi, h5 b hbi]
            exact (h2 b (by omega) hb2).trans (pow_le_pow_right₀ (by norm_num) (by omega))
  · rintro x ⟨X, h1, -⟩
    exact ⟨X, h1⟩

/-- The inverse is computed when the factorization succeeds and the exponents leave room. -/
theorem invert_total {A : Mat K} {n a k : Nat} {B : K} {F : Nat → Nat → K} (hA : IsMat A n n F)
    (hB : IsDouble B) (hF : ∀ i j, i < n → j < n → IsDouble (F i j)) (hFB : ∀ i j, i < n → j < n → |F i j| ≤ B)
    (hlu : ∃ r, lu A = .ok (some r)) (hBa : 2 ^ n * B ≤ 2 ^ a) (hk : n ≤ 2 ^ k) (hE : n + n * (a + 30 + k) ≤ 1000) :
    ∃ C, invert A = .ok C := by
  have hn : n ≤ 1000 := by omega
  obtain ⟨hr, hc, -, -⟩ := id hA
  obtain ⟨⟨LU, p⟩, hlu⟩ := hlu
  obtain ⟨M, π, h3, rfl, h4⟩ := (lu_post hA (by omega) hB hF hFB).1 _ hlu
  suffices OkP (invert A) (fun _ => True) by
    obtain ⟨d, e, -⟩ := this
    exact ⟨d, e⟩
  unfold invert
  rw [if_neg (by omega), hr, hlu]
  have hB0 : n ≠ 0 → 0 ≤ B := fun h => h4.bound_nonneg (by omega)
  have hsol : ∀ q, q < n → OkP (solveLU LU ((List.range n).map π) (Mat.unitVec n q)) (fun x => x.length = n) := by
    intro q hq
    obtain ⟨hr', hc', -, -⟩ := id h3
    unfold solveLU
    rw [if_neg (by simp [hr', hc', Mat.unitVec]), hr']
    refine OkP.bind (forwardSubstitution_total h3 h4.low (by simp [Mat.unitVec]) ?_
      (fun i l hi hl => h4.small i l hi (by omega) hl) hn) ?_
    · intro i hi
      rw [Mat.vecFun_unitVec hq hi]
      split_ifs <;> simp
    · rintro y ⟨Y, h5, h6⟩
      refine OkP.bind (backwardSubstitution_total (a := a) (c := n) (k := k) h3 h5 h6 ?_ ?_ hk (by omega) hE) ?_
      · intro i j hij hj
        have := h4.growth i j (by omega) hj (by omega)
        refine (this.trans ?_).trans hBa
        exact mul_le_mul_of_nonneg_right (pow_le_pow_right₀ (by norm_num) (by omega)) (hB0 (by omega))
      · intro i hi
        refine le_trans ?_ (tol_near.1.trans (h4.pivot i hi))
        norm_num
      · rintro x ⟨X, h7⟩
        rw [h7.freeze]
        exact okP_ok (by simp)
  refine OkP.bind (P := fun r => r = some (LU, (List.range n).map π)) (okP_ok rfl) ?_
  rintro _ rfl
  refine OkP.bind (P := fun d => ∃ T : Nat → Nat → K, Rep2 d n n (fun i j => some (T i j))) ?_ ?_
  · refine Mat.okP_for (fun _ d => ∃ T : Nat → Nat → K, Rep2 d n n (fun i j => some (T i j))) ?_ ?_
    · exact ⟨fun _ _ => 0, rep2_zeros n n⟩
    · rintro q d hq ⟨T, hd⟩
      refine OkP.bind (hsol q hq) ?_
      intro x hx
      refine (Mat.okP_for (fun r d => Rep2 d n n (fun i j =>
          if j = q ∧ i < r then some (vecFun x i) else some (T i j))) ?_ ?_).mono ?_
      · exact hd.start (by omega)
      · intro r d hr' hd
        refine bind_okP (Mat.vat_vecFun (by omega)) ?_
        rw [Mat.wrAt_eq hr' hq]
        exact hd.wr_next r q hr' hq rfl rfl (by omega)
      · intro d hd
        refine ⟨fun i j => if j = q ∧ i < n then vecFun x i else T i j, hd.congr ?_⟩
        intro i j _ _
        dsimp only; split_ifs <;> rfl
  · rintro d ⟨T, hd⟩
    refine OkP.bind (Mat.okP_freeze hd) ?_
    intro l _
    exact okP_ok trivial

end Rodeo.Dbl
