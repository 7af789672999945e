import Verif.Lemmas.DblSchur

/-! # The factorization in double arithmetic of a matrix that is positive definite with a margin -/

set_option linter.unusedSectionVars false

namespace Rodeo.Dbl

open Spec Finset

variable {K : Type} [Field K] [LinearOrder K] [IsStrictOrderedRing K] [FloorRing K]

/-- The relative error of an accumulated sum, in readable form. -/
def hh (n : Nat) : K := ((n : K) + 2) / 2 ^ 53

theorem hh_low {n : Nat} (h : 0 < n) : 3 / 2 ^ 53 ≤ (hh n : K) := by
  have : (1 : K) ≤ n := by exact_mod_cast h
  exact div_le_div_of_nonneg_right (by linarith) (by norm_num)

theorem hh_high {n : Nat} (h : n ≤ 2 ^ 32) : (hh n : K) ≤ 1 / 2 ^ 20 := by
  have h2 : (n : K) ≤ ((2 ^ 32 : Nat) : K) := by exact_mod_cast h
  have h3 : ((2 ^ 32 : Nat) : K) = 2 ^ 32 := by norm_num
  rw [h3] at h2
  unfold hh
  rw [div_le_iff₀ (by norm_num)]
  refine (add_le_add h2 le_rfl).trans ?_
  norm_num

theorem gam_hh {n : Nat} (h : n ≤ 2 ^ 32) : gam (n + 2) ≤ (1 + 1 / 2 ^ 10) * (hh n : K) := by
  have := gam_le2 (K := K) (n := n + 2) (by omega)
  push_cast at this
  exact this

theorem tau_hh {n : Nat} {M : K} (hn0 : 0 < n) (hn : n ≤ 2 ^ 32) (hM1 : 2 ^ (-100 : ℤ) ≤ M) :
    tau n ≤ hh n / 2 ^ 10 * M := by
  refine (tau_le hn).trans ?_
  have a1 : (2 : K) ^ (-561 : ℤ) ≤ 2 ^ (-63 : ℤ) * 2 ^ (-100 : ℤ) := by
    rw [← zp_add]; exact zp_mono (by norm_num)
  have h := hh_low (K := K) hn0
  have a2 : (2 : K) ^ (-63 : ℤ) ≤ hh n / 2 ^ 10 := by
    have : (2 : K) ^ (-63 : ℤ) = 1 / 2 ^ 63 := by rw [zpow_neg, one_div, ← zp_nat]; rfl
    rw [this]
    linarith
  exact a1.trans (mul_le_mul a2 hM1 (zp _).le (by linarith))

/-- The error of an entry, absolutely. -/
theorem delta_of_near {n : Nat} {M f S P w : K} (hn0 : 0 < n) (hn : n ≤ 2 ^ 32) (hM1 : 2 ^ (-100 : ℤ) ≤ M)
    (hf : |f| ≤ M) (hS : |S| ≤ P) (hP : P ≤ M)
    (h : |f - (S + w)| ≤ gam (n + 2) * (P + |w|) + tau n) : |f - (S + w)| ≤ 4 * hh n * M := by
  have h1 := hh_low (K := K) hn0
  have h2 := hh_high (K := K) hn
  have h3 := gam_hh (K := K) hn
  have h4 := tau_hh hn0 hn hM1
  have hM0 : 0 < M := (zp _).trans_le hM1
  have hP0 : 0 ≤ P := (abs_nonneg _).trans hS
  have hw0 := abs_nonneg w
  have h5 : gam (n + 2) * (P + |w|) ≤ (1 + 1 / 2 ^ 10) * hh n * (M + |w|) :=
    mul_le_mul h3 (by linarith) (by linarith) (by linarith)
  have h6 : |w| ≤ |f - (S + w)| + |f| + |S| := by
    have e : w = -(f - (S + w)) + f - S := by ring
    nth_rw 1 [e]
    refine (abs_sub _ _).trans ?_
    have := abs_add_le (-(f - (S + w))) f
    rw [abs_neg] at this
    linarith
  have h7 : hh n * |w| ≤ 1 / 2 ^ 20 * |w| := mul_le_mul_of_nonneg_right h2 hw0
  have h8 : hh n * M ≤ 1 / 2 ^ 20 * M := mul_le_mul_of_nonneg_right h2 hM0.le
  have h9 : |w| ≤ 5 / 2 * M := by linarith
  have h10 : hh n * |w| ≤ hh n * (5 / 2 * M) := mul_le_mul_of_nonneg_left h9 (by linarith)
  have h11 : 0 ≤ hh n * M := mul_nonneg (by linarith) hM0.le
  linarith

/-- The same when the products are known to be small. -/
theorem delta_sharp {n : Nat} {M f S P w : K} (hn0 : 0 < n) (hn : n ≤ 2 ^ 32) (hM1 : 2 ^ (-100 : ℤ) ≤ M)
    (hP0 : 0 ≤ P) (hP : P + |w| ≤ (1 + 1 / 2 ^ 7) * M)
    (h : |f - (S + w)| ≤ gam (n + 2) * (P + |w|) + tau n) : |f - (S + w)| ≤ 33 / 32 * hh n * M := by
  have h1 := hh_low (K := K) hn0
  have h3 := gam_hh (K := K) hn
  have h4 := tau_hh hn0 hn hM1
  have hM0 : 0 < M := (zp _).trans_le hM1
  have h5 : gam (n + 2) * (P + |w|) ≤ (1 + 1 / 2 ^ 10) * hh n * ((1 + 1 / 2 ^ 7) * M) :=
    mul_le_mul h3 hP (add_nonneg hP0 (abs_nonneg w)) (by linarith)
  have h11 : 0 ≤ hh n * M := mul_nonneg (by linarith) hM0.le
  linarith

/-- The products of a diagonal entry. -/
theorem diag_small {n : Nat} {M f P w : K} (hn0 : 0 < n) (hn : n ≤ 2 ^ 32) (hM1 : 2 ^ (-100 : ℤ) ≤ M)
    (hf : |f| ≤ M) (hP0 : 0 ≤ P) (hw : 0 ≤ w)
    (h : |f - (P + w)| ≤ gam (n + 2) * (P + |w|) + tau n) : P + |w| ≤ (1 + 1 / 2 ^ 7) * M := by
  have h1 := hh_low (K := K) hn0
  have h2 := hh_high (K := K) hn
  have h3 := gam_hh (K := K) hn
  have h4 := tau_hh hn0 hn hM1
  have hM0 : 0 < M := (zp _).trans_le hM1
  rw [abs_of_nonneg hw] at h ⊢
  have h5 : gam (n + 2) * (P + w) ≤ 1 / 2 ^ 10 * (P + w) :=
    mul_le_mul_of_nonneg_right (by linarith) (by linarith)
  have h6 := (abs_le.1 h).1
  have h7 := (le_abs_self _).trans hf
  have h8 : hh n * M ≤ 1 / 2 ^ 20 * M := mul_le_mul_of_nonneg_right h2 hM0.le
  linarith

/-- Rows below `i` are computed. -/
def GoodInv (n : Nat) (M : K) (F G : Nat → Nat → K) (i : Nat) : Prop :=
  ∀ a, a < i → (∀ b, b ≤ a → |F a b - ∑ k ∈ range (b + 1), G a k * G b k| ≤ 33 / 32 * hh n * M) ∧
    2 ^ (-75 : ℤ) ≤ G a a ∧ G a a ≤ 2 ^ (512 : ℤ) ∧ IsDouble (G a a)

theorem sum_congr_rows {a b : Nat} {G H : Nat → Nat → K} {m : Nat} (h1 : ∀ k, k < m → H a k = G a k)
    (h2 : ∀ k, k < m → H b k = G b k) : ∑ k ∈ range m, H a k * H b k = ∑ k ∈ range m, G a k * G b k :=
  sum_congr rfl fun k hk => by rw [mem_range] at hk; rw [h1 k hk, h2 k hk]

theorem rows_products {m : Nat} {x y : Nat → K} {M : K} (hx : ∑ k ∈ range m, x k * x k ≤ M)
    (hy : ∑ k ∈ range m, y k * y k ≤ M) : ∑ k ∈ range m, |x k * y k| ≤ M := by
  have h4 : ∑ k ∈ range m, |x k * y k| ≤
      ∑ k ∈ range m, (1 / 2 * (x k * x k) + 1 / 2 * (y k * y k)) := by
    refine sum_le_sum fun k _ => abs_le.2 ⟨?_, ?_⟩
    · nlinarith [mul_self_nonneg (x k + y k)]
    · nlinarith [mul_self_nonneg (x k - y k)]
  rw [sum_add_distrib, ← mul_sum, ← mul_sum] at h4
  linarith

theorem choleskyRow_total {A : Mat K} {n i : Nat} {F G : Nat → Nat → K} {L : List (Option K)}
    {sqrt : K → K} {M μ : K} (hs : IsSqrt sqrt) (hA : IsMat A n n F) (hsym : Symm n F) (hn : n ≤ 2 ^ 32)
    (hF : ∀ i j, i < n → j < n → IsDouble (F i j)) (hM1 : 2 ^ (-100 : ℤ) ≤ M) (hM2 : M ≤ 2 ^ (100 : ℤ))
    (hM : ∀ i j, i < n → j < n → |F i j| ≤ M)
    (hμ : ∀ x : Nat → K, μ * ∑ p ∈ range n, x p ^ 2 ≤ quadForm n F x) (hμ2 : 17 / 16 * (n + 5) * hh n * M ≤ μ) (hi : i < n)
    (hL : Rep2 L n n (fun a b => some (G a b))) (hI : GoodInv n M F G i) :
    OkP (choleskyRow sqrt A.buf n i L) (fun s => s.2 = false ∧
      ∃ H : Nat → Nat → K, Rep2 s.1 n n (fun a b => some (H a b)) ∧ GoodInv n M F H (i + 1)) := by
  have hn0 : 0 < n := by omega
  have hM0 : 0 < M := (zp _).trans_le hM1
  have hh1 := hh_low (K := K) hn0
  have hh2 := hh_high (K := K) hn
  have hg := gam_hh (K := K) hn
  have hg0 := gam_nonneg (K := K) (n + 2)
  have ht := tau_hh hn0 hn hM1
  have ht0 := tau_nonneg (K := K) n
  have hhM : 0 ≤ hh n * M := mul_nonneg (by linarith) hM0.le
  have hδ : 0 ≤ 33 / 32 * hh n * M := by linarith
  have hδ' : 0 ≤ 4 * hh n * M := by linarith
  have hn1 : (1 : K) ≤ n := by exact_mod_cast hn0
  have hnM : 0 ≤ (n : K) * (hh n * M) := mul_nonneg (by linarith) hhM
  have hμδ : 5 * hh n * M ≤ μ - n * (33 / 32 * hh n * M) := by linarith
  have hnδ : (n : K) * (33 / 32 * hh n * M) ≤ μ := by linarith
  -- what the pivots say about partial rows
  have pivot : ∀ (H : Nat → Nat → K) (r j : Nat), r < n → j ≤ r → j ≤ i → (∀ a b, a ≠ i → H a b = G a b) →
      (∀ b, b < j → |F r b - ∑ k ∈ range (b + 1), H r k * H b k| ≤ 33 / 32 * hh n * M) →
      5 * hh n * M ≤ F r r - ∑ k ∈ range j, H r k * H r k := by
    intro H r j hr hjr hji hHG hrow
    refine hμδ.trans (schur hr hjr hsym hμ hδ hnδ ?_ ?_ hrow)
    · intro a ha b hb
      rw [sum_congr_rows (H := H) (G := G) (fun k _ => hHG a k (by omega)) (fun k _ => hHG b k (by omega))]
      exact (hI a (by omega)).1 b hb
    · intro a ha
      rw [hHG a a (by omega)]
      exact (zp _).trans_le (hI a (by omega)).2.1
  unfold choleskyRow
  refine (Mat.okP_for (fun j (s : List (Option K) × Bool) => s.2 = false ∧
        ∃ H : Nat → Nat → K, Rep2 s.1 n n (fun a b => some (H a b)) ∧ (∀ a b, a ≠ i → H a b = G a b) ∧
          (∀ b, b < j → |F i b - ∑ k ∈ range (b + 1), H i k * H b k| ≤ 33 / 32 * hh n * M) ∧
          (i < j → 2 ^ (-75 : ℤ) ≤ H i i ∧ H i i ≤ 2 ^ (512 : ℤ) ∧ IsDouble (H i i))) ?_ ?_).mono ?_
  · exact ⟨rfl, G, hL, fun _ _ _ => rfl, by omega, by omega⟩
  · rintro j ⟨d, flag⟩ hj ⟨hflag, H, h1, h2, h3, -⟩
    dsimp only at hflag h1 ⊢
    subst hflag
    rw [if_neg (by simp)]
    -- the two rows are not large
    have hRi : 5 * hh n * M ≤ F i i - ∑ k ∈ range j, H i k * H i k :=
      pivot H i j hi (by omega) (by omega) h2 h3
    have hRj : 5 * hh n * M ≤ F j j - ∑ k ∈ range j, H j k * H j k := by
      by_cases hij : j = i
      · subst hij; exact hRi
      · refine pivot H j j (by omega) le_rfl (by omega) h2 ?_
        intro b hb
        rw [sum_congr_rows (H := H) (G := G) (fun k _ => h2 j k hij) (fun k _ => h2 b k (by omega))]
        exact (hI j (by omega)).1 b hb.le
    have bRi : ∑ k ∈ range j, H i k * H i k ≤ M := by
      have := (le_abs_self _).trans (hM i i hi hi); linarith
    have bRj : ∑ k ∈ range j, H j k * H j k ≤ M := by
      have := (le_abs_self _).trans (hM j j (by omega) (by omega)); linarith
    have hP := rows_products bRi bRj
    have hP0 : 0 ≤ ∑ k ∈ range j, |H i k * H j k| := sum_nonneg fun _ _ => abs_nonneg _
    have hS : |∑ k ∈ range j, H i k * H j k| ≤ ∑ k ∈ range j, |H i k * H j k| := abs_sum_le_sum_abs _ _
    -- the accumulated sum
    have body : ∀ k, k < j → (do
        let x ← Mem.rd d (i + k * n)
        let y ← Mem.rd d (j + k * n)
        mul x y) = mul (H i k) (H j k) := fun k hk =>
      bind_eq (h1.rd (i := i) (j := k) hi (by omega) (Nat.add_comm _ _) rfl)
        (bind_eq (h1.rd (i := j) (j := k) (by omega) (by omega) (Nat.add_comm _ _) rfl) rfl)
    obtain ⟨s, es, hsd, -⟩ := products_total (n := j) (x := fun k => H i k) (y := fun k => H j k)
      (by omega) body (hP.trans (hM2.trans (by rw [two_pow_cast]; exact zp_mono (by norm_num))))
    have hsum : |s - ∑ k ∈ range j, H i k * H j k| ≤
        gam (j + 1) * ∑ k ∈ range j, |H i k * H j k| + j * (1 + eps) ^ j * eta := by
      have := (dot_post (x := fun k => H i k) (y := fun k => H j k) (Nat.zero_le j)
        (fun k _ hk => by rw [body k hk]; exact fun v hv => dbl_ok hv) s es).2
      rwa [Nat.sub_zero, ← range_eq_Ico] at this
    have hsum2 : |s - ∑ k ∈ range j, H i k * H j k| ≤ 2 * hh n * M := by
      have a1 : gam (j + 1) * ∑ k ∈ range j, |H i k * H j k| ≤ (1 + 1 / 2 ^ 10) * hh n * M :=
        mul_le_mul ((gam_mono (by omega)).trans hg) hP hP0 (by linarith)
      have a2 : (j : K) * (1 + eps) ^ j * eta ≤ tau n := by
        have b1 : (j : K) * (1 + eps) ^ j * eta ≤ n * 2 * eta := by
          refine mul_le_mul_of_nonneg_right ?_ eta_pos.le
          refine mul_le_mul ?_ (pow_eps_le (by omega)) ?_ (Nat.cast_nonneg _)
          · exact_mod_cast (by omega : j ≤ n)
          · have := eps_pos (K := K); positivity
        have b2 : 0 ≤ 2 * eta * (2 : K) ^ (512 : ℤ) := by
          have := eta_pos (K := K)
          have := zp (K := K) 512
          positivity
        unfold tau
        linarith
      have a3 : 0 ≤ hh n * M := mul_nonneg (by linarith) hM0.le
      linarith
    have hsmall : hh n * M ≤ 1 / 2 ^ 20 * M := mul_le_mul_of_nonneg_right hh2 hM0.le
    have hdiff : ∀ f : K, |f| ≤ M → |f - s| ≤ 2 ^ (102 : ℤ) := by
      intro f hf
      have e : f - s = f - (s - ∑ k ∈ range j, H i k * H j k) - ∑ k ∈ range j, H i k * H j k := by ring
      have h5 : |f - s| ≤ 4 * M := by
        rw [e]
        refine (abs_sub _ _).trans ((add_le_add (abs_sub _ _) le_rfl).trans ?_)
        linarith
      refine h5.trans ((mul_le_mul_of_nonneg_left hM2 (by norm_num)).trans (le_of_eq ?_))
      rw [show (102 : ℤ) = 2 + 100 by norm_num, zp_add]
      norm_num
    -- the row with the new entry is not large either
    have sharp : ∀ v : K, j < i →
        |F i j - (∑ k ∈ range j, H i k * H j k + v * H j j)| ≤ 4 * hh n * M →
        ∑ k ∈ range j, |H i k * H j k| + |v * H j j| ≤ (1 + 1 / 2 ^ 7) * M := by
      intro v hji hv
      let H' : Nat → Nat → K := fun a b => if a = i ∧ b = j then v else H a b
      have e1 : ∀ k, k < j → H' i k = H i k := fun k hk => if_neg (by omega)
      have e2 : ∀ a k, a ≠ i → H' a k = H a k := fun a k ha => if_neg (by tauto)
      have e3 : H' i j = v := if_pos ⟨rfl, rfl⟩
      have hrow : μ - n * (33 / 32 * hh n * M) - 4 * hh n * M ≤ F i i - ∑ k ∈ range (j + 1), H' i k * H' i k := by
        refine schur2 (c := j) hi (by omega) (Nat.lt_succ_self j) hsym hμ hδ hδ' (by linarith) ?_ ?_ ?_
        · intro a ha b hb
          rw [sum_congr_rows (H := H') (G := G) (fun k _ => (e2 a k (by omega)).trans (h2 a k (by omega)))
            (fun k _ => (e2 b k (by omega)).trans (h2 b k (by omega)))]
          exact (hI a (by omega)).1 b hb
        · intro a ha
          rw [e2 a a (by omega), h2 a a (by omega)]
          exact (zp _).trans_le (hI a (by omega)).2.1
        · intro b hb
          by_cases hbj : b = j
          · subst hbj
            rw [if_pos rfl, sum_range_succ, e3, e2 b b (by omega)]
            rw [sum_congr_rows (H := H') (G := H) e1 (fun k _ => e2 b k (by omega))]
            linarith
          · rw [if_neg hbj, add_zero]
            rw [sum_congr_rows (H := H') (G := H) (fun k hk => e1 k (by omega)) (fun k _ => e2 b k (by omega))]
            exact h3 b (by omega)
      have bi : ∑ k ∈ range (j + 1), H' i k * H' i k ≤ (1 + 1 / 2 ^ 7) * M := by
        have := (le_abs_self _).trans (hM i i hi hi); linarith
      have bj : ∑ k ∈ range (j + 1), H' j k * H' j k ≤ (1 + 1 / 2 ^ 7) * M := by
        rw [sum_congr_rows (H := H') (G := G) (fun k _ => (e2 j k (by omega)).trans (h2 j k (by omega)))
            (fun k _ => (e2 j k (by omega)).trans (h2 j k (by omega)))]
        have r1 := (abs_le.1 ((hI j hji).1 j le_rfl)).1
        have r2 := (le_abs_self _).trans (hM j j (by omega) (by omega))
        linarith
      have := rows_products bi bj
      rw [sum_range_succ, e3, e2 j j (by omega)] at this
      have e4 : ∑ k ∈ range j, |H' i k * H' j k| = ∑ k ∈ range j, |H i k * H j k| :=
        sum_congr rfl fun k hk => by rw [mem_range] at hk; rw [e1 k hk, e2 j k (by omega)]
      rwa [e4] at this
    -- the new array
    have fin : ∀ (v : K) (d' : List (Option K)),
        Rep2 d' n n (fun a b => if a = i ∧ b = j then some v else some (H a b)) →
        |F i j - (∑ k ∈ range j, H i k * H j k + v * (if i = j then v else H j j))| ≤ 33 / 32 * hh n * M →
        (i = j → 2 ^ (-75 : ℤ) ≤ v ∧ v ≤ 2 ^ (512 : ℤ) ∧ IsDouble v) →
        ∃ H : Nat → Nat → K, Rep2 d' n n (fun a b => some (H a b)) ∧ (∀ a b, a ≠ i → H a b = G a b) ∧
          (∀ b, b < j + 1 → |F i b - ∑ k ∈ range (b + 1), H i k * H b k| ≤ 33 / 32 * hh n * M) ∧
          (i < j + 1 → 2 ^ (-75 : ℤ) ≤ H i i ∧ H i i ≤ 2 ^ (512 : ℤ) ∧ IsDouble (H i i)) := by
      intro v d' hd' hv hv2
      refine ⟨fun a b => if a = i ∧ b = j then v else H a b, hd'.congr ?_, ?_, ?_, ?_⟩
      · intro a b _ _; dsimp only; split_ifs <;> rfl
      · intro a b ha; dsimp only; rw [if_neg (by tauto), h2 a b ha]
      · intro b hb
        by_cases hbj : b = j
        · subst hbj
          rw [sum_range_succ]
          dsimp only
          have e1 : ∑ k ∈ range b, (if i = i ∧ k = b then v else H i k) *
              (if b = i ∧ k = b then v else H b k) = ∑ k ∈ range b, H i k * H b k :=
            sum_congr rfl fun k hk => by
              rw [mem_range] at hk; rw [if_neg (by omega), if_neg (by omega)]
          rw [e1, if_pos ⟨rfl, rfl⟩]
          have e3 : (if b = i ∧ b = b then v else H b b) = if i = b then v else H b b := by
            by_cases h : i = b
            · rw [if_pos ⟨h.symm, rfl⟩, if_pos h]
            · rw [if_neg (fun h' => h h'.1.symm), if_neg h]
          rw [e3]
          exact hv
        · have e1 : ∑ k ∈ range (b + 1), (if i = i ∧ k = j then v else H i k) *
              (if b = i ∧ k = j then v else H b k) = ∑ k ∈ range (b + 1), H i k * H b k :=
            sum_congr rfl fun k hk => by
              rw [mem_range] at hk; rw [if_neg (by omega), if_neg (by omega)]
          dsimp only
          rw [e1]
          exact h3 b (by omega)
      · intro hij
        have : i = j := by omega
        dsimp only
        rw [if_pos ⟨rfl, this⟩]
        exact hv2 this
    refine bind_okP es ?_
    split_ifs with hij
    · subst hij
      refine bind_okP (hA.raw (i := i) (j := i) hi hi (Nat.add_comm _ _)) ?_
      have hfac : (2 : K) ^ (-150 : ℤ) ≤ F i i - s := by
        have a1 : F i i - s = (F i i - ∑ k ∈ range i, H i k * H i k) - (s - ∑ k ∈ range i, H i k * H i k) := by ring
        have a2 := (abs_le.1 hsum2).2
        have a3 : (2 : K) ^ (-150 : ℤ) ≤ 3 * hh n * M := by
          have : (2 : K) ^ (-150 : ℤ) = 2 ^ (-50 : ℤ) * 2 ^ (-100 : ℤ) := by rw [← zp_add]; norm_num
          rw [this]
          refine mul_le_mul ?_ hM1 (zp _).le (by linarith)
          have : (2 : K) ^ (-50 : ℤ) = 8 / 2 ^ 53 := by rw [zpow_neg]; norm_num
          rw [this]
          linarith
        rw [a1]
        linarith
      have hfac2 := hdiff (F i i) (hM i i hi hi)
      refine bind_okP (a := fl (F i i - s)) (dbl_of_le (n := 102) (by norm_num) (by norm_num) hfac2) ?_
      have hfl : (2 : K) ^ (-150 : ℤ) ≤ fl (F i i - s) :=
        double_le_fl ⟨1, -150, by norm_num, by norm_num, by simp⟩ hfac
      have hfl2 := fl_abs_le (n := 102) (by norm_num) hfac2
      have hfl0 : 0 ≤ fl (F i i - s) := (zp _).le.trans hfl
      rw [if_neg (not_lt.2 hfl0)]
      obtain ⟨q1, q2⟩ := hs _ hfl0
      rw [abs_of_nonneg hfl0] at hfl2
      have r1 : sqrt (fl (F i i - s)) ≤ 2 ^ (51 : ℤ) := by
        by_contra hc
        push Not at hc
        have := mul_lt_mul'' hc hc (zp _).le (zp _).le
        rw [← zp_add, q2] at this
        exact absurd (this.trans_le hfl2) (by norm_num)
      have r2 : (2 : K) ^ (-75 : ℤ) ≤ sqrt (fl (F i i - s)) := by
        by_contra hc
        push Not at hc
        have := mul_lt_mul'' hc hc q1 q1
        rw [← zp_add, q2] at this
        exact absurd (hfl.trans_lt this) (by norm_num)
      refine bind_okP (a := fl (sqrt (fl (F i i - s)))) (dbl_of_le (n := 51) (by norm_num) (by norm_num)
        (by rwa [abs_of_nonneg q1])) ?_
      refine OkP.bind (h1.wr (v := fl (sqrt (fl (F i i - s)))) hi hi (Nat.add_comm _ _)) ?_
      intro d' hd'
      refine okP_ok ⟨rfl, fin _ d' hd' ?_ ?_⟩
      · rw [if_pos rfl]
        have near := diag_sum (by omega) hn (hF i i hi hi) hsd q1 q2 hP0 hsum
        have eP : ∑ k ∈ range i, |H i k * H i k| = ∑ k ∈ range i, H i k * H i k :=
          sum_congr rfl fun k _ => abs_of_nonneg (mul_self_nonneg _)
        refine delta_sharp hn0 hn hM1 hP0 ?_ near
        rw [eP] at near hP0 ⊢
        exact diag_small hn0 hn hM1 (hM i i hi hi) hP0 (mul_self_nonneg _) near
      · intro _
        refine ⟨double_le_fl ⟨1, -75, by norm_num, by norm_num, by simp⟩ r2, ?_, fl_isDouble _⟩
        exact (fl_le_double ⟨1, 51, by norm_num, by norm_num, by simp⟩ r1).trans (zp_mono (by norm_num))
    · have hji : j < i := by omega
      obtain ⟨-, p1, p2, -⟩ := hI j hji
      rw [← h2 j j (by omega)] at p1 p2
      have hl0 : 0 < H j j := (zp _).trans_le p1
      refine bind_okP (h1.rd (i := j) (j := j) (by omega) (by omega) (Nat.add_comm _ _) rfl) ?_
      have hr : |1 / H j j| ≤ 2 ^ (75 : ℤ) := by
        rw [abs_of_pos (by positivity), one_div, show (75 : ℤ) = -(-75) by norm_num, zpow_neg]
        exact inv_anti₀ (zp _) p1
      refine bind_okP (a := fl (1 / H j j)) ?_ ?_
      · unfold Dbl.div
        rw [if_neg hl0.ne']
        exact dbl_of_le (n := 75) (by norm_num) (by norm_num) hr
      refine bind_okP (hA.raw (i := i) (j := j) hi (by omega) (Nat.add_comm _ _)) ?_
      have hfac2 := hdiff (F i j) (hM i j hi (by omega))
      refine bind_okP (a := fl (F i j - s)) (dbl_of_le (n := 102) (by norm_num) (by norm_num) hfac2) ?_
      refine bind_okP (a := fl (fl (1 / H j j) * fl (F i j - s)))
        (dbl_of_le (n := 177) (by norm_num) (by norm_num) ?_) ?_
      · rw [abs_mul, show (177 : ℤ) = 75 + 102 by norm_num, zp_add]
        exact mul_le_mul (fl_abs_le (by norm_num) hr) (fl_abs_le (by norm_num) hfac2) (abs_nonneg _) (zp _).le
      refine OkP.bind (h1.wr (v := fl (fl (1 / H j j) * fl (F i j - s))) hi (by omega)
        (Nat.add_comm _ _)) ?_
      intro d' hd'
      refine okP_ok ⟨rfl, fin _ d' hd' ?_ (fun h => absurd h hij)⟩
      rw [if_neg hij]
      have near := offdiag_sum (by omega) hn (hF i j hi (by omega)) hsd hl0 p2 hP0 hsum
      have crude := delta_of_near hn0 hn hM1 (hM i j hi (by omega)) hS hP near
      refine delta_sharp hn0 hn hM1 hP0 ?_ near
      exact sharp _ hji crude
  · rintro ⟨d, flag⟩ ⟨hflag, H, h1, h2, h3, h4⟩
    refine ⟨hflag, H, h1, ?_⟩
    intro a ha
    by_cases hai : a = i
    · subst hai
      exact ⟨fun b hb => h3 b (by omega), h4 (by omega)⟩
    · obtain ⟨e1, e2⟩ := hI a (by omega)
      refine ⟨fun b hb => ?_, ?_⟩
      · rw [sum_congr_rows (H := H) (G := G) (fun k _ => h2 a k hai) (fun k _ => h2 b k (by omega))]
        exact e1 b hb
      · rw [h2 a a hai]
        exact e2

theorem cholesky_total {A : Mat K} {n : Nat} {F : Nat → Nat → K} {sqrt : K → K} {M μ : K} (hs : IsSqrt sqrt)
    (hA : IsMat A n n F) (hsym : Symm n F) (hn : n ≤ 2 ^ 32)
    (hF : ∀ i j, i < n → j < n → IsDouble (F i j)) (hM1 : 2 ^ (-100 : ℤ) ≤ M) (hM2 : M ≤ 2 ^ (100 : ℤ))
    (hM : ∀ i j, i < n → j < n → |F i j| ≤ M)
    (hμ : ∀ x : Nat → K, μ * ∑ p ∈ range n, x p ^ 2 ≤ quadForm n F x) (hμ2 : 17 / 16 * (n + 5) * hh n * M ≤ μ) :
    OkP (cholesky sqrt A) (fun r => r.2 = 1 ∧ ∃ G, IsMat r.1 n n (lowerPart G) ∧ GoodInv n M F G n) := by
  obtain ⟨hr, hc, -, -⟩ := id hA
  unfold cholesky
  rw [if_neg (by omega)]
  simp only [hr, hc]
  refine OkP.bind (Mat.okP_for (fun i (s : List (Option K) × Bool) => s.2 = false ∧
    ∃ H : Nat → Nat → K, Rep2 s.1 n n (fun a b => some (H a b)) ∧ GoodInv n M F H i) ?_ ?_) ?_
  · exact ⟨rfl, fun _ _ => 0, rep2_zeros n n, fun a ha => by omega⟩
  · rintro i ⟨d, flag⟩ hi ⟨hflag, H, h1, h2⟩
    dsimp only at hflag
    subst hflag
    rw [if_neg (by simp)]
    exact choleskyRow_total hs hA hsym hn hF hM1 hM2 hM hμ hμ2 hi h1 h2
  · rintro ⟨d, flag⟩ ⟨hflag, H, h1, h2⟩
    dsimp only at hflag
    subst hflag
    rw [if_neg (by simp)]
    refine OkP.bind (Mat.okP_for (fun i d => Rep2 d n n (fun a b =>
      if a < i ∧ a < b then some 0 else some (H a b))) ?_ ?_) ?_
    · exact h1.start (by omega)
    · intro i d hi hd
      refine (loopFrom_inv' (fun j d => Rep2 d n n (fun a b =>
        if (a < i ∧ a < b) ∨ (a = i ∧ a < b ∧ b < j) then some 0 else some (H a b)))
        (a := i + 1) (b := n) (by omega) ?_ ?_).mono ?_
      · exact hd.cond (by omega)
      · intro j d hj1 hj2 hd
        exact hd.wr_next i j hi hj2 rfl rfl (by omega)
      · intro d hd
        exact hd.cond (by omega)
    · intro d hd
      refine OkP.bind (Mat.okP_freeze (G := lowerPart H) (hd.congr ?_)) ?_
      · intro a b ha hb
        unfold lowerPart
        by_cases hba : b ≤ a
        · rw [if_neg (by omega), if_pos hba]
        · rw [if_pos (by omega), if_neg hba]
      · intro l hl
        exact okP_ok ⟨rfl, H, hl, h2⟩

end Rodeo.Dbl
