import Verif.Lemmas.DblSum
import Verif.Lemmas.Chol

/-! # Errors of the Cholesky factorization and of the triangular solves in double arithmetic -/

set_option linter.unusedSectionVars false

namespace Rodeo.Dbl

open Spec Finset

variable {K : Type} [Field K] [LinearOrder K] [IsStrictOrderedRing K] [FloorRing K]

theorem dbl_lt {x r : K} (h : dbl x = .ok r) : |r| < 2 ^ (1024 : ℤ) := by
  unfold dbl at h
  split_ifs at h with hb
  rw [← Except.ok.inj h]
  exact hb.trans_eq (zp_nat 1024).symm

theorem double_pos_ge {x : K} (h : IsDouble x) (h0 : 0 < x) : 2 ^ (-1074 : ℤ) ≤ x := by
  obtain ⟨m, e, -, he, rfl⟩ := h
  have hm : 0 < (m : K) := (pos_iff_pos_of_mul_pos h0).2 (zp e)
  have hm1 : (1 : K) ≤ m := by
    have : 0 < m := by exact_mod_cast hm
    exact_mod_cast this
  calc (2 : K) ^ (-1074 : ℤ) ≤ 2 ^ e := zp_mono he
    _ = 1 * 2 ^ e := (one_mul _).symm
    _ ≤ (m : K) * 2 ^ e := mul_le_mul_of_nonneg_right hm1 (zp e).le

theorem gam_two : (gam 2 : K) = 2 * eps + eps * eps := by unfold gam; ring

theorem gam_three : (gam 3 : K) = 3 * eps + 3 * (eps * eps) + eps * eps * eps := by unfold gam; ring

/-- An entry below the diagonal. -/
theorem offdiag_err {a s l : K} (ha : IsDouble a) (hs : IsDouble s) (hl0 : 0 < l) (hl1 : l ≤ 2 ^ (512 : ℤ)) :
    |a - s - fl (fl (1 / l) * fl (a - s)) * l| ≤
      gam 3 * |fl (fl (1 / l) * fl (a - s)) * l| + (1 + eps) ^ 2 * eta * l := by
  have he := eps_pos (K := K)
  have hn := eta_pos (K := K)
  have h1 := fl_sub_res ha hs
  set d := fl (a - s) with hd
  have h2 : |fl (1 / l) - 1 / l| ≤ eps * |fl (1 / l)| := by
    refine fl_err_normal ?_
    rw [abs_of_pos (by positivity)]
    have : (2 : K) ^ (-512 : ℤ) ≤ 1 / l := by
      rw [zpow_neg, one_div]
      exact inv_anti₀ hl0 hl1
    exact (zp_mono (by norm_num)).trans this
  have hr0 : 0 ≤ fl (1 / l) := fl_nonneg (by positivity)
  set r := fl (1 / l) with hr
  rw [abs_of_nonneg hr0] at h2
  have h3 := fl_err_res (r * d)
  set v := fl (r * d) with hv
  -- the reciprocal times the pivot
  have h4 : |r * l - 1| ≤ eps * (r * l) := by
    have e : r * l - 1 = (r - 1 / l) * l := by field_simp
    rw [e, abs_mul, abs_of_pos hl0, ← mul_assoc]
    exact mul_le_mul_of_nonneg_right h2 hl0.le
  set ρ := r * l with hρ
  have hρ0 : 0 ≤ ρ := mul_nonneg hr0 hl0.le
  have hρ1 : 1 ≤ (1 + eps) * ρ := by
    have := (abs_le.1 h4).1; linarith
  have h5 : ρ * |d| ≤ (1 + eps) * |v * l| + eta * l := by
    have e : ρ * d = v * l - (v - r * d) * l := by rw [hρ]; ring
    have h6 : |ρ * d| ≤ |v * l| + |(v - r * d) * l| := by rw [e]; exact abs_sub _ _
    rw [abs_mul, abs_of_nonneg hρ0] at h6
    have h7 : |(v - r * d) * l| ≤ (eps * |v| + eta) * l := by
      rw [abs_mul, abs_of_pos hl0]
      exact mul_le_mul_of_nonneg_right h3 hl0.le
    have h8 : |v * l| = |v| * l := by rw [abs_mul, abs_of_pos hl0]
    have e2 : (eps * |v| + eta) * l = eps * (|v| * l) + eta * l := by ring
    rw [e2, ← h8] at h7
    linarith
  have h6 : |d| ≤ (1 + eps) * (ρ * |d|) := by
    have := mul_le_mul_of_nonneg_right hρ1 (abs_nonneg d)
    linarith
  have e : a - s - v * l = d * (1 - ρ) - (d - (a - s)) - (v - r * d) * l := by rw [hρ]; ring
  have h7 : |a - s - v * l| ≤ |d * (1 - ρ)| + |d - (a - s)| + |(v - r * d) * l| := by
    rw [e]
    exact (abs_sub _ _).trans (add_le_add (abs_sub _ _) le_rfl)
  have h8 : |d * (1 - ρ)| ≤ eps * (ρ * |d|) := by
    rw [abs_mul, abs_sub_comm 1 ρ]
    calc |d| * |ρ - 1| ≤ |d| * (eps * ρ) := mul_le_mul_of_nonneg_left h4 (abs_nonneg _)
      _ = eps * (ρ * |d|) := by ring
  have h9 : |(v - r * d) * l| ≤ eps * |v * l| + eta * l := by
    rw [abs_mul, abs_of_pos hl0, abs_mul, abs_of_pos hl0]
    calc |v - r * d| * l ≤ (eps * |v| + eta) * l := mul_le_mul_of_nonneg_right h3 hl0.le
      _ = eps * (|v| * l) + eta * l := by ring
  have h10 : eps * |d| ≤ eps * ((1 + eps) * (ρ * |d|)) := mul_le_mul_of_nonneg_left h6 he.le
  have h11 : (2 * eps + eps * eps) * (ρ * |d|) ≤ (2 * eps + eps * eps) * ((1 + eps) * |v * l| + eta * l) :=
    mul_le_mul_of_nonneg_left h5 (by positivity)
  rw [gam_three]
  have e3 : (2 * eps + eps * eps) * ((1 + eps) * |v * l| + eta * l) + (eps * |v * l| + eta * l)
      = (3 * eps + 3 * (eps * eps) + eps * eps * eps) * |v * l| + (1 + eps) ^ 2 * eta * l := by ring
  rw [← e3]
  linarith

/-- A pivot. -/
theorem diag_err {a s q : K} (ha : IsDouble a) (hs : IsDouble s) (hq : 0 ≤ q) (hq2 : q * q = fl (a - s)) :
    |a - s - fl q * fl q| ≤ gam 3 * (fl q * fl q) := by
  have he := eps_pos (K := K)
  have h1 := fl_sub_res ha hs
  have hfac0 : 0 ≤ fl (a - s) := by rw [← hq2]; positivity
  rw [abs_of_nonneg hfac0] at h1
  have hl0 : 0 ≤ fl q := fl_nonneg hq
  have h2 : |fl q - q| ≤ eps * fl q := by
    rcases hq.eq_or_lt with h | h
    · rw [← h, fl_zero]; simp
    · have h3 : 0 < fl (a - s) := by rw [← hq2]; positivity
      have h4 := double_pos_ge (fl_isDouble _) h3
      rw [← abs_of_nonneg hl0]
      nth_rw 2 [abs_of_nonneg hl0]
      have := fl_err_normal (x := q) ?_
      · rw [abs_of_nonneg hl0] at this ⊢; exact this
      · rw [abs_of_pos h]
        by_contra hc
        push Not at hc
        have h5 : q * q < 2 ^ (-1022 : ℤ) * 2 ^ (-1022 : ℤ) := mul_lt_mul'' hc hc hq hq
        rw [← zp_add, hq2] at h5
        have h6 : (2 : K) ^ (-1022 + -1022 : ℤ) ≤ 2 ^ (-1074 : ℤ) := zp_mono (by norm_num)
        exact absurd (h4.trans_lt (h5.trans_le h6)) (lt_irrefl _)
  set l := fl q with hl
  have hql : q ≤ (1 + eps) * l := by have := (abs_le.1 h2).1; linarith
  have h3 : |q * q - l * l| ≤ (2 * eps + eps * eps) * (l * l) := by
    have e : q * q - l * l = (q - l) * (q + l) := by ring
    rw [e, abs_mul, abs_sub_comm q l, abs_of_nonneg (by positivity : 0 ≤ q + l)]
    calc |l - q| * (q + l) ≤ eps * l * ((1 + eps) * l + l) :=
          mul_le_mul h2 (by linarith) (by positivity) (by positivity)
      _ = (2 * eps + eps * eps) * (l * l) := by ring
  have h4 : q * q ≤ (1 + eps) * l * ((1 + eps) * l) := mul_le_mul hql hql hq (by positivity)
  rw [← hq2] at h1
  have e : a - s - l * l = -(q * q - (a - s)) + (q * q - l * l) := by ring
  rw [e]
  refine (abs_add_le _ _).trans ?_
  rw [abs_neg]
  have h5 : eps * (q * q) ≤ eps * ((1 + eps) * l * ((1 + eps) * l)) := mul_le_mul_of_nonneg_left h4 he.le
  rw [gam_three]
  have e3 : eps * ((1 + eps) * l * ((1 + eps) * l)) + (2 * eps + eps * eps) * (l * l) =
    (3 * eps + 3 * (eps * eps) + eps * eps * eps) * (l * l) := by ring
  linarith

/-- The root of a finite double. -/
theorem root_le {f q : K} (hf : f < 2 ^ (1024 : ℤ)) (hq2 : q * q = f) : fl q ≤ 2 ^ (512 : ℤ) := by
  refine fl_le_double ⟨1, 512, by norm_num, by norm_num, by simp⟩ ?_
  by_contra hc
  push Not at hc
  have : (2 : K) ^ (512 : ℤ) * 2 ^ (512 : ℤ) < q * q := mul_lt_mul'' hc hc (zp _).le (zp _).le
  rw [← zp_add, hq2] at this
  exact absurd (this.trans hf) (by norm_num)

/-- A quotient of the triangular solves. -/
theorem quot_err {b s d : K} (hb : IsDouble b) (hs : IsDouble s) (hd : d ≠ 0) :
    |b - s - fl (fl (b - s) / d) * d| ≤ gam 2 * |fl (fl (b - s) / d) * d| + (1 + eps) * eta * |d| := by
  have he := eps_pos (K := K)
  have h1 := fl_sub_res hb hs
  set r := fl (b - s) with hr
  have h2 := fl_err_res (r / d)
  set q := fl (r / d) with hq
  have h3 : |r - q * d| ≤ eps * |q * d| + eta * |d| := by
    have e : r - q * d = -((q - r / d) * d) := by field_simp; ring
    rw [e, abs_neg, abs_mul, abs_mul]
    calc |q - r / d| * |d| ≤ (eps * |q| + eta) * |d| := mul_le_mul_of_nonneg_right h2 (abs_nonneg _)
      _ = eps * (|q| * |d|) + eta * |d| := by ring
  have h4 : |r| ≤ |r - q * d| + |q * d| := by
    have := abs_add_le (r - q * d) (q * d)
    rwa [sub_add_cancel] at this
  have h5 : eps * |r| ≤ eps * (eps * |q * d| + eta * |d| + |q * d|) :=
    mul_le_mul_of_nonneg_left (h4.trans (by linarith)) he.le
  have e : b - s - q * d = -(r - (b - s)) + (r - q * d) := by ring
  rw [e]
  refine (abs_add_le _ _).trans ?_
  rw [abs_neg, gam_two]
  have e3 : eps * (eps * |q * d| + eta * |d| + |q * d|) + (eps * |q * d| + eta * |d|) =
    (2 * eps + eps * eps) * |q * d| + (1 + eps) * eta * |d| := by ring
  linarith

/-! ## With the error of the accumulated sum -/

/-- What remains of underflow. -/
def tau (n : Nat) : K := 2 * eta * ((n : K) + 2 ^ (512 : ℤ))

theorem tau_nonneg (n : Nat) : (0 : K) ≤ tau n := by
  have := eta_pos (K := K)
  have := zp (K := K) 512
  unfold tau; positivity

theorem with_sum {n m : Nat} {a s S P w c : K} (hm : m + 1 ≤ n) (hn : n ≤ 2 ^ 32)
    (hP : 0 ≤ P) (hS : |s - S| ≤ gam (m + 1) * P + m * (1 + eps) ^ m * eta) (hc : c ≤ 2 * eta * 2 ^ (512 : ℤ))
    (h : |a - s - w| ≤ gam 3 * |w| + c) :
    |a - (S + w)| ≤ gam (n + 2) * (P + |w|) + tau n := by
  have hn0 := eta_pos (K := K)
  have e : a - (S + w) = (a - s - w) + (s - S) := by ring
  rw [e]
  refine (abs_add_le _ _).trans ?_
  have h1 : gam (m + 1) * P ≤ gam (n + 2) * P := mul_le_mul_of_nonneg_right (gam_mono (by omega)) hP
  have h2 : gam 3 * |w| ≤ gam (n + 2) * |w| := mul_le_mul_of_nonneg_right (gam_mono (by omega)) (abs_nonneg w)
  have h3 : (m : K) * (1 + eps) ^ m * eta ≤ n * 2 * eta := by
    refine mul_le_mul_of_nonneg_right ?_ hn0.le
    refine mul_le_mul ?_ (pow_eps_le (by omega)) ?_ (Nat.cast_nonneg _)
    · exact_mod_cast (by omega : m ≤ n)
    · have := eps_pos (K := K); positivity
  unfold tau
  have e2 : 2 * eta * ((n : K) + 2 ^ (512 : ℤ)) = n * 2 * eta + 2 * eta * 2 ^ (512 : ℤ) := by ring
  rw [e2, mul_add]
  linarith

theorem eps_sq_le : (1 + eps : K) ^ 2 ≤ 2 := pow_eps_le (n := 2) (by norm_num)

theorem one_eps_le : (1 + eps : K) ≤ 2 := by
  have := pow_eps_le (K := K) (n := 1) (by norm_num)
  rwa [pow_one] at this

theorem offdiag_sum {n m : Nat} {a s S P l : K} (hm : m + 1 ≤ n) (hn : n ≤ 2 ^ 32) (ha : IsDouble a)
    (hs : IsDouble s) (hl0 : 0 < l) (hl1 : l ≤ 2 ^ (512 : ℤ)) (hP : 0 ≤ P)
    (hS : |s - S| ≤ gam (m + 1) * P + m * (1 + eps) ^ m * eta) :
    |a - (S + fl (fl (1 / l) * fl (a - s)) * l)| ≤
      gam (n + 2) * (P + |fl (fl (1 / l) * fl (a - s)) * l|) + tau n := by
  refine with_sum hm hn hP hS ?_ (offdiag_err ha hs hl0 hl1)
  have := eta_pos (K := K)
  exact mul_le_mul (mul_le_mul_of_nonneg_right eps_sq_le this.le) hl1 hl0.le (by positivity)

theorem diag_sum {n m : Nat} {a s S P q : K} (hm : m + 1 ≤ n) (hn : n ≤ 2 ^ 32) (ha : IsDouble a)
    (hs : IsDouble s) (hq : 0 ≤ q) (hq2 : q * q = fl (a - s)) (hP : 0 ≤ P)
    (hS : |s - S| ≤ gam (m + 1) * P + m * (1 + eps) ^ m * eta) :
    |a - (S + fl q * fl q)| ≤ gam (n + 2) * (P + |fl q * fl q|) + tau n := by
  refine with_sum (c := 0) hm hn hP hS ?_ ?_
  · have := eta_pos (K := K)
    have := zp (K := K) 512
    positivity
  · rw [abs_mul_self, add_zero]
    exact diag_err ha hs hq hq2

theorem quot_sum {n m : Nat} {b s S P d : K} (hm : m + 1 ≤ n) (hn : n ≤ 2 ^ 32) (hb : IsDouble b)
    (hs : IsDouble s) (hd : d ≠ 0) (hd1 : |d| ≤ 2 ^ (512 : ℤ)) (hP : 0 ≤ P)
    (hS : |s - S| ≤ gam (m + 1) * P + m * (1 + eps) ^ m * eta) :
    |b - (S + fl (fl (b - s) / d) * d)| ≤
      gam (n + 2) * (P + |fl (fl (b - s) / d) * d|) + tau n := by
  have h := quot_err hb hs hd
  refine with_sum (c := (1 + eps) * eta * |d|) hm hn hP hS ?_ (h.trans (add_le_add ?_ le_rfl))
  · have := eta_pos (K := K)
    exact mul_le_mul (mul_le_mul_of_nonneg_right one_eps_le this.le) hd1 (abs_nonneg _) (by positivity)
  · exact mul_le_mul_of_nonneg_right (gam_mono (by norm_num)) (abs_nonneg _)

/-! ## The factorization -/

/-- Entry `(a, b)` of the factor satisfies its equation up to rounding. -/
def NearEq (n : Nat) (F G : Nat → Nat → K) (a b : Nat) : Prop :=
  |F a b - ∑ k ∈ range (b + 1), G a k * G b k| ≤
    gam (n + 2) * ∑ k ∈ range (b + 1), |G a k * G b k| + tau n

/-- Rows below `i` of `G` are a Cholesky factor of those of `F` up to rounding. -/
def NearInv (n : Nat) (F G : Nat → Nat → K) (i : Nat) : Prop :=
  ∀ a, a < i → (∀ b, b ≤ a → NearEq n F G a b) ∧ 0 ≤ G a a ∧ G a a ≤ 2 ^ (512 : ℤ)

theorem NearEq.congr {n : Nat} {F G H : Nat → Nat → K} {a b : Nat} (h : NearEq n F G a b)
    (h1 : ∀ k, k ≤ b → H a k = G a k) (h2 : ∀ k, k ≤ b → H b k = G b k) : NearEq n F H a b := by
  unfold NearEq at *
  have e1 : ∑ k ∈ range (b + 1), H a k * H b k = ∑ k ∈ range (b + 1), G a k * G b k :=
    sum_congr rfl fun k hk => by rw [mem_range] at hk; rw [h1 k (by omega), h2 k (by omega)]
  have e2 : ∑ k ∈ range (b + 1), |H a k * H b k| = ∑ k ∈ range (b + 1), |G a k * G b k| :=
    sum_congr rfl fun k hk => by rw [mem_range] at hk; rw [h1 k (by omega), h2 k (by omega)]
  rw [e1, e2]; exact h

theorem choleskyRow_near {A : Mat K} {n i : Nat} {F G : Nat → Nat → K} {L : List (Option K)}
    {sqrt : K → K} (hs : IsSqrt sqrt) (hA : IsMat A n n F) (hn : n ≤ 2 ^ 32)
    (hF : ∀ i j, i < n → j < n → IsDouble (F i j)) (hi : i < n)
    (hL : Rep2 L n n (fun a b => some (G a b))) (hI : NearInv n F G i) :
    Post (choleskyRow sqrt A.buf n i L) (fun s => s.2 = false →
      ∃ H : Nat → Nat → K, Rep2 s.1 n n (fun a b => some (H a b)) ∧ NearInv n F H (i + 1)) := by
  unfold choleskyRow
  refine (forRange_post' (fun j (s : List (Option K) × Bool) => s.2 = false →
        ∃ H : Nat → Nat → K, Rep2 s.1 n n (fun a b => some (H a b)) ∧ (∀ a b, a ≠ i → H a b = G a b) ∧
          (∀ b, b < j → NearEq n F H i b) ∧ (i < j → 0 ≤ H i i ∧ H i i ≤ 2 ^ (512 : ℤ))) ?_ ?_).mono ?_
  · intro _
    exact ⟨G, hL, fun _ _ _ => rfl, by omega, by omega⟩
  · rintro j ⟨d, flag⟩ hj hInv
    cases flag with
    | true =>
      rw [if_pos rfl]
      exact Post.ok (by intro h; cases h)
    | false =>
      rw [if_neg (by simp)]
      obtain ⟨H, h1, h2, h3, -⟩ := hInv rfl
      dsimp only at h1 ⊢
      refine Post.bind (dot_post (x := fun k => H i k) (y := fun k => H j k) (Nat.zero_le j) ?_) ?_
      · intro k _ hk v hv
        rw [h1.rd (i := i) (j := k) hi (by omega) (Nat.add_comm _ _) rfl] at hv
        change ((Mem.rd d (j + k * n)) >>= _) = _ at hv
        rw [h1.rd (i := j) (j := k) (by omega) (by omega) (Nat.add_comm _ _) rfl] at hv
        exact dbl_ok hv
      · rintro s ⟨hsd, hsum⟩
        rw [Nat.sub_zero, ← range_eq_Ico] at hsum
        have hP : 0 ≤ ∑ k ∈ range j, |H i k * H j k| := sum_nonneg fun _ _ => abs_nonneg _
        -- what follows from the equation of entry (i, j) for the new array
        have fin : ∀ (v : K) (d' : List (Option K)),
            Rep2 d' n n (fun a b => if a = i ∧ b = j then some v else some (H a b)) →
            |F i j - (∑ k ∈ range j, H i k * H j k + v * (if i = j then v else H j j))| ≤
              gam (n + 2) * (∑ k ∈ range j, |H i k * H j k| + |v * (if i = j then v else H j j)|) + tau n →
            (i = j → 0 ≤ v ∧ v ≤ 2 ^ (512 : ℤ)) →
            ∃ H : Nat → Nat → K, Rep2 d' n n (fun a b => some (H a b)) ∧ (∀ a b, a ≠ i → H a b = G a b) ∧
              (∀ b, b < j + 1 → NearEq n F H i b) ∧ (i < j + 1 → 0 ≤ H i i ∧ H i i ≤ 2 ^ (512 : ℤ)) := by
          intro v d' hd' hv hv2
          refine ⟨fun a b => if a = i ∧ b = j then v else H a b, hd'.congr ?_, ?_, ?_, ?_⟩
          · intro a b _ _; dsimp only; split_ifs <;> rfl
          · intro a b ha; dsimp only; rw [if_neg (by tauto), h2 a b ha]
          · intro b hb
            by_cases hbj : b = j
            · subst hbj
              unfold NearEq
              rw [sum_range_succ, sum_range_succ]
              dsimp only
              have e1 : ∑ k ∈ range b, (if i = i ∧ k = b then v else H i k) *
                  (if b = i ∧ k = b then v else H b k) = ∑ k ∈ range b, H i k * H b k :=
                sum_congr rfl fun k hk => by
                  rw [mem_range] at hk; rw [if_neg (by omega), if_neg (by omega)]
              have e2 : ∑ k ∈ range b, |(if i = i ∧ k = b then v else H i k) *
                  (if b = i ∧ k = b then v else H b k)| = ∑ k ∈ range b, |H i k * H b k| :=
                sum_congr rfl fun k hk => by
                  rw [mem_range] at hk; rw [if_neg (by omega), if_neg (by omega)]
              rw [e1, e2, if_pos ⟨rfl, rfl⟩]
              have e3 : (if b = i ∧ b = b then v else H b b) = if i = b then v else H b b := by
                by_cases h : i = b
                · rw [if_pos ⟨h.symm, rfl⟩, if_pos h]
                · rw [if_neg (fun h' => h h'.1.symm), if_neg h]
              rw [e3]
              exact hv
            · refine (h3 b (by omega)).congr ?_ ?_
              · intro k hk; rw [if_neg (by omega)]
              · intro k hk; rw [if_neg (by omega)]
          · intro hij
            have : i = j := by omega
            dsimp only
            rw [if_pos ⟨rfl, this⟩]
            exact hv2 this
        split_ifs with hij
        · subst hij
          refine Post.bind (P := fun v => v = F i i) ?_ ?_
          · rw [hA.raw (i := i) (j := i) hi hi (Nat.add_comm _ _)]; exact Post.ok rfl
          rintro _ rfl
          refine Post.bind (P := fun v => v = fl (F i i - s) ∧ |v| < 2 ^ (1024 : ℤ))
            (fun v hv => ⟨dbl_ok hv, dbl_lt hv⟩) ?_
          rintro _ ⟨rfl, hlt⟩
          split_ifs with hneg
          · exact Post.ok (by intro h; cases h)
          · obtain ⟨q1, q2⟩ := hs _ (not_lt.1 hneg)
            rw [abs_of_nonneg (not_lt.1 hneg)] at hlt
            refine Post.bind (P := fun v => v = fl (sqrt (fl (F i i - s)))) (fun v hv => dbl_ok hv) ?_
            rintro _ rfl
            refine Post.bind (OkP.post (h1.wr (v := fl (sqrt (fl (F i i - s)))) hi hi (Nat.add_comm _ _))) ?_
            intro d' hd'
            refine Post.ok fun _ => fin _ d' hd' ?_ ?_
            · rw [if_pos rfl]
              exact diag_sum (by omega) hn (hF i i hi hi) hsd q1 q2 hP hsum
            · intro _
              exact ⟨fl_nonneg q1, root_le hlt q2⟩
        · have hji : j < i := by omega
          refine Post.bind (P := fun v => v = H j j) ?_ ?_
          · rw [h1.rd (i := j) (j := j) (by omega) (by omega) (Nat.add_comm _ _) rfl]; exact Post.ok rfl
          rintro _ rfl
          refine Post.bind (P := fun v => H j j ≠ 0 ∧ v = fl (1 / H j j)) (fun v hv => div_ok hv) ?_
          rintro _ ⟨hne, rfl⟩
          refine Post.bind (P := fun v => v = F i j) ?_ ?_
          · rw [hA.raw (i := i) (j := j) hi (by omega) (Nat.add_comm _ _)]; exact Post.ok rfl
          rintro _ rfl
          refine Post.bind (P := fun v => v = fl (F i j - s)) (fun v hv => dbl_ok hv) ?_
          rintro _ rfl
          refine Post.bind (P := fun v => v = fl (fl (1 / H j j) * fl (F i j - s))) (fun v hv => dbl_ok hv) ?_
          rintro _ rfl
          refine Post.bind (OkP.post (h1.wr (v := fl (fl (1 / H j j) * fl (F i j - s))) hi (by omega)
            (Nat.add_comm _ _))) ?_
          intro d' hd'
          refine Post.ok fun _ => fin _ d' hd' ?_ (fun h => absurd h hij)
          rw [if_neg hij]
          obtain ⟨-, p1, p2⟩ := hI j hji
          rw [← h2 j j (by omega)] at p1 p2
          exact offdiag_sum (by omega) hn (hF i j hi (by omega)) hsd (lt_of_le_of_ne p1 (Ne.symm hne)) p2 hP hsum
  · rintro ⟨d, flag⟩ hInv hflag
    obtain ⟨H, h1, h2, h3, h4⟩ := hInv hflag
    refine ⟨H, h1, ?_⟩
    intro a ha
    by_cases hai : a = i
    · subst hai
      exact ⟨fun b hb => h3 b (by omega), h4 (by omega)⟩
    · obtain ⟨e1, e2⟩ := hI a (by omega)
      refine ⟨fun b hb => (e1 b hb).congr (fun k _ => h2 a k hai) (fun k _ => h2 b k (by omega)), ?_⟩
      rw [h2 a a hai]
      exact e2

theorem cholesky_near {A : Mat K} {n : Nat} {F : Nat → Nat → K} {sqrt : K → K} (hs : IsSqrt sqrt)
    (hA : IsMat A n n F) (hn : n ≤ 2 ^ 32) (hF : ∀ i j, i < n → j < n → IsDouble (F i j)) :
    Post (cholesky sqrt A) (fun r => r.2 ≠ -1 →
      r.2 = 1 ∧ ∃ G, IsMat r.1 n n (lowerPart G) ∧ NearInv n F G n) := by
  obtain ⟨hr, hc, -, -⟩ := id hA
  unfold cholesky
  rw [if_neg (by omega)]
  simp only [hr, hc]
  refine Post.bind (forRange_post' (fun i (s : List (Option K) × Bool) => s.2 = false →
    ∃ H : Nat → Nat → K, Rep2 s.1 n n (fun a b => some (H a b)) ∧ NearInv n F H i) ?_ ?_) ?_
  · intro _
    exact ⟨fun _ _ => 0, rep2_zeros n n, fun a ha => by omega⟩
  · rintro i ⟨d, flag⟩ hi hInv
    cases flag with
    | true => rw [if_pos rfl]; exact Post.ok (by intro h; cases h)
    | false =>
      rw [if_neg (by simp)]
      obtain ⟨H, h1, h2⟩ := hInv rfl
      exact choleskyRow_near hs hA hn hF hi h1 h2
  · rintro ⟨d, flag⟩ hInv
    cases flag with
    | true =>
      rw [if_pos rfl]
      refine Post.bind Post.trivial fun l _ => Post.ok (by intro h; exact absurd rfl h)
    | false =>
      rw [if_neg (by simp)]
      obtain ⟨H, h1, h2⟩ := hInv rfl
      refine OkP.post ?_
      refine OkP.bind (Mat.okP_for (fun i d => Rep2 d n n (fun a b =>
        if a < i ∧ a < b then some 0 else some (H a b))) ?_ ?_) ?_
      · exact h1.start (by omega)
      · intro i d hi hd
        refine (loopFrom_inv' (fun j d => Rep2 d n n (fun a b =>
          if (a < i ∧ a < b) ∨ (a = i ∧ a < b ∧ b < j) then some 0 else some (H a b)))
          (a := i + 1) (b := n) (by omega) ?_ ?_).mono ?_
        · exact hd.cond (by omega)
        · intro j d hj1 hj2 hd
          exact hd.wr_next i j hi hj2 rfl rfl (by omega)
        · intro d hd
          exact hd.cond (by omega)
      · intro d hd
        refine OkP.bind (Mat.okP_freeze (G := lowerPart H) (hd.congr ?_)) ?_
        · intro a b ha hb
          unfold lowerPart
          by_cases hba : b ≤ a
          · rw [if_neg (by omega), if_pos hba]
          · rw [if_pos (by omega), if_neg hba]
        · intro l hl
          exact okP_ok fun _ => ⟨rfl, H, hl, h2⟩

/-! ## The triangular solves -/

theorem sum_upd {s : Finset Nat} {i : Nat} {f g : Nat → K} {v : K} (h : i ∉ s) :
    ∑ k ∈ s, f k * (if k = i then v else g k) = ∑ k ∈ s, f k * g k :=
  sum_congr rfl fun k hk => by rw [if_neg (fun e : k = i => h (e ▸ hk))]

theorem sum_upd_abs {s : Finset Nat} {i : Nat} {f g : Nat → K} {v : K} (h : i ∉ s) :
    ∑ k ∈ s, |f k * (if k = i then v else g k)| = ∑ k ∈ s, |f k * g k| :=
  sum_congr rfl fun k hk => by rw [if_neg (fun e : k = i => h (e ▸ hk))]

theorem solveCholesky_near {L : Mat K} {n : Nat} {G : Nat → Nat → K} {b : List K} (hn : n ≤ 2 ^ 32)
    (hL : IsMat L n n (lowerPart G)) (hG : ∀ i, i < n → |G i i| ≤ 2 ^ (512 : ℤ)) (hb : b.length = n)
    (hbd : Doubles b) :
    Post (solveCholesky L b) (fun x => x.length = n ∧ ∃ Y : Nat → K,
      (∀ a, a < n → |vecFun b a - ∑ k ∈ range (a + 1), G a k * Y k| ≤
        gam (n + 2) * ∑ k ∈ range (a + 1), |G a k * Y k| + tau n) ∧
      ∀ a, a < n → |Y a - ∑ j ∈ Ico a n, G j a * vecFun x j| ≤
        gam (n + 2) * ∑ j ∈ Ico a n, |G j a * vecFun x j| + tau n) := by
  obtain ⟨hr, hc, -, -⟩ := id hL
  unfold solveCholesky
  rw [if_neg (by omega)]
  simp only [hr]
  refine Post.bind (forRange_post' (fun i y => ∃ Y : Nat → K, Rep1 y n (fun a => some (Y a)) ∧
    (∀ a, IsDouble (Y a)) ∧
    ∀ a, a < i → |vecFun b a - ∑ k ∈ range (a + 1), G a k * Y k| ≤
        gam (n + 2) * ∑ k ∈ range (a + 1), |G a k * Y k| + tau n) ?_ ?_) ?_
  · exact ⟨fun _ => 0, rep1_zeros n, fun _ => isDouble_zero, by omega⟩
  · rintro i y hi ⟨Y, h1, hYd, h2⟩
    refine Post.bind (dot_post (x := fun k => G i k) (y := Y) (Nat.zero_le i) ?_) ?_
    · intro k _ hk v hv
      rw [hL.raw (i := i) (j := k) hi (by omega) rfl] at hv
      change ((Mem.rd y k) >>= _) = _ at hv
      rw [h1.rd (i := k) (by omega) rfl] at hv
      simp only [lowerPart, if_pos (show k ≤ i by omega)] at hv
      exact dbl_ok hv
    · rintro s ⟨hsd, hsum⟩
      rw [Nat.sub_zero, ← range_eq_Ico] at hsum
      refine Post.bind (P := fun v => v = vecFun b i) ?_ ?_
      · rw [Mat.vat_vecFun (by omega)]; exact Post.ok rfl
      rintro _ rfl
      refine Post.bind (P := fun v => v = G i i) ?_ ?_
      · rw [hL.raw (i := i) (j := i) hi hi rfl]
        simp only [lowerPart, if_pos (le_refl i)]
        exact Post.ok rfl
      rintro _ rfl
      refine Post.bind (P := fun v => v = fl (vecFun b i - s)) (fun v hv => dbl_ok hv) ?_
      rintro _ rfl
      refine Post.bind (P := fun v => G i i ≠ 0 ∧ v = fl (fl (vecFun b i - s) / G i i))
        (fun v hv => div_ok hv) ?_
      rintro _ ⟨hne, rfl⟩
      refine (OkP.post (h1.wr hi)).mono ?_
      intro y' hy'
      refine ⟨fun a => if a = i then fl (fl (vecFun b i - s) / G i i) else Y a, hy'.congr ?_, ?_, ?_⟩
      · intro a _; dsimp only; split_ifs <;> rfl
      · intro a; dsimp only; split_ifs
        · exact fl_isDouble _
        · exact hYd a
      · intro a ha
        dsimp only
        by_cases hai : a = i
        · subst hai
          rw [sum_range_succ, sum_range_succ, sum_upd (by simp), sum_upd_abs (by simp), if_pos rfl,
            mul_comm (G a a)]
          have hbi : IsDouble (vecFun b a) := by
            have : vecFun b a = b[a]'(by omega) := by simp [vecFun, hb, hi]
            rw [this]
            exact hbd _ (List.getElem_mem _)
          exact quot_sum (by omega) hn hbi hsd hne (hG a hi) (sum_nonneg fun _ _ => abs_nonneg _) hsum
        · rw [sum_upd (by simp; omega), sum_upd_abs (by simp; omega)]
          exact h2 a (by omega)
  · rintro y ⟨Y, h1, hYd, h2⟩
    refine Post.bind (forRange_post' (fun t x => ∃ X : Nat → K, Rep1 x n (fun a => some (X a)) ∧
      ∀ a, n - t ≤ a → a < n → |Y a - ∑ j ∈ Ico a n, G j a * X j| ≤
        gam (n + 2) * ∑ j ∈ Ico a n, |G j a * X j| + tau n) ?_ ?_) ?_
    · exact ⟨fun _ => 0, rep1_zeros n, by omega⟩
    · rintro t x ht ⟨X, h3, h4⟩
      have hi : n - 1 - t < n := by omega
      generalize hidef : n - 1 - t = i at hi ⊢
      refine Post.bind (dot_post (x := fun k => G k i) (y := X) (a := i + 1) (b := n) (by omega) ?_) ?_
      · intro k hk1 hk v hv
        rw [hL.raw (i := k) (j := i) hk hi rfl] at hv
        change ((Mem.rd x k) >>= _) = _ at hv
        rw [h3.rd (i := k) hk rfl] at hv
        simp only [lowerPart, if_pos (show i ≤ k by omega)] at hv
        exact dbl_ok hv
      · rintro s ⟨hsd, hsum⟩
        refine Post.bind (P := fun v => v = Y i) ?_ ?_
        · rw [h1.rd hi rfl]; exact Post.ok rfl
        rintro _ rfl
        refine Post.bind (P := fun v => v = G i i) ?_ ?_
        · rw [hL.raw (i := i) (j := i) hi hi rfl]
          simp only [lowerPart, if_pos (le_refl i)]
          exact Post.ok rfl
        rintro _ rfl
        refine Post.bind (P := fun v => v = fl (Y i - s)) (fun v hv => dbl_ok hv) ?_
        rintro _ rfl
        refine Post.bind (P := fun v => G i i ≠ 0 ∧ v = fl (fl (Y i - s) / G i i)) (fun v hv => div_ok hv) ?_
        rintro _ ⟨hne, rfl⟩
        refine (OkP.post (h3.wr hi)).mono ?_
        intro x' hx'
        refine ⟨fun a => if a = i then fl (fl (Y i - s) / G i i) else X a, hx'.congr ?_, ?_⟩
        · intro a _; dsimp only; split_ifs <;> rfl
        · intro a ha1 ha2
          dsimp only
          by_cases hai : a = i
          · subst hai
            rw [sum_eq_sum_Ico_succ_bot ha2, sum_eq_sum_Ico_succ_bot ha2, sum_upd (by simp),
              sum_upd_abs (by simp), if_pos rfl, mul_comm (G a a), add_comm (fl _ * _), add_comm |fl _ * _|]
            exact quot_sum (by omega) hn (hYd a) hsd hne (hG a hi) (sum_nonneg fun _ _ => abs_nonneg _) hsum
          · rw [sum_upd (by simp; omega), sum_upd_abs (by simp; omega)]
            exact h4 a (by omega) ha2
    · rintro x ⟨X, h3, h4⟩
      rw [h3.freeze]
      refine Post.ok ⟨by simp, Y, h2, fun a ha => ?_⟩
      have e : ∀ j ∈ Ico a n, vecFun ((List.range n).map X) j = X j := by
        intro j hj
        rw [mem_Ico] at hj
        simp [vecFun, List.getD, hj.2]
      have e1 : ∑ j ∈ Ico a n, G j a * vecFun ((List.range n).map X) j = ∑ j ∈ Ico a n, G j a * X j :=
        sum_congr rfl fun j hj => by rw [e j hj]
      have e2 : ∑ j ∈ Ico a n, |G j a * vecFun ((List.range n).map X) j| = ∑ j ∈ Ico a n, |G j a * X j| :=
        sum_congr rfl fun j hj => by rw [e j hj]
      rw [e1, e2]
      exact h4 a (by omega) ha

end Rodeo.Dbl
