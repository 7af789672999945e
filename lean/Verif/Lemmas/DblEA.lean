import Verif.Lemmas.DblTrip
import Verif.Lemmas.DblSum
import Verif.Model.DblEA
import Verif.Spec.DblEA
import Verif.Lemmas.Post
import Mathlib.Algebra.BigOperators.Group.List.Basic
import Mathlib.Algebra.Order.BigOperators.Group.List
import Mathlib.Algebra.BigOperators.Ring.List
import Mathlib.Data.List.Sort
import Mathlib.Tactic.Linarith
import Mathlib.Tactic.FieldSimp
import Mathlib.Tactic.Positivity

set_option linter.unusedSectionVars false

/-! # Sums of lists of doubles, and the roulette wheel on them -/

namespace Rodeo.Dbl

open Spec

variable {K : Type} [Field K] [LinearOrder K] [IsStrictOrderedRing K] [FloorRing K]

theorem eps_val : (0 : K) < eps ∧ (eps : K) = 1 / 2 ^ 53 := ⟨eps_pos, by unfold eps; norm_num⟩

/-- The rounded sum of nonnegative doubles. -/
theorem list_sum : ∀ (l : List K) (acc : K), IsDouble acc → 0 ≤ acc → (∀ x ∈ l, IsDouble x ∧ 0 ≤ x) →
    (1 + eps) ^ l.length * (acc + l.sum) ≤ 2 ^ (1000 : ℤ) →
    ∃ s, foldRes add acc l = .ok s ∧ IsDouble s ∧ |s - (acc + l.sum)| ≤ gam l.length * (acc + l.sum) ∧
      acc ≤ s ∧ ∀ x ∈ l, x ≤ s
  | [], acc, hd, _, _, _ => ⟨acc, rfl, hd, by simp [gam], le_rfl, by simp⟩
  | x :: l, acc, hd, h0, hx, hb => by
    obtain ⟨hxd, hx0⟩ := hx x (by simp)
    have hl0 : 0 ≤ l.sum := List.sum_nonneg (fun y hy => (hx y (by simp [hy])).2)
    have he := eps_pos (K := K)
    simp only [List.sum_cons, List.length_cons] at hb ⊢
    have h1p : (1 : K) ≤ (1 + eps) ^ l.length := one_le_pow_eps _
    have hT : 0 ≤ acc + (x + l.sum) := by linarith
    have hb1 : acc + (x + l.sum) ≤ 2 ^ (1000 : ℤ) := by
      refine le_trans ?_ hb
      have := one_le_pow_eps (K := K) (l.length + 1)
      nlinarith
    have hadd : add acc x = .ok (fl (acc + x)) := by
      refine dbl_of_le (n := 1000) (by norm_num) (by norm_num) ?_
      rw [abs_of_nonneg (by linarith)]
      linarith
    have herr := fl_add_rel hd hxd
    rw [abs_of_nonneg (a := acc + x) (by linarith), abs_le] at herr
    have hs0 : 0 ≤ fl (acc + x) := double_le_fl isDouble_zero (by linarith)
    obtain ⟨s, hs, hsd, hse, hsa, hsx⟩ := list_sum l (fl (acc + x)) (fl_isDouble _) hs0
      (fun y hy => hx y (by simp [hy])) (by
        refine le_trans ?_ hb
        rw [pow_succ, mul_assoc]
        refine mul_le_mul_of_nonneg_left ?_ (by linarith)
        nlinarith)
    refine ⟨s, by simp [foldRes, hadd, hs], hsd, ?_, ?_, ?_⟩
    · have hg := gam_nonneg (K := K) l.length
      rw [gam_succ]
      rw [abs_le] at hse ⊢
      have h3 : gam l.length * (fl (acc + x) + l.sum) ≤
          gam l.length * ((1 + eps) * (acc + (x + l.sum))) := by
        refine mul_le_mul_of_nonneg_left ?_ hg
        nlinarith
      constructor <;> nlinarith
    · exact le_trans (double_le_fl hd (by linarith)) hsa
    · intro y hy
      rcases List.mem_cons.1 hy with rfl | hy
      · exact le_trans (double_le_fl hxd (by linarith)) hsa
      · exact hsx y hy

theorem foldRes_append {α σ : Type} (f : σ → α → Res σ) : ∀ (l m : List α) (s : σ),
    foldRes f s (l ++ m) = (foldRes f s l).bind (fun t => foldRes f t m)
  | [], _, _ => rfl
  | a :: l, m, s => by
    simp only [List.cons_append, foldRes]
    cases h : f s a with
    | error e => rfl
    | ok t => exact foldRes_append f l m t

/-- The roulette wheel stops where the rounded running sum passes the draw. -/
theorem roulette_ok {prob : Indiv K → K} {u : K} : ∀ (l : List (Indiv K)) (acc s : K),
    foldRes add acc (l.map prob) = .ok s → acc ≤ u → u < s →
    ∃ l1 x l2 a b, l = l1 ++ x :: l2 ∧ roulette prob u acc l = .ok x ∧
      foldRes add acc (l1.map prob) = .ok a ∧ foldRes add acc ((l1 ++ [x]).map prob) = .ok b ∧
      a ≤ u ∧ u < b
  | [], acc, s, h, h1, h2 => by
    simp [foldRes] at h
    exact absurd (h1.trans_lt h2) (by simp [h])
  | x :: l, acc, s, h, h1, h2 => by
    simp only [List.map_cons, foldRes] at h
    cases ha : add acc (prob x) with
    | error e => rw [ha] at h; cases h
    | ok t =>
      rw [ha] at h
      by_cases hu : u < t
      · exact ⟨[], x, l, acc, t, rfl, by simp [roulette, ha, bind, Except.bind, hu], rfl,
          by simp [foldRes, ha], h1, hu⟩
      · obtain ⟨l1, y, l2, a, b, e1, e2, e3, e4, e5, e6⟩ := roulette_ok l t s h (not_lt.1 hu) h2
        refine ⟨x :: l1, y, l2, a, b, by simp [e1], ?_, ?_, ?_, e5, e6⟩
        · simp [roulette, ha, bind, Except.bind, hu, e2]
        · simp [foldRes, ha, e3]
        · simpa [foldRes, ha] using e4

/-- A number far above the subnormal ones is rounded with a relative error. -/
theorem fl_rel_big {x : K} (h : 1 / 2 ^ 60 ≤ x) : |fl x - x| ≤ eps * x := by
  have h0 : (0 : K) < 1 / 2 ^ 60 := by positivity
  have := fl_err x
  rw [abs_of_pos (h0.trans_le h)] at this
  refine this.trans (max_le ?_ ?_)
  · rw [eps_val.2]; exact (by ring : x / 2 ^ 53 = 1 / 2 ^ 53 * x).le
  · rw [eps_val.2]
    have h1 : (2 : K) ^ (-1075 : ℤ) ≤ 2 ^ (-113 : ℤ) := zp_mono (by norm_num)
    have h2 : (2 : K) ^ (-113 : ℤ) = 1 / 2 ^ 53 * (1 / 2 ^ 60) := by rw [zpow_neg]; norm_num
    rw [h2] at h1
    refine h1.trans (mul_le_mul_of_nonneg_left h ?_)
    positivity

theorem gam_small {m n : Nat} (hmn : m ≤ n) (hn : n ≤ 2 ^ 30) :
    (gam m : K) ≤ n / 2 ^ 52 ∧ (n : K) / 2 ^ 52 ≤ 1 / 2 ^ 22 := by
  constructor
  · exact (gam_mono hmn).trans (gam_le (hn.trans (by norm_num)))
  · have : (n : K) ≤ 2 ^ 30 := by exact_mod_cast hn
    rw [div_le_div_iff₀ (by positivity) (by positivity)]
    have h2 : (n : K) * 2 ^ 22 ≤ 2 ^ 30 * 2 ^ 22 := mul_le_mul_of_nonneg_right this (by positivity)
    refine h2.trans (by norm_num)

theorem pow_bound {m n : Nat} (hmn : m ≤ n) (hn : n ≤ 2 ^ 30) {T : K} (h0 : 0 ≤ T) (hT : T ≤ 2 ^ 50) :
    (1 + eps) ^ m * T ≤ 2 ^ (1000 : ℤ) := by
  have h1 : (1 + eps : K) ^ m ≤ 2 := pow_eps_le ((hmn.trans hn).trans (by norm_num))
  have h2 : (2 : K) ^ (51 : ℤ) ≤ 2 ^ (1000 : ℤ) := zp_mono (by norm_num)
  have h3 : (2 : K) ^ (51 : ℤ) = 2 * 2 ^ 50 := by norm_num
  rw [h3] at h2
  refine le_trans (mul_le_mul h1 hT h0 (by norm_num)) h2

theorem ratio_rel {q s Q W f e δ : K} (hW : 0 < W) (hQ0 : 0 ≤ Q) (hq0 : 0 ≤ q) (h : q * s = Q * W)
    (h1 : -(δ * W) ≤ s - W) (h2 : s - W ≤ δ * W) (h3 : -(e * q) ≤ f - q) (h4 : f - q ≤ e * q)
    (he : 0 ≤ e) (heδ : e ≤ δ / 2) (hδ : δ ≤ 1 / 4) : |f - Q| ≤ 2 * δ * Q := by
  have hδ0 : 0 ≤ δ := by linarith
  have hqQ1 : q * (1 - δ) ≤ Q := by
    have h5 : q * ((1 - δ) * W) ≤ q * s := mul_le_mul_of_nonneg_left (by linarith) hq0
    have : q * (1 - δ) * W ≤ Q * W := by rw [← h, mul_assoc]; exact h5
    exact le_of_mul_le_mul_right this hW
  have hqQ2 : Q ≤ q * (1 + δ) := by
    have h5 : q * s ≤ q * ((1 + δ) * W) := mul_le_mul_of_nonneg_left (by linarith) hq0
    have : Q * W ≤ q * (1 + δ) * W := by rw [← h, mul_assoc]; exact h5
    exact le_of_mul_le_mul_right this hW
  rw [abs_le]
  constructor
  · have g1 : (1 - δ) * Q ≤ q := by
      have g : (1 - δ) * Q ≤ (1 - δ) * (q * (1 + δ)) := mul_le_mul_of_nonneg_left hqQ2 (by linarith)
      have g2 : (1 - δ) * (q * (1 + δ)) = q - δ * δ * q := by ring
      have g3 : 0 ≤ δ * δ * q := by positivity
      linarith
    have g2 : (1 - e) * ((1 - δ) * Q) ≤ (1 - e) * q := mul_le_mul_of_nonneg_left g1 (by linarith)
    have g3 : (1 - 2 * δ) * Q ≤ (1 - e) * ((1 - δ) * Q) := by
      rw [← mul_assoc]
      refine mul_le_mul_of_nonneg_right ?_ hQ0
      have : 0 ≤ e * δ := by positivity
      linarith
    linarith
  · have g1 : q ≤ (1 + 4 / 3 * δ) * Q := by
      have g0 : (1 + 4 / 3 * δ) * (q * (1 - δ)) ≤ (1 + 4 / 3 * δ) * Q :=
        mul_le_mul_of_nonneg_left hqQ1 (by linarith)
      have g2 : (1 + 4 / 3 * δ) * (q * (1 - δ)) - q = q * δ * (1 / 3 - 4 / 3 * δ) := by ring
      have g3 : 0 ≤ q * δ * (1 / 3 - 4 / 3 * δ) := mul_nonneg (by positivity) (by linarith)
      linarith
    have g2 : (1 + e) * q ≤ (1 + e) * ((1 + 4 / 3 * δ) * Q) := mul_le_mul_of_nonneg_left g1 (by linarith)
    have g3 : (1 + e) * ((1 + 4 / 3 * δ) * Q) ≤ (1 + 2 * δ) * Q := by
      rw [← mul_assoc]
      refine mul_le_mul_of_nonneg_right ?_ hQ0
      have : e * (4 / 3 * δ) ≤ 1 / 8 * (4 / 3 * δ) := mul_le_mul_of_nonneg_right (by linarith) (by linarith)
      linarith
    linarith

/-- Weights that are zero or within a factor of 256 of one, divided by their rounded sum. -/
theorem weights_probs {w : List K} {n : Nat} (hlen : w.length = n) (hn : n ≤ 2 ^ 30)
    (hw : ∀ x ∈ w, IsDouble x ∧ (x = 0 ∨ 1 / 256 ≤ x ∧ x ≤ 256)) {y : K} (hy : y ∈ w)
    (hy0 : 1 / 256 ≤ y) :
    ∃ s, foldRes add 0 w = .ok s ∧ 0 < w.sum ∧ |s - w.sum| ≤ n / 2 ^ 52 * w.sum ∧
      ∀ x ∈ w, div x s = .ok (fl (x / s)) ∧ 0 ≤ fl (x / s) ∧ fl (x / s) ≤ 1 ∧ (0 < x → 0 < fl (x / s)) ∧
        |fl (x / s) - x / w.sum| ≤ n / 2 ^ 51 * (x / w.sum) := by
  have hn1 : 1 ≤ n := by rw [← hlen]; exact List.length_pos_of_mem hy
  have hx0 : ∀ x ∈ w, 0 ≤ x := by
    intro x hx
    rcases (hw x hx).2 with h | h
    · exact h.ge
    · exact le_trans (by norm_num) h.1
  have hx1 : ∀ x ∈ w, x ≤ 256 := by
    intro x hx
    rcases (hw x hx).2 with h | h
    · rw [h]; norm_num
    · exact h.2
  have hS1 : y ≤ w.sum := List.single_le_sum hx0 y hy
  have hS0 : 0 < w.sum := lt_of_lt_of_le (by norm_num) (hy0.trans hS1)
  have hnK : (n : K) ≤ 2 ^ 30 := by exact_mod_cast hn
  have hS2 : w.sum ≤ n * 256 := by
    have := List.sum_le_card_nsmul w 256 hx1
    rwa [hlen, nsmul_eq_mul] at this
  have hS3 : w.sum ≤ 2 ^ 50 := by
    refine hS2.trans ?_
    have : (2 : K) ^ 30 * 256 ≤ 2 ^ 50 := by norm_num
    linarith
  obtain ⟨s, hs, hsd, hse, -, hsx⟩ := list_sum w 0 isDouble_zero le_rfl
    (fun x hx => ⟨(hw x hx).1, hx0 x hx⟩) (by
      rw [zero_add]
      exact pow_bound hlen.le hn hS0.le hS3)
  rw [zero_add] at hse
  obtain ⟨hg1, hg2⟩ := gam_small (K := K) hlen.le hn
  have hse2 : |s - w.sum| ≤ n / 2 ^ 52 * w.sum :=
    hse.trans (mul_le_mul_of_nonneg_right hg1 hS0.le)
  refine ⟨s, hs, hS0, hse2, ?_⟩
  have hs0 : 0 < s := lt_of_lt_of_le (by norm_num) (hy0.trans (hsx y hy))
  have hsW := abs_le.1 hse2
  have hs3 : s ≤ 2 ^ 40 := by
    have h1 : (n : K) / 2 ^ 52 * w.sum ≤ 1 / 2 ^ 22 * w.sum := mul_le_mul_of_nonneg_right hg2 hS0.le
    have h2 : (2 : K) ^ 30 * 256 * 2 ≤ 2 ^ 40 := by norm_num
    have h3 : (1 : K) / 2 ^ 22 ≤ 1 := by norm_num
    nlinarith
  intro x hx
  have hq0 : 0 ≤ x / s := div_nonneg (hx0 x hx) hs0.le
  have hq1 : x / s ≤ 1 := (div_le_one hs0).2 (hsx x hx)
  have hdiv : div x s = .ok (fl (x / s)) := by
    unfold div
    rw [if_neg hs0.ne']
    refine dbl_of_le (n := 0) (by norm_num) (by norm_num) ?_
    rw [abs_of_nonneg hq0]; simpa using hq1
  refine ⟨hdiv, fl_nonneg hq0, fl_le_double isDouble_one hq1, ?_⟩
  rcases (hw x hx).2 with h | h
  · subst h
    refine ⟨fun h => absurd h (lt_irrefl _), ?_⟩
    simp [fl_zero]
  · have hx' : 0 < x := lt_of_lt_of_le (by norm_num) h.1
    have hbig : 1 / 2 ^ 60 ≤ x / s := by
      rw [div_le_div_iff₀ (by positivity) hs0]
      have : (2 : K) ^ 40 ≤ 1 / 256 * 2 ^ 60 := by norm_num
      have h2 : 1 / 256 * (2 : K) ^ 60 ≤ x * 2 ^ 60 := mul_le_mul_of_nonneg_right h.1 (by positivity)
      linarith
    have hr := fl_rel_big hbig
    have hb0 : 0 < x / s := lt_of_lt_of_le (by positivity) hbig
    have he : (eps : K) = 1 / 2 ^ 53 := eps_val.2
    have hr' := abs_le.1 hr
    constructor
    · intro _
      have : (eps : K) < 1 := by rw [he]; norm_num
      nlinarith
    · -- the relative error
      have hδ0 : (0 : K) < n / 2 ^ 52 := by
        have : (0 : K) < n := by exact_mod_cast hn1
        positivity
      have hδe : (eps : K) ≤ n / 2 ^ 52 / 2 := by
        rw [he, div_div, div_le_div_iff₀ (by positivity) (by positivity)]
        have : (1 : K) ≤ n := by exact_mod_cast hn1
        have h2 : (2 : K) ^ 52 * 2 = 2 ^ 53 := by norm_num
        rw [h2, one_mul]
        exact le_mul_of_one_le_left (by positivity) this
      have h51 : (n : K) / 2 ^ 51 = 2 * (n / 2 ^ 52) := by
        have : (2 : K) ^ 52 = 2 * 2 ^ 51 := by norm_num
        rw [this]; field_simp
      rw [h51]
      exact ratio_rel hS0 (div_nonneg (hx0 x hx) hS0.le) hq0 (by
        rw [div_mul_cancel₀ _ hs0.ne', div_mul_cancel₀ _ hS0.ne']) hsW.1 hsW.2 hr'.1 hr'.2
        (eps_pos (K := K)).le hδe (hg2.trans (by norm_num))

theorem sum_rel {l : List (Indiv K)} {prob r : Indiv K → K} {δ : K}
    (h : ∀ x ∈ l, |prob x - r x| ≤ δ * r x) : |(l.map prob).sum - (l.map r).sum| ≤ δ * (l.map r).sum := by
  induction l with
  | nil => simp
  | cons x l ih =>
    have h1 := abs_le.1 (h x (by simp))
    have h2 := abs_le.1 (ih (fun y hy => h y (by simp [hy])))
    simp only [List.map_cons, List.sum_cons]
    rw [abs_le]
    constructor <;> linarith

/-- The roulette wheel with rounded probabilities stops, up to rounding, where the exact one does. -/
theorem wheel {l : List (Indiv K)} {n : Nat} (hlen : l.length = n) (hn : n ≤ 2 ^ 30)
    {prob r : Indiv K → K} (hd : ∀ x ∈ l, IsDouble (prob x) ∧ 0 ≤ prob x) (hr0 : ∀ x ∈ l, 0 ≤ r x)
    (hr : ∀ x ∈ l, |prob x - r x| ≤ n / 2 ^ 50 * r x) (hsum : (l.map r).sum = 1) {u : K} (hu0 : 0 ≤ u)
    (hu : u < 1 - n / 2 ^ 49) :
    ∃ l1 x l2, l = l1 ++ x :: l2 ∧ roulette prob u 0 l = .ok x ∧
      (l1.map r).sum - n / 2 ^ 49 ≤ u ∧ u < ((l1 ++ [x]).map r).sum + n / 2 ^ 49 := by
  have e50 : (n : K) / 2 ^ 50 = 4 * (n / 2 ^ 52) := by
    have : (2 : K) ^ 52 = 4 * 2 ^ 50 := by norm_num
    rw [this]; field_simp
  have e49 : (n : K) / 2 ^ 49 = 8 * (n / 2 ^ 52) := by
    have : (2 : K) ^ 52 = 8 * 2 ^ 49 := by norm_num
    rw [this]; field_simp
  have key : ∀ m : List (Indiv K), m.Sublist l → ∃ s, foldRes add 0 (m.map prob) = .ok s ∧
      |s - (m.map r).sum| ≤ n / 2 ^ 49 := by
    intro m hm
    have hmm : ∀ x ∈ m, x ∈ l := hm.subset
    have hmn : m.length ≤ n := hlen ▸ hm.length_le
    have h1 := abs_le.1 (sum_rel (fun x hx => hr x (hmm x hx)))
    have hR0 : 0 ≤ (m.map r).sum := List.sum_nonneg (by
      intro y hy; obtain ⟨x, hx, rfl⟩ := List.mem_map.1 hy; exact hr0 x (hmm x hx))
    have hR1 : (m.map r).sum ≤ 1 := by
      rw [← hsum]
      refine List.Sublist.sum_le_sum (hm.map r) ?_
      intro y hy; obtain ⟨x, hx, rfl⟩ := List.mem_map.1 hy; exact hr0 x hx
    have hP0 : 0 ≤ (m.map prob).sum := List.sum_nonneg (by
      intro y hy; obtain ⟨x, hx, rfl⟩ := List.mem_map.1 hy; exact (hd x (hmm x hx)).2)
    obtain ⟨hg1, hg2⟩ := gam_small (K := K) hmn hn
    have hδ0 : (0 : K) ≤ n / 2 ^ 52 := by positivity
    rw [e50] at h1
    rw [e49]
    have hδ1 : (n : K) / 2 ^ 52 ≤ 1 / 16 := hg2.trans (by norm_num)
    obtain ⟨s, hs, -, hse, -⟩ := list_sum (m.map prob) 0 isDouble_zero le_rfl (by
      intro y hy; obtain ⟨x, hx, rfl⟩ := List.mem_map.1 hy; exact hd x (hmm x hx)) (by
        rw [zero_add, List.length_map]
        refine pow_bound hmn hn hP0 ?_
        have : (2 : K) ≤ 2 ^ 50 := by norm_num
        nlinarith)
    refine ⟨s, hs, ?_⟩
    rw [zero_add, List.length_map] at hse
    generalize (m.map prob).sum = P at *
    generalize (m.map r).sum = R at *
    have hP2 : P ≤ 2 := by nlinarith
    have h3 : gam m.length * P ≤ n / 2 ^ 52 * P := mul_le_mul_of_nonneg_right hg1 hP0
    generalize (n : K) / 2 ^ 52 = δ at *
    have hse' := abs_le.1 hse
    have h4 : δ * P ≤ δ * 2 := mul_le_mul_of_nonneg_left hP2 hδ0
    have h5 : δ * R ≤ δ * 1 := mul_le_mul_of_nonneg_left hR1 hδ0
    rw [abs_le]
    constructor <;> linarith
  obtain ⟨s, hs, hse⟩ := key l (List.Sublist.refl l)
  rw [hsum] at hse
  obtain ⟨l1, x, l2, a, b, h1, h2, h3, h4, h5, h6⟩ := roulette_ok l 0 s hs hu0 (by
    have := abs_le.1 hse
    linarith)
  refine ⟨l1, x, l2, h1, h2, ?_, ?_⟩
  · obtain ⟨a', ha, hae⟩ := key l1 (by rw [h1]; exact List.sublist_append_left _ _)
    rw [h3] at ha; cases ha
    have := abs_le.1 hae
    linarith
  · obtain ⟨b', hb, hbe⟩ := key (l1 ++ [x]) (by
      rw [h1, show l1 ++ x :: l2 = (l1 ++ [x]) ++ l2 by simp]
      exact List.sublist_append_left _ _)
    rw [h4] at hb; cases hb
    have := abs_le.1 hbe
    linarith

/-! ## The quantile -/

theorem sorted_ge {S : List K} (hS : S.Pairwise (· ≤ ·)) {c a : K} {i k : Nat}
    (hc : S.length - k ≤ S.countP (fun v => decide (c ≤ v))) (hk : k ≤ i) (ha : S[i]? = some a) : c ≤ a := by
  by_contra hlt
  push Not at hlt
  obtain ⟨hi, rfl⟩ := List.getElem?_eq_some_iff.1 ha
  have h1 : (S.take (i + 1)).countP (fun v => decide (c ≤ v)) = 0 := by
    rw [List.countP_eq_zero]
    intro v hv
    obtain ⟨j, hj, rfl⟩ := List.getElem_of_mem hv
    rw [List.getElem_take, decide_eq_true_eq, not_le]
    refine lt_of_le_of_lt ?_ hlt
    rw [List.length_take] at hj
    rcases Nat.lt_or_eq_of_le (show j ≤ i by omega) with h | h
    · exact List.pairwise_iff_getElem.1 hS j i (by omega) hi h
    · subst h; exact le_rfl
  have h2 : S.countP (fun v => decide (c ≤ v)) = (S.drop (i + 1)).countP (fun v => decide (c ≤ v)) := by
    conv_lhs => rw [← List.take_append_drop (i + 1) S]
    rw [List.countP_append, h1, zero_add]
  have h3 : (S.drop (i + 1)).countP (fun v => decide (c ≤ v)) ≤ S.length - (i + 1) := by
    refine List.countP_le_length.trans ?_
    rw [List.length_drop]
  omega

theorem sorted_le {S : List K} (hS : S.Pairwise (· ≤ ·)) {c a : K} {i : Nat}
    (hc : i < S.countP (fun v => decide (v ≤ c))) (ha : S[i]? = some a) : a ≤ c := by
  by_contra hlt
  push Not at hlt
  obtain ⟨hi, rfl⟩ := List.getElem?_eq_some_iff.1 ha
  have h1 : (S.drop i).countP (fun v => decide (v ≤ c)) = 0 := by
    rw [List.countP_eq_zero]
    intro v hv
    obtain ⟨j, hj, rfl⟩ := List.getElem_of_mem hv
    rw [List.getElem_drop, decide_eq_true_eq, not_le]
    refine lt_of_lt_of_le hlt ?_
    rw [List.length_drop] at hj
    rcases Nat.eq_zero_or_pos j with h | h
    · subst h; exact le_rfl
    · exact List.pairwise_iff_getElem.1 hS i (i + j) hi (by omega) (by omega)
  have h2 : S.countP (fun v => decide (v ≤ c)) = (S.take i).countP (fun v => decide (v ≤ c)) := by
    conv_lhs => rw [← List.take_append_drop i S]
    rw [List.countP_append, h1, add_zero]
  have h3 : (S.take i).countP (fun v => decide (v ≤ c)) ≤ i := by
    refine List.countP_le_length.trans ?_
    rw [List.length_take]; omega
  omega

theorem sorted_above {S : List K} (hS : S.Pairwise (· ≤ ·)) {c a : K} {i : Nat} (ha : S[i]? = some a)
    (hac : a ≤ c) : S.countP (fun v => decide (c < v)) ≤ S.length - (i + 1) := by
  obtain ⟨hi, rfl⟩ := List.getElem?_eq_some_iff.1 ha
  have h1 : (S.take (i + 1)).countP (fun v => decide (c < v)) = 0 := by
    rw [List.countP_eq_zero]
    intro v hv
    obtain ⟨j, hj, rfl⟩ := List.getElem_of_mem hv
    rw [List.getElem_take, decide_eq_true_eq, not_lt]
    refine le_trans ?_ hac
    rw [List.length_take] at hj
    rcases Nat.lt_or_eq_of_le (show j ≤ i by omega) with h | h
    · exact List.pairwise_iff_getElem.1 hS j i (by omega) hi h
    · subst h; exact le_rfl
  conv_lhs => rw [← List.take_append_drop (i + 1) S]
  rw [List.countP_append, h1, zero_add]
  refine List.countP_le_length.trans ?_
  rw [List.length_drop]

/-- The literal 0.9. -/
theorem lit_nine : (9 / 10 : K) ≤ lit (9 / 10) ∧ (lit (9 / 10) : K) ≤ 9 / 10 + 1 / 2 ^ 54 := by
  have hd : IsDouble ((8106479329266893 : ℤ) * 2 ^ (-53 : ℤ) : K) :=
    ⟨8106479329266893, -53, by norm_num, by norm_num, rfl⟩
  have hn := (fl_nearest (9 / 10 : K)).2 _ hd
  have e53 : (2 : K) ^ (-53 : ℤ) = 1 / 2 ^ 53 := by rw [zpow_neg]; norm_num
  have hdv : |(((8106479329266893 : ℤ) : K) * 2 ^ (-53 : ℤ) - 9 / 10)| = 1 / 5 / 2 ^ 53 := by
    rw [e53, abs_of_nonneg (by norm_num)]; norm_num
  rw [hdv] at hn
  have hn' := abs_le.1 hn
  have hf : (1 : K) / 2 < fl (9 / 10) := by
    have : (1 : K) / 5 / 2 ^ 53 ≤ 1 / 10 := by norm_num
    linarith
  unfold lit
  constructor
  · obtain ⟨m, hm⟩ := grid_of_half_lt (fl_isDouble (9 / 10 : K)) hf
    by_contra hlt
    push Not at hlt
    rw [hm, e53] at hn' hlt
    have p53 : (0 : K) < 2 ^ 53 := by positivity
    have h1 : (m : K) < 8106479329266893 := by
      have h5 : (m : K) * (1 / 2 ^ 53) * 2 ^ 53 < 9 / 10 * 2 ^ 53 := mul_lt_mul_of_pos_right hlt p53
      have h6 : (m : K) * (1 / 2 ^ 53) * 2 ^ 53 = m := by field_simp
      rw [h6] at h5
      refine h5.trans ?_
      norm_num
    have h2 : (8106479329266892 : K) < m := by
      have h5 : -(1 / 5 / 2 ^ 53) * 2 ^ 53 ≤ ((m : K) * (1 / 2 ^ 53) - 9 / 10) * 2 ^ 53 :=
        mul_le_mul_of_nonneg_right hn'.1 p53.le
      have h6 : ((m : K) * (1 / 2 ^ 53) - 9 / 10) * 2 ^ 53 = m - 9 / 10 * 2 ^ 53 := by field_simp
      rw [h6] at h5
      have h7 : -(1 / 5 / 2 ^ 53) * (2 : K) ^ 53 = - (1 / 5) := by norm_num
      rw [h7] at h5
      have h8 : (8106479329266892 : K) < 9 / 10 * 2 ^ 53 - 1 / 5 := by norm_num
      linarith
    have h1' : m < 8106479329266893 := by exact_mod_cast h1
    have h2' : 8106479329266892 < m := by exact_mod_cast h2
    omega
  · have : (1 : K) / 5 / 2 ^ 53 ≤ 1 / 2 ^ 54 := by norm_num
    linarith

/-- The rounded position of the quantile. -/
theorem quantile_index {n : Nat} (h2 : 2 ≤ n) (hn : n ≤ 2 ^ 30) :
    ∃ idx : K, mul (lit (9 / 10)) ((n - 1 : Nat) : K) = .ok idx ∧ IsDouble idx ∧
      ((9 * (n - 1) / 10 : Nat) : K) ≤ idx ∧ idx ≤ ((n - 1 : Nat) : K) ∧
      |idx - 9 / 10 * ((n - 1 : Nat) : K)| ≤ 2 / 2 ^ 53 * ((n - 1 : Nat) : K) := by
  have hN1 : (1 : K) ≤ ((n - 1 : Nat) : K) := by exact_mod_cast (show 1 ≤ n - 1 by omega)
  have hN2 : ((n - 1 : Nat) : K) ≤ 2 ^ 30 := by exact_mod_cast (show n - 1 ≤ 2 ^ 30 by omega)
  have hk : ((9 * (n - 1) / 10 : Nat) : K) ≤ 9 / 10 * ((n - 1 : Nat) : K) := by
    have : 9 * (n - 1) / 10 * 10 ≤ 9 * (n - 1) := Nat.div_mul_le_self _ _
    have h' : ((9 * (n - 1) / 10 : Nat) : K) * 10 ≤ 9 * ((n - 1 : Nat) : K) := by exact_mod_cast this
    linarith
  have hkd : IsDouble ((9 * (n - 1) / 10 : Nat) : K) := isDouble_nat (by omega)
  have hNd : IsDouble ((n - 1 : Nat) : K) := isDouble_nat (by omega)
  obtain ⟨l1, l2⟩ := lit_nine (K := K)
  generalize (lit (9 / 10) : K) = p at *
  generalize ((9 * (n - 1) / 10 : Nat) : K) = k at *
  generalize ((n - 1 : Nat) : K) = N at *
  have hp1 : p ≤ 1 := l2.trans (by norm_num)
  have hx1 : 9 / 10 * N ≤ p * N := mul_le_mul_of_nonneg_right l1 (by linarith)
  have hx2 : p * N ≤ N := by nlinarith
  have hx3 : p * N ≤ (9 / 10 + 1 / 2 ^ 54) * N := mul_le_mul_of_nonneg_right l2 (by linarith)
  refine ⟨fl (p * N), ?_, fl_isDouble _, double_le_fl hkd (hk.trans hx1), fl_le_double hNd hx2, ?_⟩
  · refine dbl_of_le (n := 30) (by norm_num) (by norm_num) ?_
    rw [abs_of_nonneg (by linarith)]
    exact (hx2.trans hN2).trans (by norm_num)
  · have hb : (1 : K) / 2 ^ 60 ≤ p * N := by
      have : (1 : K) / 2 ^ 60 ≤ 9 / 10 := by norm_num
      linarith
    have h := abs_le.1 (fl_rel_big hb)
    rw [eps_val.2] at h
    have e1 : (1 : K) / 2 ^ 54 = 1 / 2 * (1 / 2 ^ 53) := by norm_num
    have e2 : (2 : K) / 2 ^ 53 = 2 * (1 / 2 ^ 53) := by norm_num
    have he : (0 : K) < 1 / 2 ^ 53 := by positivity
    rw [e1] at hx3
    rw [e2]
    generalize (1 : K) / 2 ^ 53 = e at *
    have h3 : e * (p * N) ≤ e * N := mul_le_mul_of_nonneg_left hx2 he.le
    have h4 : 0 ≤ e * N := by nlinarith
    rw [abs_le]
    constructor <;> nlinarith

theorem interp_alg {A B X s t θ e η : K} (hA : 0 ≤ A) (hB : 0 ≤ B) (h1 : -(e * A) ≤ X - A) (h2 : X - A ≤ e * A)
    (h3 : -(e * X + η) ≤ s - X) (h4 : s - X ≤ e * X + η) (h5 : -(e * B + η) ≤ t - B) (h6 : t - B ≤ e * B + η)
    (h7 : -(e * (s + t)) ≤ θ - (s + t)) (h8 : θ - (s + t) ≤ e * (s + t)) (he0 : 0 ≤ e) (he1 : e ≤ 1 / 1000)
    (hη0 : 0 ≤ η) (hη : η ≤ e * e * (A + B)) : |θ - (A + B)| ≤ 4 * e * (A + B) := by
  have hX : e * X ≤ e * ((1 + e) * A) := mul_le_mul_of_nonneg_left (by linarith) he0
  have hst : s + t ≤ (1 + e) * ((1 + e) * A + B) + 2 * η := by linarith
  have hst2 : e * (s + t) ≤ e * ((1 + e) * ((1 + e) * A + B) + 2 * η) := mul_le_mul_of_nonneg_left hst he0
  have heA : 0 ≤ e * A := by positivity
  have heB : 0 ≤ e * B := by positivity
  have g6 : e * (e * A) ≤ 1 / 1000 * (e * A) := mul_le_mul_of_nonneg_right he1 heA
  have g7 : e * (e * B) ≤ 1 / 1000 * (e * B) := mul_le_mul_of_nonneg_right he1 heB
  have g8 : e * (e * (e * A)) ≤ 1 * (e * (e * A)) := mul_le_mul_of_nonneg_right (by linarith) (by positivity)
  have g9 : e * η ≤ 1 * η := mul_le_mul_of_nonneg_right (by linarith) hη0
  have e1 : e * ((1 + e) * ((1 + e) * A + B) + 2 * η) =
    e * A + 2 * (e * (e * A)) + e * (e * (e * A)) + e * B + e * (e * B) + 2 * (e * η) := by ring
  have e2 : e * ((1 + e) * A) = e * A + e * (e * A) := by ring
  have e3 : e * e * (A + B) = e * (e * A) + e * (e * B) := by ring
  have e4 : 4 * e * (A + B) = 4 * (e * A) + 4 * (e * B) := by ring
  rw [e1] at hst2
  rw [e2] at hX
  rw [e3] at hη
  rw [abs_le, e4]
  constructor <;> linarith

/-- The rounded interpolation between two values. -/
theorem interpolate {a b w : K} (ha : 1 / 256 ≤ a ∧ a ≤ 4) (hb : 1 / 256 ≤ b ∧ b ≤ 4) (hw : IsDouble w)
    (hw0 : 0 ≤ w) (hw1 : w ≤ 1) :
    ∃ θ, (do
      let c ← sub 1 w
      let s ← mul a c
      let t ← mul b w
      add s t) = .ok θ ∧
      |θ - ((1 - w) * a + w * b)| ≤ 1 / 2 ^ 51 * ((1 - w) * a + w * b) := by
  have hc0 : 0 ≤ fl (1 - w) := fl_nonneg (by linarith)
  have hc1 : fl (1 - w) ≤ 1 := fl_le_double isDouble_one (by linarith)
  have hce := abs_le.1 (fl_sub_err (isDouble_one (K := K)) hw)
  rw [abs_of_nonneg (a := 1 - w) (by linarith)] at hce
  have hsub : sub 1 w = .ok (fl (1 - w)) := by
    refine dbl_of_le (n := 0) (by norm_num) (by norm_num) ?_
    rw [abs_of_nonneg (by linarith)]; simp [hw0]
  generalize fl (1 - w) = c at *
  have hac0 : 0 ≤ a * c := mul_nonneg (by linarith [ha.1]) hc0
  have hac4 : a * c ≤ 4 := by nlinarith [ha.1]
  have hbw0 : 0 ≤ b * w := mul_nonneg (by linarith [hb.1]) hw0
  have hbw4 : b * w ≤ 4 := by nlinarith [hb.1]
  have h4d : IsDouble (4 : K) := by exact_mod_cast isDouble_nat (K := K) (n := 4) (by norm_num)
  have hm1 : mul a c = .ok (fl (a * c)) := by
    refine dbl_of_le (n := 2) (by norm_num) (by norm_num) ?_
    rw [abs_of_nonneg hac0]; exact hac4.trans (by norm_num)
  have hm2 : mul b w = .ok (fl (b * w)) := by
    refine dbl_of_le (n := 2) (by norm_num) (by norm_num) ?_
    rw [abs_of_nonneg hbw0]; exact hbw4.trans (by norm_num)
  have hs0 := fl_nonneg hac0
  have ht0 := fl_nonneg hbw0
  have hs4 := fl_le_double h4d hac4
  have ht4 := fl_le_double h4d hbw4
  have hse := abs_le.1 (fl_rel (a * c))
  have hte := abs_le.1 (fl_rel (b * w))
  rw [abs_of_nonneg hac0] at hse
  rw [abs_of_nonneg hbw0] at hte
  have hre := abs_le.1 (fl_add_rel (fl_isDouble (a * c)) (fl_isDouble (b * w)))
  rw [abs_of_nonneg (by linarith)] at hre
  have hadd : add (fl (a * c)) (fl (b * w)) = .ok (fl (fl (a * c) + fl (b * w))) := by
    refine dbl_of_le (n := 3) (by norm_num) (by norm_num) ?_
    rw [abs_of_nonneg (by linarith)]
    have : (2 : K) ^ (3 : ℤ) = 8 := by norm_num
    linarith
  refine ⟨fl (fl (a * c) + fl (b * w)), by simp [hsub, hm1, hm2, hadd, bind, Except.bind], ?_⟩
  have hη : (eta : K) ≤ 1 / 2 ^ 53 * (1 / 2 ^ 53) * (1 / 256) := by
    unfold eta
    have h1 : (2 : K) ^ (-1075 : ℤ) ≤ 2 ^ (-114 : ℤ) := zp_mono (by norm_num)
    refine h1.trans ?_
    rw [zpow_neg]; norm_num
  have hη0 := eta_pos (K := K)
  have e1 : (1 : K) / 2 ^ 51 = 4 * (1 / 2 ^ 53) := by norm_num
  have hc' : ∀ z : K, z / 2 ^ 53 = 1 / 2 ^ 53 * z := fun z => by ring
  rw [hc'] at hce
  rw [eps_val.2] at hse hte hre
  rw [e1]
  have he : (0 : K) < 1 / 2 ^ 53 := by positivity
  have he1 : (1 : K) / 2 ^ 53 ≤ 1 / 1000 := by norm_num
  generalize (1 : K) / 2 ^ 53 = e at *
  generalize (eta : K) = η at *
  generalize fl (fl (a * c) + fl (b * w)) = θ at *
  generalize fl (a * c) = s at *
  generalize fl (b * w) = t at *
  have hM : 1 / 256 ≤ (1 - w) * a + w * b := by nlinarith [ha.1, hb.1]
  have hA : |a * c - (1 - w) * a| ≤ e * ((1 - w) * a) := by
    rw [abs_le]
    have ha0 : 0 ≤ a := by linarith [ha.1]
    constructor
    · have := mul_le_mul_of_nonneg_left hce.1 ha0; nlinarith
    · have := mul_le_mul_of_nonneg_left hce.2 ha0; nlinarith
  have hA' := abs_le.1 hA
  have hA0 : 0 ≤ (1 - w) * a := mul_nonneg (by linarith) (by linarith [ha.1])
  have hη2 : η ≤ e * e * ((1 - w) * a + w * b) := hη.trans (mul_le_mul_of_nonneg_left hM (by positivity))
  have hB : w * b = b * w := mul_comm _ _
  rw [hB] at hη2 ⊢
  exact interp_alg hA0 (by linarith) hA'.1 hA'.2 hse.1 hse.2 hte.1 hte.2 hre.1 hre.2 he.le he1 hη0.le hη2

theorem quantile_spec {x : List K} {n : Nat} (hlen : x.length = n) (h2 : 2 ≤ n) (hn : n ≤ 2 ^ 30)
    (hx : ∀ v ∈ x, IsDouble v ∧ 1 / 256 ≤ v ∧ v ≤ 4) :
    ∃ (θ : K) (lo hi : Nat) (a b w : K), quantile x (lit (9 / 10)) = .ok θ ∧
      (x.insertionSort (fun a b => a ≤ b))[lo]? = some a ∧ (x.insertionSort (fun a b => a ≤ b))[hi]? = some b ∧
      9 * (n - 1) / 10 ≤ lo ∧ lo ≤ hi ∧ hi ≤ lo + 1 ∧ hi ≤ n - 1 ∧ 0 ≤ w ∧ w ≤ 1 ∧ (lo = hi → w = 0) ∧
      (lo : K) + w ≤ 9 / 10 * ((n - 1 : Nat) : K) + 3 / 2 ^ 53 * ((n - 1 : Nat) : K) ∧
      |θ - ((1 - w) * a + w * b)| ≤ 1 / 2 ^ 51 * ((1 - w) * a + w * b) := by
  obtain ⟨idx, hidx, hid, hik, hiN, hie⟩ := quantile_index (K := K) h2 hn
  obtain ⟨l1, l2⟩ := lit_nine (K := K)
  have hN1 : (1 : K) ≤ ((n - 1 : Nat) : K) := by exact_mod_cast (show 1 ≤ n - 1 by omega)
  have hi0 : 0 ≤ idx := le_trans (by positivity) hik
  have hf0 : 0 ≤ ⌊idx⌋ := Int.floor_nonneg.2 hi0
  have hc0 : 0 ≤ ⌈idx⌉ := Int.ceil_nonneg hi0
  have hfc : ⌊idx⌋ ≤ ⌈idx⌉ := Int.floor_le_ceil idx
  have hcf : ⌈idx⌉ ≤ ⌊idx⌋ + 1 := Int.ceil_le_floor_add_one idx
  have hlo : ((⌊idx⌋.toNat : Nat) : K) = (⌊idx⌋ : K) := by
    have : ((⌊idx⌋.toNat : Nat) : ℤ) = ⌊idx⌋ := Int.toNat_of_nonneg hf0
    exact_mod_cast congrArg (Int.cast : ℤ → K) this
  have hle : (⌊idx⌋ : K) ≤ idx := Int.floor_le idx
  have hlt : idx < (⌊idx⌋ : K) + 1 := Int.lt_floor_add_one idx
  have hkf : 9 * (n - 1) / 10 ≤ ⌊idx⌋.toNat := by
    have : ((9 * (n - 1) / 10 : Nat) : ℤ) ≤ ⌊idx⌋ := Int.le_floor.2 (by exact_mod_cast hik)
    omega
  have hcN : ⌈idx⌉.toNat ≤ n - 1 := by
    have : ⌈idx⌉ ≤ ((n - 1 : Nat) : ℤ) := Int.ceil_le.2 (by exact_mod_cast hiN)
    omega
  set S := x.insertionSort (fun a b => a ≤ b) with hS
  have hSp : S.Perm x := List.perm_insertionSort _ _
  have hSl : S.length = n := by rw [hSp.length_eq, hlen]
  have hget : ∀ i, i ≤ n - 1 → ∃ a, S[i]? = some a ∧ IsDouble a ∧ 1 / 256 ≤ a ∧ a ≤ 4 := by
    intro i hi
    have hi' : i < S.length := by omega
    exact ⟨S[i], List.getElem?_eq_getElem hi', hx _ (hSp.mem_iff.1 (List.getElem_mem hi'))⟩
  obtain ⟨a, ha, had, ha1, ha2⟩ := hget ⌊idx⌋.toNat (by omega)
  obtain ⟨b, hb, hbd, hb1, hb2⟩ := hget ⌈idx⌉.toNat hcN
  have hup := (abs_le.1 hie).2
  have h3 : (3 : K) / 2 ^ 53 * ((n - 1 : Nat) : K) = 2 / 2 ^ 53 * ((n - 1 : Nat) : K) +
      1 / 2 ^ 53 * ((n - 1 : Nat) : K) := by ring
  have hpN : (0 : K) ≤ 1 / 2 ^ 53 * ((n - 1 : Nat) : K) := by positivity
  have hp0 : ¬ ((lit (9 / 10) : K) < 0 ∨ (lit (9 / 10) : K) > 1) := by
    push Not
    refine ⟨le_trans (by norm_num) l1, l2.trans (by norm_num)⟩
  have hx0 : ¬ x.length = 0 := by omega
  have hq : quantile x (lit (9 / 10)) = (do
      if ⌊idx⌋.toNat = ⌈idx⌉.toNat then rawAt S ⌊idx⌋.toNat
      else do
        let weight ← sub idx (⌊idx⌋.toNat : K)
        let a ← rawAt S ⌊idx⌋.toNat
        let c ← sub 1 weight
        let s ← mul a c
        let b ← rawAt S ⌈idx⌉.toNat
        let t ← mul b weight
        add s t) := by
    unfold quantile
    rw [if_neg hp0, if_neg hx0, hlen, hidx]
    rfl
  have hra : rawAt S ⌊idx⌋.toNat = .ok a := by simp [rawAt, ha]
  have hrb : rawAt S ⌈idx⌉.toNat = .ok b := by simp [rawAt, hb]
  by_cases heq : ⌊idx⌋.toNat = ⌈idx⌉.toNat
  · refine ⟨a, ⌊idx⌋.toNat, ⌊idx⌋.toNat, a, a, 0, ?_, ha, ha, hkf, le_rfl, by omega, by omega, le_rfl,
      by norm_num, fun _ => rfl, ?_, ?_⟩
    · rw [hq, if_pos heq, hra]
    · rw [hlo]; linarith
    · have : (1 - 0) * a + 0 * a = a := by ring
      rw [this, sub_self, abs_zero]
      have : (0 : K) ≤ a := le_trans (by norm_num) ha1
      positivity
  · have hwd : 0 ≤ idx - (⌊idx⌋ : K) := by linarith
    have hw1 : idx - (⌊idx⌋ : K) ≤ 1 := by linarith
    have hsub : sub idx (⌊idx⌋.toNat : K) = .ok (fl (idx - (⌊idx⌋ : K))) := by
      unfold sub
      rw [hlo]
      refine dbl_of_le (n := 0) (by norm_num) (by norm_num) ?_
      rw [abs_of_nonneg hwd]; simpa using hw1
    have hfd : IsDouble (⌊idx⌋ : K) := by rw [← hlo]; exact isDouble_nat (by omega)
    have hwe := abs_le.1 (fl_sub_err hid hfd)
    rw [abs_of_nonneg hwd] at hwe
    have hw53 : (idx - (⌊idx⌋ : K)) / 2 ^ 53 ≤ 1 / 2 ^ 53 * ((n - 1 : Nat) : K) := by
      have : (idx - (⌊idx⌋ : K)) / 2 ^ 53 = 1 / 2 ^ 53 * (idx - (⌊idx⌋ : K)) := by ring
      rw [this]
      exact mul_le_mul_of_nonneg_left (by linarith) (by positivity)
    obtain ⟨θ, hθ, hθe⟩ := interpolate ⟨ha1, ha2⟩ ⟨hb1, hb2⟩ (fl_isDouble (idx - (⌊idx⌋ : K)))
      (fl_nonneg hwd) (fl_le_double isDouble_one hw1)
    refine ⟨θ, ⌊idx⌋.toNat, ⌈idx⌉.toNat, a, b, fl (idx - (⌊idx⌋ : K)), ?_, ha, hb, hkf, by omega, by omega,
      hcN, fl_nonneg hwd, fl_le_double isDouble_one hw1, fun h => absurd h heq, ?_, hθe⟩
    · rw [hq, if_neg heq, hsub]
      simp only [bind, Except.bind, hra, hrb] at hθ ⊢
      exact hθ
    · rw [hlo]; linarith

/-! ## The two updates -/

theorem foldRes_map {α β σ : Type} (f : σ → β → Res σ) (g : α → β) : ∀ (l : List α) (s : σ),
    foldRes f s (l.map g) = foldRes (fun s a => f s (g a)) s l
  | [], _ => rfl
  | a :: l, s => by
    simp only [List.map_cons, foldRes]
    cases f s (g a) with
    | error e => rfl
    | ok t => exact foldRes_map f g l t

theorem updateRep_spec {p : Pop K} {n : Nat} (hlen : p.inds.length = n) (h2 : 2 ≤ n) (hn : n ≤ 2 ^ 30)
    (hf : ∀ x ∈ p.inds, IsDouble x.fitness ∧ 1 / 256 ≤ x.fitness ∧ x.fitness ≤ 4) :
    ∃ r : Indiv K → K, updateRep p = .ok { p with inds := p.inds.map (fun x => { x with rep := r x }) } ∧
      ∀ x ∈ p.inds, IsDouble (r x) ∧ 0 < r x ∧ r x < 1 ∧
        |r x - x.fitness / (p.inds.map (·.fitness)).sum| ≤
          n / 2 ^ 50 * (x.fitness / (p.inds.map (·.fitness)).sum) := by
  obtain ⟨y, hy⟩ : ∃ y, y ∈ p.inds := List.exists_mem_of_length_pos (by omega)
  obtain ⟨s, hs, hW0, -, hdiv⟩ := weights_probs (w := p.inds.map (·.fitness)) (by simpa using hlen) hn (by
    intro v hv
    obtain ⟨x, hx, rfl⟩ := List.mem_map.1 hv
    obtain ⟨a, b, c⟩ := hf x hx
    exact ⟨a, .inr ⟨b, c.trans (by norm_num)⟩⟩) (List.mem_map_of_mem hy) (hf y hy).2.1
  have h50 : (n : K) / 2 ^ 51 ≤ n / 2 ^ 50 := by
    refine div_le_div_of_nonneg_left (by positivity) (by positivity) (by norm_num)
  have hpt : ∀ x ∈ p.inds, div x.fitness s = .ok (fl (x.fitness / s)) ∧ 0 < fl (x.fitness / s) ∧
      fl (x.fitness / s) < 1 ∧ |fl (x.fitness / s) - x.fitness / (p.inds.map (·.fitness)).sum| ≤
          n / 2 ^ 51 * (x.fitness / (p.inds.map (·.fitness)).sum) := by
    intro x hx
    obtain ⟨d1, -, -, d4, d5⟩ := hdiv _ (List.mem_map_of_mem hx)
    obtain ⟨-, f1, f2⟩ := hf x hx
    refine ⟨d1, d4 (lt_of_lt_of_le (by norm_num) f1), ?_, d5⟩
    have hW : x.fitness + ((n : K) - 1) / 256 ≤ (p.inds.map (·.fitness)).sum := by
      have h1 : ∀ v ∈ p.inds.map (fun z => z.fitness - 1 / 256), (0 : K) ≤ v := by
        intro v hv
        obtain ⟨z, hz, rfl⟩ := List.mem_map.1 hv
        linarith [(hf z hz).2.1]
      have h3 := List.single_le_sum h1 _ (List.mem_map_of_mem (f := fun z : Indiv K => z.fitness - 1 / 256) hx)
      have h4 : (p.inds.map (fun z => z.fitness - 1 / 256)).sum =
          (p.inds.map (·.fitness)).sum - n * (1 / 256) := by
        rw [← hlen]
        generalize p.inds = l
        induction l with
        | nil => simp
        | cons z l ih =>
          simp only [List.map_cons, List.sum_cons, ih, List.length_cons, Nat.cast_add, Nat.cast_one]
          ring
      rw [h4] at h3
      linarith
    have h5 := (abs_le.1 d5).2
    have hn2 : (2 : K) ≤ n := by exact_mod_cast h2
    have h51 : (n : K) / 2 ^ 51 ≤ (n - 1) / 256 / 8 := by
      rw [div_div, div_le_div_iff₀ (by positivity) (by positivity)]
      have : (2 : K) ^ 51 = 2 * (256 * 8) * 2 ^ 39 := by norm_num
      rw [this]
      have h39 : (1 : K) ≤ 2 ^ 39 := by norm_num
      have h40 : (n - 1) * (2 * (256 * 8)) * (1 : K) ≤ (n - 1) * (2 * (256 * 8)) * 2 ^ 39 :=
        mul_le_mul_of_nonneg_left h39 (by nlinarith)
      nlinarith
    generalize (n : K) / 2 ^ 51 = δ at *
    generalize (p.inds.map (·.fitness)).sum = W at *
    generalize fl (x.fitness / s) = q at *
    have h6 : q ≤ (1 + δ) * (x.fitness / W) := by linarith
    refine h6.trans_lt ?_
    rw [← mul_div_assoc, div_lt_one hW0]
    have hm0 : (0 : K) < (n - 1) / 256 := by
      have : (0 : K) < n - 1 := by linarith
      positivity
    have h7 : δ * x.fitness ≤ ((n : K) - 1) / 256 / 8 * 4 :=
      mul_le_mul h51 f2 (by linarith) (by positivity)
    linarith
  refine ⟨fun x => fl (x.fitness / s), ?_, fun x hx => ?_⟩
  · unfold updateRep
    rw [foldRes_map] at hs
    refine bind_eq hs ?_
    rw [mapRes_ok (g := fun x : Indiv K => { x with rep := fl (x.fitness / s) })]
    · rfl
    · intro x hx
      obtain ⟨d1, d2, d3, -⟩ := hpt x hx
      refine bind_eq d1 ?_
      unfold Indiv.setRep
      rw [if_neg (not_le.2 d2), if_neg (not_le.2 d3)]
  · obtain ⟨-, d2, d3, d4⟩ := hpt x hx
    refine ⟨fl_isDouble _, d2, d3, d4.trans (mul_le_mul_of_nonneg_right h50 ?_)⟩
    exact div_nonneg (le_trans (by norm_num) (hf x hx).2.1) hW0.le

/-- The exact weight of an individual on the death wheel with threshold `θ`. -/
def deathWeight (θ : K) (x : Indiv K) : K := if x.fitness > θ then 0 else 1 / x.fitness

theorem share_rel {w w' W W' e : K} (hw : 0 ≤ w) (hW : 0 < W) (h1 : |w' - w| ≤ e * w) (h2 : |W' - W| ≤ e * W)
    (he0 : 0 ≤ e) (he : e ≤ 1 / 100) (hW' : 0 < W') : |w' / W' - w / W| ≤ 3 * e * (w / W) := by
  have h1' := abs_le.1 h1
  have h2' := abs_le.1 h2
  have hq0 : 0 ≤ w / W := by positivity
  have hqW : w / W * W = w := div_mul_cancel₀ _ hW.ne'
  generalize w / W = q at *
  rw [← hqW] at h1'
  have key : ∀ c : K, c * W' = w' → c = w' / W' := fun c hc => by rw [← hc, mul_div_assoc, div_self hW'.ne', mul_one]
  have hqe : 0 ≤ q * e := by positivity
  have hqW0 : 0 ≤ q * W := by positivity
  rw [abs_le]
  constructor
  · have : (q - 3 * e * q) ≤ w' / W' := by
      rw [le_div_iff₀ hW']
      have g1 : 0 ≤ q - 3 * e * q := by
        have : q * (3 * e) ≤ q * 1 := mul_le_mul_of_nonneg_left (by linarith) hq0
        linarith
      have g2 : (q - 3 * e * q) * W' ≤ (q - 3 * e * q) * ((1 + e) * W) :=
        mul_le_mul_of_nonneg_left (by linarith) g1
      have g3 : (q - 3 * e * q) * ((1 + e) * W) = q * W - 2 * (e * (q * W)) - 3 * (e * e * (q * W)) := by ring
      have g4 : 0 ≤ e * e * (q * W) := by positivity
      have g5 : 0 ≤ e * (q * W) := by positivity
      linarith
    linarith
  · have : w' / W' ≤ q + 3 * e * q := by
      rw [div_le_iff₀ hW']
      have g2 : (q + 3 * e * q) * ((1 - e) * W) ≤ (q + 3 * e * q) * W' :=
        mul_le_mul_of_nonneg_left (by linarith) (by positivity)
      have g3 : (q + 3 * e * q) * ((1 - e) * W) = q * W + 2 * (e * (q * W)) - 3 * (e * (e * (q * W))) := by ring
      have g5 : 0 ≤ e * (q * W) := by positivity
      have g4 : e * (e * (q * W)) ≤ 1 / 100 * (e * (q * W)) := mul_le_mul_of_nonneg_right he g5
      linarith
    linarith

end Rodeo.Dbl
