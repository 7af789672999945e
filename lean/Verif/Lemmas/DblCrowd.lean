import Verif.Model.DblCrowd
import Verif.Lemmas.DblSum
import Verif.Lemmas.Crowding

set_option linter.unusedSectionVars false

namespace Rodeo.Dbl
open Spec Finset

variable {K : Type} [Field K] [LinearOrder K] [IsStrictOrderedRing K] [FloorRing K]

theorem abs_double {x : K} (h : IsDouble x) : IsDouble |x| := by
  rcases abs_choice x with e | e <;> rw [e]
  · exact h
  · exact isDouble_neg h

theorem gam_one_le {k : Nat} (hk : k ≤ 2 ^ 40) : (gam k : K) ≤ 1 := by
  have := pow_eps_le (K := K) hk
  unfold gam; linarith

/-- A sum of rounded differences. -/
theorem norm_alg {t T D : K} {k : Nat} (h1 : |t - T| ≤ gam k * T) (h2 : |T - D| ≤ eps * D) :
    |t - D| ≤ gam (k + 1) * D := by
  have h3 := abs_le.1 h2
  have h4 := mul_le_mul_of_nonneg_left (show T ≤ (1 + eps) * D by linarith [h3.2]) (gam_nonneg (K := K) k)
  have h5 := abs_sub_le t T D
  rw [gam_succ]
  have e : ((1 + eps) * gam k + eps) * D = gam k * ((1 + eps) * D) + eps * D := by ring
  rw [e]; linarith

/-- One more pair. -/
theorem pair_alg {s t S T r : K} {k q : Nat} (hq : q ≤ k) (hT : 0 ≤ T) (h1 : |s - S| ≤ gam k * S)
    (h2 : |t - T| ≤ gam q * T) (h3 : |r - (s + t)| ≤ eps * |s + t|) (h0 : 0 ≤ s + t) :
    |r - (S + T)| ≤ gam (k + 1) * (S + T) := by
  have he := eps_pos (K := K)
  rw [abs_of_nonneg h0] at h3
  have h4 : |t - T| ≤ gam k * T := h2.trans (mul_le_mul_of_nonneg_right (gam_mono hq) hT)
  have h5 : |s + t - (S + T)| ≤ gam k * (S + T) := by
    have := abs_add_le (s - S) (t - T)
    have e : s + t - (S + T) = (s - S) + (t - T) := by ring
    rw [e, mul_add]; linarith
  have h6 : s + t ≤ (1 + gam k) * (S + T) := by
    have := (abs_le.1 h5).2
    have e : (1 + gam k) * (S + T) = (S + T) + gam k * (S + T) := by ring
    rw [e]; linarith
  have h7 := mul_le_mul_of_nonneg_left h6 he.le
  have h8 := abs_sub_le r (s + t) (S + T)
  rw [gam_succ]
  have e : ((1 + eps) * gam k + eps) * (S + T) = gam k * (S + T) + eps * ((1 + gam k) * (S + T)) := by ring
  rw [e]; linarith

/-- The entries of a history that are used: doubles of moderate size. -/
def ModerateRows (F : Nat → Nat → K) (n dim : Nat) : Prop :=
  ∀ i j, i < n → j < dim → IsDouble (F i j) ∧ |F i j| ≤ 2 ^ (500 : ℤ)

theorem two_mul_zp (k : ℤ) : (2 : K) ^ k + 2 ^ k = 2 ^ (k + 1) := by
  rw [zp_add, zpow_one]; ring

theorem nat_zp {d : Nat} {k : Nat} (h : d ≤ 2 ^ k) : (d : K) ≤ 2 ^ (k : ℤ) := by
  rw [zpow_natCast]; exact_mod_cast h

theorem rowDist_le {F : Nat → Nat → K} {n dim : Nat} (hF : ModerateRows F n dim) (hdim : dim ≤ 2 ^ 32) {i j : Nat}
    (hi : i < n) (hj : j < n) : rowDist dim F i j ≤ 2 ^ (533 : ℤ) := by
  unfold rowDist
  have h : ∀ k ∈ range dim, |F i k - F j k| ≤ (2 : K) ^ (501 : ℤ) := by
    intro k hk
    rw [mem_range] at hk
    refine (abs_sub _ _).trans ((add_le_add (hF i k hi hk).2 (hF j k hj hk).2).trans ?_)
    rw [two_mul_zp]; norm_num
  refine (sum_le_sum h).trans ?_
  rw [sum_const, card_range, nsmul_eq_mul]
  refine (mul_le_mul_of_nonneg_right (nat_zp hdim) (zp _).le).trans ?_
  rw [← zp_add]; exact zp_mono (by norm_num)

/-- The distance of two rows. -/
theorem distance {F : Nat → Nat → K} {n dim : Nat} (hF : ModerateRows F n dim) (hdim : dim ≤ 2 ^ 32) {i j : Nat}
    (hi : i < n) (hj : j < n) :
    ∃ d t, rowSub ((List.range dim).map (fun k => F i k)) ((List.range dim).map (fun k => F j k)) = .ok d ∧
      normL1 d = .ok t ∧ IsDouble t ∧ |t - rowDist dim F i j| ≤ gam (dim + 1) * rowDist dim F i j := by
  have he := eps_pos (K := K)
  have hs : rowSub ((List.range dim).map (fun k => F i k)) ((List.range dim).map (fun k => F j k)) =
      .ok ((List.range dim).map (fun k => fl (F i k - F j k))) := by
    unfold rowSub
    rw [if_neg (by simp)]
    simp only [List.length_map, List.length_range]
    refine tab_ok (fun k hk => ?_)
    have e1 : rawAt ((List.range dim).map (fun k => F i k)) k = .ok (F i k) := by
      simp [rawAt, hk]
    have e2 : rawAt ((List.range dim).map (fun k => F j k)) k = .ok (F j k) := by
      simp [rawAt, hk]
    refine bind_eq e1 (bind_eq e2 ?_)
    refine dbl_of_le (n := 501) (by norm_num) (by norm_num) ?_
    refine (abs_sub _ _).trans ((add_le_add (hF i k hi hk).2 (hF j k hj hk).2).trans ?_)
    rw [two_mul_zp]; norm_num
  have hT : |∑ k ∈ Ico 0 dim, |fl (F i k - F j k)| - rowDist dim F i j| ≤ eps * rowDist dim F i j := by
    unfold rowDist
    rw [← range_eq_Ico, ← sum_sub_distrib, mul_sum]
    refine (abs_sum_le_sum_abs _ _).trans (sum_le_sum (fun k hk => ?_))
    rw [mem_range] at hk
    refine (abs_abs_sub_abs_le_abs_sub _ _).trans ?_
    have := fl_add_rel (hF i k hi hk).1 (isDouble_neg (hF j k hj hk).1)
    rwa [← sub_eq_add_neg] at this
  have hD0 := rowDist_nonneg dim F i j
  have hDle := rowDist_le hF hdim hi hj
  have hf : ∀ k, 0 ≤ k → k < dim → (do
      let a ← rawAt ((List.range dim).map (fun k => fl (F i k - F j k))) k
      (.ok |a| : Res K)) = .ok |fl (F i k - F j k)| := by
    intro k _ hk
    exact bind_eq (a := fl (F i k - F j k)) (by simp [rawAt, hk]) rfl
  have hx : ∀ k, 0 ≤ k → k < dim → IsDouble |fl (F i k - F j k)| :=
    fun k _ _ => abs_double (fl_isDouble _)
  have hsum : ∑ k ∈ Ico 0 dim, |(|fl (F i k - F j k)|)| = ∑ k ∈ Ico 0 dim, |fl (F i k - F j k)| :=
    sum_congr rfl (fun _ _ => abs_abs _)
  have htot : ∑ k ∈ Ico 0 dim, |(|fl (F i k - F j k)|)| ≤ 2 ^ (1021 : ℤ) := by
    rw [hsum]
    have h1 := (abs_le.1 hT).2
    have h2 : eps * rowDist dim F i j ≤ 1 * rowDist dim F i j := by
      refine mul_le_mul_of_nonneg_right ?_ hD0
      unfold eps
      rw [div_le_one (by positivity)]
      norm_num
    have h3 : ∑ k ∈ Ico 0 dim, |fl (F i k - F j k)| ≤ rowDist dim F i j + rowDist dim F i j := by linarith
    refine h3.trans ((add_le_add hDle hDle).trans ?_)
    rw [two_mul_zp]
    exact zp_mono (by norm_num)
  obtain ⟨t, et⟩ := sum_total (Nat.zero_le dim) (by omega) hf hx htot
  have hp := sum_post (f := fun k => do
      let a ← rawAt ((List.range dim).map (fun k => fl (F i k - F j k))) k
      (.ok |a| : Res K)) (Nat.zero_le dim) (fun k h1 h2 => by rw [hf k h1 h2]; exact Post.ok rfl) hx
  rw [et, hsum, Nat.sub_zero] at hp
  obtain ⟨hp1, hp2⟩ := hp t rfl
  refine ⟨_, t, hs, ?_, hp1, norm_alg hp2 hT⟩
  unfold normL1
  simp only [List.length_map, List.length_range]
  exact et

/-- Multiplication by two is exact. -/
theorem double_twice {t : K} (h : IsDouble t) (hb : |t * 2| ≤ 2 ^ (1000 : ℤ)) :
    mul t 2 = .ok (t * 2) ∧ IsDouble (t * 2) := by
  have hd : IsDouble (t * 2) := by
    obtain ⟨m, e, h1, h2, rfl⟩ := h
    refine ⟨m, e + 1, h1, by omega, ?_⟩
    rw [zp_add, zpow_one]; ring
  refine ⟨?_, hd⟩
  unfold mul
  rw [dbl_of_le (n := 1000) (by norm_num) (by norm_num) hb, fl_of_double hd]

/-- The number of pairs `(k, l)` with `k < l < n` and `k < i`. -/
def pairsBefore (n i : Nat) : Nat := ∑ k ∈ range i, (n - 1 - k)

theorem pairsBefore_all (n : Nat) : pairsBefore n n = n * (n - 1) / 2 := by
  unfold pairsBefore
  rw [sum_range_reflect (fun k => k) n, sum_range_id]

theorem pairsBefore_mono {n i j : Nat} (h : i ≤ j) : pairsBefore n i ≤ pairsBefore n j :=
  sum_le_sum_of_subset (range_subset_range.2 h)

theorem pairsBefore_succ (n i : Nat) : pairsBefore n (i + 1) = pairsBefore n i + (n - 1 - i) :=
  sum_range_succ _ _

theorem pairs_bound {n : Nat} (h : n ≤ 65536) : n * (n - 1) / 2 ≤ 2 ^ 31 := by
  have : n * (n - 1) ≤ 65536 * 65535 := Nat.mul_le_mul h (by omega)
  omega

/-- What is known of a partial sum `s` of `p` distances whose exact sum is `S`. -/
def PartialDist (dim p : Nat) (s S : K) : Prop :=
  IsDouble s ∧ 0 ≤ S ∧ S ≤ p * 2 ^ (534 : ℤ) ∧ |s - S| ≤ gam (dim + 1 + p) * S

theorem PartialDist.nonneg {dim p : Nat} {s S : K} (h : PartialDist dim p s S) (hp : dim + 1 + p ≤ 2 ^ 40) : 0 ≤ s := by
  obtain ⟨-, h0, -, h1⟩ := h
  have := mul_le_mul_of_nonneg_right (gam_one_le (K := K) hp) h0
  have h2 := (abs_le.1 h1).1
  linarith

theorem PartialDist.le {dim p : Nat} {s S : K} (h : PartialDist dim p s S) (hp : dim + 1 + p ≤ 2 ^ 40)
    (hp2 : p ≤ 2 ^ 32) : s ≤ 2 ^ (567 : ℤ) := by
  obtain ⟨-, h0, hS, h1⟩ := h
  have := mul_le_mul_of_nonneg_right (gam_one_le (K := K) hp) h0
  have h2 := (abs_le.1 h1).2
  have h3 : S ≤ 2 ^ (566 : ℤ) := by
    refine hS.trans ((mul_le_mul_of_nonneg_right (nat_zp hp2) (zp _).le).trans ?_)
    rw [← zp_add]; exact zp_mono (by norm_num)
  have h4 : s ≤ S + S := by linarith
  refine h4.trans ((add_le_add h3 h3).trans ?_)
  rw [two_mul_zp]; exact zp_mono (by norm_num)

/-- One pass of the inner loop. -/
theorem crowdingTerm_ok {A : Mat K} {n dim : Nat} {F : Nat → Nat → K} (hA : IsMat A n dim F)
    (hF : ModerateRows F n dim) (hdim : dim ≤ 2 ^ 32) {i j p : Nat} (hi : i < n) (hj : j < n) {s S : K}
    (hs : PartialDist dim p s S) (hp : p ≤ 2 ^ 32) :
    ∃ s', crowdingTerm A ((List.range dim).map (fun k => F i k)) j s = .ok s' ∧
      PartialDist dim (p + 1) s' (S + rowDist dim F i j * 2) := by
  obtain ⟨d, t, e1, e2, ht, hd⟩ := distance hF hdim hi hj
  have hD0 := rowDist_nonneg dim F i j
  have hDle := rowDist_le hF hdim hi hj
  have hg := mul_le_mul_of_nonneg_right (gam_one_le (K := K) (k := dim + 1) (by omega)) hD0
  have ht0 : 0 ≤ t := by
    have := (abs_le.1 hd).1; linarith
  have ht2 : t * 2 ≤ 2 ^ (535 : ℤ) := by
    have h1 := (abs_le.1 hd).2
    have h2 : t * 2 ≤ (rowDist dim F i j + rowDist dim F i j) + (rowDist dim F i j + rowDist dim F i j) := by
      linarith
    refine h2.trans ((add_le_add (add_le_add hDle hDle) (add_le_add hDle hDle)).trans ?_)
    rw [two_mul_zp, two_mul_zp]; exact zp_mono (by norm_num)
  have ht20 : 0 ≤ t * 2 := by linarith
  obtain ⟨e3, ht2d⟩ := double_twice ht (by
    rw [abs_of_nonneg ht20]; exact ht2.trans (zp_mono (by norm_num)))
  have hs0 := hs.nonneg (by omega)
  have hsl := hs.le (by omega) hp
  obtain ⟨hsd, hS0, hSle, hsS⟩ := hs
  have hst0 : 0 ≤ s + t * 2 := add_nonneg hs0 ht20
  have e4 : add s (t * 2) = .ok (fl (s + t * 2)) := by
    unfold add
    refine dbl_of_le (n := 568) (by norm_num) (by norm_num) ?_
    rw [abs_of_nonneg hst0]
    refine (add_le_add hsl (ht2.trans (zp_mono (b := 567) (by norm_num)))).trans ?_
    rw [two_mul_zp]; exact zp_mono (by norm_num)
  refine ⟨fl (s + t * 2), ?_, fl_isDouble _, by linarith, ?_, ?_⟩
  · unfold crowdingTerm
    exact bind_eq (Mat.getRow_ok hA hj (Or.inl rfl)) (bind_eq e1 (bind_eq e2 (bind_eq e3 e4)))
  · push_cast
    rw [add_mul, one_mul]
    refine add_le_add hSle ?_
    have h2 : rowDist dim F i j * 2 = rowDist dim F i j + rowDist dim F i j := by ring
    rw [h2]
    refine (add_le_add hDle hDle).trans ?_
    rw [two_mul_zp]; exact zp_mono (by norm_num)
  · have h2 : |t * 2 - rowDist dim F i j * 2| ≤ gam (dim + 1) * (rowDist dim F i j * 2) := by
      rw [← sub_mul, abs_mul, abs_two, ← mul_assoc]
      exact mul_le_mul_of_nonneg_right hd (by norm_num)
    exact pair_alg (k := dim + 1 + p) (q := dim + 1) (by omega) (by linarith) hsS h2 (fl_add_rel hsd ht2d) hst0

/-- The sum over all pairs. -/
theorem crowdingSum_dbl {A : Mat K} {n dim : Nat} {F : Nat → Nat → K} (hA : IsMat A n dim F)
    (hF : ModerateRows F n dim) (hdim : dim ≤ 2 ^ 32) (hn : n ≤ 65536) :
    ∃ s, crowdingSum A = .ok s ∧ PartialDist dim (n * (n - 1) / 2) s (pairSum dim F n) := by
  obtain ⟨hr, -, -, -⟩ := id hA
  have hb := pairs_bound hn
  rw [← pairsBefore_all] at hb ⊢
  unfold crowdingSum
  rw [hr]
  refine forRange_inv (fun k s => PartialDist dim (pairsBefore n k) s
    (∑ i ∈ range k, ∑ j ∈ Ico (i + 1) n, rowDist dim F i j * 2)) ?_ ?_
  · refine ⟨isDouble_zero, by simp, by simp [pairsBefore], by simp⟩
  intro i s hi hI
  refine bind_okP (Mat.getRow_ok hA hi (Or.inl rfl)) ?_
  have hi2 := pairsBefore_mono (n := n) (Nat.succ_le_of_lt hi)
  rw [Nat.succ_eq_add_one, pairsBefore_succ] at hi2
  refine (loopFrom_inv' (fun k s => PartialDist dim (pairsBefore n i + (k - (i + 1))) s
    ((∑ i ∈ range i, ∑ j ∈ Ico (i + 1) n, rowDist dim F i j * 2) +
      ∑ j ∈ Ico (i + 1) k, rowDist dim F i j * 2)) (by omega) (by simpa using hI) ?_).mono ?_
  · intro j s h1 h2 hs
    obtain ⟨s', e, h⟩ := crowdingTerm_ok hA hF hdim hi h2 hs (by omega)
    refine ⟨s', e, ?_⟩
    rw [sum_Ico_succ_top (by omega), ← add_assoc, show j + 1 - (i + 1) = j - (i + 1) + 1 by omega, ← add_assoc]
    exact h
  · intro s hs
    rw [sum_range_succ, pairsBefore_succ, show n - 1 - i = n - (i + 1) by omega]
    exact hs

/-- The rounded quotient. -/
theorem mean_alg {s S N c : K} {k : Nat} (hN : 0 < N) (h1 : |s - S| ≤ gam k * S) (hs : 0 ≤ s)
    (h2 : |c - s / N| ≤ eps * |s / N| + eta) : |c - S / N| ≤ gam (k + 1) * (S / N) + eta := by
  have he := eps_pos (K := K)
  rw [abs_of_nonneg (div_nonneg hs hN.le)] at h2
  have h3 : |s / N - S / N| ≤ gam k * (S / N) := by
    rw [← sub_div, abs_div, abs_of_pos hN, ← mul_div_assoc]
    exact div_le_div_of_nonneg_right h1 hN.le
  have h4 := mul_le_mul_of_nonneg_left (show s / N ≤ S / N + gam k * (S / N) by
    linarith [(abs_le.1 h3).2]) he.le
  have h5 := abs_sub_le c (s / N) (S / N)
  rw [gam_succ]
  have e : ((1 + eps) * gam k + eps) * (S / N) = gam k * (S / N) + eps * (S / N + gam k * (S / N)) := by ring
  rw [e]; linarith

theorem meanPairwise_pairs {n : Nat} (dim : Nat) (F : Nat → Nat → K) :
    meanPairwise n dim F = pairSum dim F n / ((n * (n - 1) : Nat) : K) := by
  rw [pairSum_eq, pairs_cast]; rfl

/-- The mean of at most 65536 rows. -/
theorem crowdingMean_dbl {n dim : Nat} {F : Nat → Nat → K} (hdim : dim ≤ 2 ^ 32) (hn0 : n ≠ 0) (hn : n ≤ 65536)
    {s : K} (hs : PartialDist dim (n * (n - 1) / 2) s (pairSum dim F n)) :
    ∃ c, crowdingMean n s = .ok c ∧ IsDouble c ∧ 0 ≤ c ∧
      |c - meanPairwise n dim F| ≤ gam (dim + n * (n - 1) / 2 + 2) * meanPairwise n dim F + eta ∧
      (meanPairwise n dim F = 0 → c = 0) := by
  have hb := pairs_bound hn
  have hs0 := hs.nonneg (by omega)
  have hsl := hs.le (by omega) (by omega)
  have h32 : pairCount32 n = n * (n - 1) := pairCount32_small hn
  have hmod : n * (n - 1) % 2 ^ 32 = n * (n - 1) := h32
  have hhalf := pairCount32_half n
  rw [h32] at hhalf
  unfold crowdingMean
  dsimp only
  rw [hhalf, hmod]
  rcases Nat.lt_or_ge n 2 with h | h
  · obtain rfl : n = 1 := by omega
    refine ⟨0, by simp, isDouble_zero, le_rfl, ?_, fun _ => rfl⟩
    have : meanPairwise 1 dim F = 0 := by simp [meanPairwise]
    rw [this, sub_zero, abs_zero, mul_zero, zero_add]
    exact (eta_pos (K := K)).le
  · have h1 : 2 ≤ n * (n - 1) := by
      calc 2 = 2 * 1 := rfl
        _ ≤ n * (n - 1) := Nat.mul_le_mul h (by omega)
    have h1K : (1 : K) ≤ ((n * (n - 1) : Nat) : K) := by exact_mod_cast (by omega : 1 ≤ n * (n - 1))
    have hN : (0 : K) < ((n * (n - 1) : Nat) : K) := lt_of_lt_of_le one_pos h1K
    rw [if_pos (by omega), meanPairwise_pairs]
    have hq0 : 0 ≤ s / ((n * (n - 1) : Nat) : K) := div_nonneg hs0 hN.le
    refine ⟨fl (s / ((n * (n - 1) : Nat) : K)), ?_, fl_isDouble _, double_le_fl isDouble_zero hq0, ?_, ?_⟩
    · unfold div
      rw [if_neg hN.ne']
      refine dbl_of_le (n := 567) (by norm_num) (by norm_num) ?_
      rw [abs_of_nonneg hq0]
      exact (div_le_self hs0 h1K).trans hsl
    · have := mean_alg hN hs.2.2.2 hs0 (fl_rel (s / ((n * (n - 1) : Nat) : K)))
      rw [show dim + n * (n - 1) / 2 + 2 = dim + 1 + n * (n - 1) / 2 + 1 by omega]
      exact this
    · intro h0
      rw [div_eq_zero_iff] at h0
      have hz : pairSum dim F n = 0 := h0.resolve_right hN.ne'
      have h3 := hs.2.2.2
      rw [hz, mul_zero, sub_zero] at h3
      have : s = 0 := abs_nonpos_iff.1 h3
      rw [this, zero_div, fl_of_double isDouble_zero]

end Rodeo.Dbl
