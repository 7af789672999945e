import Verif.Lemmas.DblChol
import Verif.Lemmas.LU
import Verif.Model.DblLU

/-! # Error bounds of the LU factorization and its solves in doubles -/

set_option linter.unusedSectionVars false

namespace Rodeo.Dbl

open Spec Finset

variable {K : Type} [Field K] [LinearOrder K] [IsStrictOrderedRing K] [FloorRing K]

theorem post_of {α β : Type} {x : Res α} {a : α} {f : α → Res β} {P : β → Prop} (e : x = .ok a)
    (h : Post (f a) P) : Post (x >>= f) P := by
  rw [e]; exact h

theorem gam_le_one {k : Nat} (hk : k ≤ 2 ^ 40) : (gam k : K) ≤ 1 := by
  have := pow_eps_le (K := K) hk
  unfold gam; linarith

/-! ## One operation -/

/-- One more product subtracted: `a` is the sum `S` of the products subtracted so far plus what is left, `s`. -/
theorem sub_step {k : Nat} (hk : k ≤ 2 ^ 40) {a S T s l u c : K} (hs : IsDouble s) (hT : 0 ≤ T)
    (h : |a - (S + s)| ≤ gam k * (T + |s|) + c) :
    |a - (S + l * u + fl (s - fl (l * u)))| ≤
      gam (k + 1) * (T + |l * u| + |fl (s - fl (l * u))|) + (c + 2 * eta) := by
  have he := eps_pos (K := K)
  have ht := eta_pos (K := K)
  have hg := gam_nonneg (K := K) k
  have hg1 := gam_le_one (K := K) hk
  have h1 := fl_sub_res hs (fl_isDouble (l * u))
  have h2 := fl_rel (l * u)
  rw [gam_succ]
  generalize fl (l * u) = m at *
  generalize fl (s - m) = r at *
  generalize l * u = q at *
  have h3 : |s| ≤ (1 + eps) * |r| + (1 + eps) * |q| + eta := by
    have e : s = (r - (r - (s - m))) + ((m - q) + q) := by ring
    have h4 := abs_add_le (r - (r - (s - m))) ((m - q) + q)
    have h5 := abs_sub r (r - (s - m))
    have h6 := abs_add_le (m - q) q
    rw [← e] at h4
    linarith
  have e : a - (S + q + r) = (a - (S + s)) + ((m - q) - (r - (s - m))) := by ring
  rw [e]
  have h4 := abs_add_le (a - (S + s)) ((m - q) - (r - (s - m)))
  have h5 := abs_sub (m - q) (r - (s - m))
  have h6 : gam k * (T + |s|) ≤ gam k * (T + ((1 + eps) * |r| + (1 + eps) * |q| + eta)) :=
    mul_le_mul_of_nonneg_left (by linarith) hg
  have h7 : (gam k : K) * eta ≤ 1 * eta := mul_le_mul_of_nonneg_right hg1 ht.le
  have h8 : 0 ≤ gam k * eps * T := by positivity
  have h9 : 0 ≤ eps * T := by positivity
  linarith

/-- The last product, whose factor is a quotient. -/
theorem div_step {k : Nat} (hk : k ≤ 2 ^ 40) {a S T s u c : K} (hT : 0 ≤ T) (hu : u ≠ 0)
    (h : |a - (S + s)| ≤ gam k * (T + |s|) + c) :
    |a - (S + fl (s / u) * u)| ≤ gam (k + 1) * (T + |fl (s / u) * u|) + (c + 2 * |u| * eta) := by
  have he := eps_pos (K := K)
  have ht := eta_pos (K := K)
  have hg := gam_nonneg (K := K) k
  have hg1 := gam_le_one (K := K) hk
  have h1 := mul_le_mul_of_nonneg_right (fl_err_res (s / u)) (abs_nonneg u)
  rw [← abs_mul, sub_mul, div_mul_cancel₀ _ hu, add_mul, mul_assoc, ← abs_mul] at h1
  rw [gam_succ]
  generalize fl (s / u) * u = q at *
  have h3 : |s| ≤ |q| + (eps * |q| + eta * |u|) := by
    have e : s = q - (q - s) := by ring
    have h4 := abs_sub q (q - s)
    rw [← e] at h4
    linarith
  have e : a - (S + q) = (a - (S + s)) - (q - s) := by ring
  rw [e]
  have h4 := abs_sub (a - (S + s)) (q - s)
  have h6 : gam k * (T + |s|) ≤ gam k * (T + (|q| + (eps * |q| + eta * |u|))) :=
    mul_le_mul_of_nonneg_left (by linarith) hg
  have h0 : 0 ≤ eta * |u| := by positivity
  have h7 : gam k * (eta * |u|) ≤ 1 * (eta * |u|) := mul_le_mul_of_nonneg_right hg1 h0
  have h8 : 0 ≤ gam k * eps * T := by positivity
  have h9 : 0 ≤ eps * T := by positivity
  linarith

/-! ## The elimination -/

/-- The matrix after one elimination round in doubles. -/
def flElim (k : Nat) (M : Nat → Nat → K) (i j : Nat) : K :=
  if k < i then
    if j = k then fl (M i k / M k k)
    else if k < j then fl (M i j - fl (fl (M i k / M k k) * M k j)) else M i j
  else M i j

theorem luEliminate_post {n k : Nat} {lu : List (Option K)} {M : Nat → Nat → K}
    (h : Rep2 lu n n (fun i j => some (M i j))) (hk : k < n) :
    Post (luEliminate n k lu) (fun d => Rep2 d n n (fun i j => some (flElim k M i j))) := by
  unfold luEliminate
  refine Post.bind (forFromTo_post (fun q d => Rep2 d n n (fun i j =>
      if j = k ∧ k < i ∧ i < q then some (fl (M i k / M k k)) else some (M i j)))
      (a := k + 1) (b := n) (by omega) ?_ ?_) ?_
  · exact h.start (by omega)
  · intro q d h1 h2 hd
    refine post_of (hd.rd (i := q) (j := k) h2 hk (Nat.add_comm _ _)
      (by rw [if_neg (by omega)])) ?_
    refine post_of (hd.rd (i := k) (j := k) hk hk (Nat.add_comm _ _)
      (by rw [if_neg (by omega)])) ?_
    refine Post.bind (P := fun v => M k k ≠ 0 ∧ v = fl (M q k / M k k)) (fun v hv => div_ok hv) ?_
    rintro _ ⟨-, rfl⟩
    exact OkP.post (hd.wr_next q k h2 hk (Nat.add_comm _ _) rfl (by omega))
  · intro d hd
    refine (forFromTo_post (fun q d => Rep2 d n n (fun i j =>
      if k < i ∧ (j ≤ k ∨ j < q) then some (flElim k M i j) else
        if j = k ∧ k < i then some (fl (M i k / M k k)) else some (M i j)))
      (a := k + 1) (b := n) (by omega) ?_ ?_).mono ?_
    · refine hd.congr ?_
      intro i j hi hj
      unfold flElim
      by_cases hki : k < i
      · rcases lt_trichotomy j k with hjk | hjk | hjk
        · rw [if_neg (by omega), if_pos (by omega), if_pos hki, if_neg (by omega),
            if_neg (by omega)]
        · subst hjk
          rw [if_pos (by omega), if_pos (by omega), if_pos hki, if_pos rfl]
        · rw [if_neg (by omega), if_neg (by omega), if_neg (by omega)]
      · rw [if_neg (by omega), if_neg (by omega), if_neg (by omega)]
    · intro q d h1 h2 hd
      refine (forFromTo_post (fun r d => Rep2 d n n (fun i j =>
        if k < i ∧ (j ≤ k ∨ j < q ∨ (j = q ∧ i < r)) then some (flElim k M i j) else
          if j = k ∧ k < i then some (fl (M i k / M k k)) else some (M i j)))
        (a := k + 1) (b := n) (by omega) ?_ ?_).mono ?_
      · exact hd.cond (by omega)
      · intro r d h3 h4 hd
        refine post_of (hd.rd (i := r) (j := q) (v := M r q) h4 h2 (Nat.add_comm _ _)
          (by rw [if_neg (by omega), if_neg (by omega)])) ?_
        refine post_of (hd.rd (i := r) (j := k) (v := fl (M r k / M k k)) h4 hk (Nat.add_comm _ _)
          (by rw [if_pos (by omega)]; unfold flElim; rw [if_pos (by omega), if_pos rfl])) ?_
        refine post_of (hd.rd (i := k) (j := q) (v := M k q) hk h2 (Nat.add_comm _ _)
          (by rw [if_neg (by omega), if_neg (by omega)])) ?_
        refine Post.bind (P := fun v => v = fl (fl (M r k / M k k) * M k q)) (fun v hv => dbl_ok hv) ?_
        rintro _ rfl
        refine Post.bind (P := fun v => v = fl (M r q - fl (fl (M r k / M k k) * M k q)))
          (fun v hv => dbl_ok hv) ?_
        rintro _ rfl
        refine OkP.post (hd.wr_next r q h4 h2 (Nat.add_comm _ _) ?_ (by omega))
        unfold flElim
        rw [if_pos (by omega), if_neg (by omega), if_pos (by omega)]
      · intro d hd
        exact hd.cond (by omega)
    · intro d hd
      refine hd.congr ?_
      intro i j hi hj
      by_cases hki : k < i
      · rw [if_pos (by omega)]
      · rw [if_neg (by omega), if_neg (by omega)]
        unfold flElim; rw [if_neg hki]

/-- The elimination when no operation overflows. -/
theorem luEliminate_total {n k : Nat} {lu : List (Option K)} {M : Nat → Nat → K}
    (h : Rep2 lu n n (fun i j => some (M i j))) (hk : k < n)
    (hd : ∀ i, k < i → i < n → div (M i k) (M k k) = .ok (fl (M i k / M k k)))
    (hm : ∀ i j, k < i → i < n → k < j → j < n →
      mul (fl (M i k / M k k)) (M k j) = .ok (fl (fl (M i k / M k k) * M k j)))
    (hs : ∀ i j, k < i → i < n → k < j → j < n →
      sub (M i j) (fl (fl (M i k / M k k) * M k j)) = .ok (fl (M i j - fl (fl (M i k / M k k) * M k j)))) :
    ∃ d, luEliminate n k lu = .ok d := by
  suffices OkP (luEliminate n k lu) (fun _ => True) by
    obtain ⟨d, e, -⟩ := this
    exact ⟨d, e⟩
  unfold luEliminate
  refine OkP.bind (loopFrom_inv' (fun q d => Rep2 d n n (fun i j =>
      if j = k ∧ k < i ∧ i < q then some (fl (M i k / M k k)) else some (M i j)))
      (a := k + 1) (b := n) (by omega) ?_ ?_) ?_
  · exact h.start (by omega)
  · intro q d h1 h2 hd'
    refine bind_okP (hd'.rd (i := q) (j := k) h2 hk (Nat.add_comm _ _)
      (by rw [if_neg (by omega)])) ?_
    refine bind_okP (hd'.rd (i := k) (j := k) hk hk (Nat.add_comm _ _)
      (by rw [if_neg (by omega)])) ?_
    refine bind_okP (hd q h1 h2) ?_
    exact hd'.wr_next q k h2 hk (Nat.add_comm _ _) rfl (by omega)
  · intro d hd'
    refine (loopFrom_inv' (fun q d => Rep2 d n n (fun i j =>
      if k < i ∧ (j ≤ k ∨ j < q) then some (flElim k M i j) else
        if j = k ∧ k < i then some (fl (M i k / M k k)) else some (M i j)))
      (a := k + 1) (b := n) (by omega) ?_ ?_).mono (fun _ _ => trivial)
    · refine hd'.congr ?_
      intro i j hi hj
      unfold flElim
      by_cases hki : k < i
      · rcases lt_trichotomy j k with hjk | hjk | hjk
        · rw [if_neg (by omega), if_pos (by omega), if_pos hki, if_neg (by omega),
            if_neg (by omega)]
        · subst hjk
          rw [if_pos (by omega), if_pos (by omega), if_pos hki, if_pos rfl]
        · rw [if_neg (by omega), if_neg (by omega), if_neg (by omega)]
      · rw [if_neg (by omega), if_neg (by omega), if_neg (by omega)]
    · intro q d h1 h2 hd'
      refine (loopFrom_inv' (fun r d => Rep2 d n n (fun i j =>
        if k < i ∧ (j ≤ k ∨ j < q ∨ (j = q ∧ i < r)) then some (flElim k M i j) else
          if j = k ∧ k < i then some (fl (M i k / M k k)) else some (M i j)))
        (a := k + 1) (b := n) (by omega) ?_ ?_).mono ?_
      · exact hd'.cond (by omega)
      · intro r d h3 h4 hd'
        refine bind_okP (hd'.rd (i := r) (j := q) (v := M r q) h4 h2 (Nat.add_comm _ _)
          (by rw [if_neg (by omega), if_neg (by omega)])) ?_
        refine bind_okP (hd'.rd (i := r) (j := k) (v := fl (M r k / M k k)) h4 hk (Nat.add_comm _ _)
          (by rw [if_pos (by omega)]; unfold flElim; rw [if_pos (by omega), if_pos rfl])) ?_
        refine bind_okP (hd'.rd (i := k) (j := q) (v := M k q) hk h2 (Nat.add_comm _ _)
          (by rw [if_neg (by omega), if_neg (by omega)])) ?_
        refine bind_okP (hm r q (by omega) h4 (by omega) h2) ?_
        refine bind_okP (hs r q (by omega) h4 (by omega) h2) ?_
        refine hd'.wr_next r q h4 h2 (Nat.add_comm _ _) ?_ (by omega)
        unfold flElim
        rw [if_pos (by omega), if_neg (by omega), if_pos (by omega)]
      · intro d hd'
        exact hd'.cond (by omega)

/-! ## The invariant -/

/-- The products subtracted so far. -/
def luTerm (M : Nat → Nat → K) (i j l : Nat) : K :=
  (if l < i then M i l else 0) * (if l ≤ j then M l j else 0)

/-- What is left of an entry after `k` rounds. -/
def luRest (k : Nat) (M : Nat → Nat → K) (i j : Nat) : K := if j < k ∧ j < i then 0 else M i j

/-- State of the elimination in doubles after `k` columns; `B` bounds the entries of `F`. -/
structure LUNear (n k : Nat) (B : K) (F : Nat → Nat → K) (π : Nat → Nat) (M : Nat → Nat → K) : Prop where
  low : ∀ i, i < n → π i < n
  onto : ∀ r, r < n → ∃ i, i < n ∧ π i = r
  pivot : ∀ l, l < k → lit Mat.pivotTol ≤ |M l l|
  dbls : ∀ i j, i < n → j < n → IsDouble (M i j)
  small : ∀ i l, i < n → l < k → l < i → |M i l| ≤ 1
  growth : ∀ i j, i < n → j < n → ¬ (j < k ∧ j < i) → |M i j| ≤ 2 ^ (min k i) * B
  near : ∀ i j, i < n → j < n → |F (π i) j - (∑ l ∈ range k, luTerm M i j l + luRest k M i j)| ≤
    gam k * (∑ l ∈ range k, |luTerm M i j l| + |luRest k M i j|) +
      2 * (k + if j < k ∧ j < i then |M j j| else 0) * eta

theorem LUNear.start {n : Nat} {B : K} {F : Nat → Nat → K} (hF : ∀ i j, i < n → j < n → IsDouble (F i j))
    (hB : ∀ i j, i < n → j < n → |F i j| ≤ B) : LUNear n 0 B F (fun i => i) F :=
  ⟨fun _ hi => hi, fun r hr => ⟨r, hr, rfl⟩, by omega, hF, by omega,
    fun i j hi hj _ => by simpa using hB i j hi hj, fun i j _ _ => by simp [luRest, gam]⟩

theorem LUNear.swap {n k : Nat} {B : K} {F : Nat → Nat → K} {π : Nat → Nat} {M : Nat → Nat → K}
    (h : LUNear n k B F π M) {r : Nat} (hk : k < n) (hr : r < n) (hkr : k ≤ r) :
    LUNear n k B F (fun i => π (swapIdx k r i)) (fun i j => M (swapIdx k r i) j) := by
  have hs : ∀ i, i < n → swapIdx k r i < n := by intro i hi; unfold swapIdx; split_ifs <;> omega
  have hss : ∀ i, swapIdx k r (swapIdx k r i) = i := by
    intro i; unfold swapIdx; split_ifs <;> omega
  have hlow : ∀ l, l < k → swapIdx k r l = l := by
    intro l hl; unfold swapIdx; split_ifs <;> omega
  have hlt : ∀ l i, l < k → (l < swapIdx k r i ↔ l < i) := by
    intro l i hl; unfold swapIdx; split_ifs <;> omega
  have hmin : ∀ i, min k (swapIdx k r i) = min k i := by
    intro i; unfold swapIdx; split_ifs <;> omega
  have hcond : ∀ j i, (j < k ∧ j < swapIdx k r i) ↔ (j < k ∧ j < i) := fun j i =>
    ⟨fun ⟨a, b⟩ => ⟨a, (hlt j i a).1 b⟩, fun ⟨a, b⟩ => ⟨a, (hlt j i a).2 b⟩⟩
  refine ⟨fun i hi => h.low _ (hs i hi), ?_, ?_, fun i j hi hj => h.dbls _ j (hs i hi) hj, ?_, ?_, ?_⟩
  · intro q hq
    obtain ⟨i, hi, rfl⟩ := h.onto q hq
    exact ⟨swapIdx k r i, hs i hi, by simp only [hss]⟩
  · intro l hl
    simp only [hlow l hl]
    exact h.pivot l hl
  · intro i l hi hl hli
    exact h.small _ l (hs i hi) hl ((hlt l i hl).2 hli)
  · intro i j hi hj hc
    have := h.growth _ j (hs i hi) hj (by rwa [hcond])
    rwa [hmin] at this
  · intro i j hi hj
    have h1 := h.near _ j (hs i hi) hj
    have e1 : ∀ l ∈ range k, luTerm (fun i j => M (swapIdx k r i) j) i j l = luTerm M (swapIdx k r i) j l := by
      intro l hl
      rw [mem_range] at hl
      simp only [luTerm, hlow l hl, hlt l i hl]
    have e2 : luRest k (fun i j => M (swapIdx k r i) j) i j = luRest k M (swapIdx k r i) j := by
      simp only [luRest, hcond]
    have e3 : (if j < k ∧ j < i then |M (swapIdx k r j) j| else 0) =
        if j < k ∧ j < swapIdx k r i then |M j j| else 0 := by
      simp only [hcond]
      by_cases hc : j < k ∧ j < i
      · rw [if_pos hc, if_pos hc, hlow j hc.1]
      · rw [if_neg hc, if_neg hc]
    rw [sum_congr rfl e1, sum_congr rfl (fun l hl => congrArg abs (e1 l hl)), e2, e3]
    exact h1

/-- Twice a double. -/
theorem isDouble_pow_mul {B : K} (h : IsDouble B) (k : Nat) : IsDouble (2 ^ k * B) := by
  obtain ⟨m, e, h1, h2, rfl⟩ := h
  refine ⟨m, e + k, h1, by omega, ?_⟩
  rw [zp_add, zpow_natCast]; ring

theorem fl_abs_le_dbl {x d : K} (hd : IsDouble d) (h : |x| ≤ d) : |fl x| ≤ d := by
  rw [abs_le] at h ⊢
  exact ⟨double_le_fl (isDouble_neg hd) h.1, fl_le_double hd h.2⟩

theorem div_abs_le_one {a b : K} (h : |a| ≤ |b|) : |fl (a / b)| ≤ 1 := by
  refine fl_abs_le_dbl isDouble_one ?_
  rw [abs_div]
  rcases eq_or_lt_of_le (abs_nonneg b) with h0 | h0
  · rw [← h0, div_zero]; exact zero_le_one
  · exact (div_le_one h0).2 h

theorem mul_abs_le {l u d : K} (hd : IsDouble d) (hl : |l| ≤ 1) (hu : |u| ≤ d) : |fl (l * u)| ≤ d := by
  refine fl_abs_le_dbl hd ?_
  rw [abs_mul]
  calc |l| * |u| ≤ 1 * |u| := mul_le_mul_of_nonneg_right hl (abs_nonneg u)
    _ ≤ d := by rw [one_mul]; exact hu

theorem flElim_abs_le {k i j : Nat} {B : K} {M : Nat → Nat → K} (hB : IsDouble B) (hki : k < i) (hkj : k < j)
    (hp : |M i k| ≤ |M k k|) (h1 : |M i j| ≤ 2 ^ k * B) (h2 : |M k j| ≤ 2 ^ k * B) :
    |flElim k M i j| ≤ 2 ^ (k + 1) * B := by
  unfold flElim
  rw [if_pos hki, if_neg (by omega), if_pos hkj]
  refine fl_abs_le_dbl (isDouble_pow_mul hB (k + 1)) ((abs_sub _ _).trans ?_)
  have := mul_abs_le (isDouble_pow_mul hB k) (div_abs_le_one hp) h2
  rw [pow_succ]
  linarith

theorem LUNear.elim {n k : Nat} {B : K} {F : Nat → Nat → K} {π : Nat → Nat} {M : Nat → Nat → K}
    (h : LUNear n k B F π M) (hn : n ≤ 2 ^ 32) (hk : k < n) (hB : IsDouble B)
    (hp : lit Mat.pivotTol ≤ |M k k|) (hne : M k k ≠ 0)
    (hmax : ∀ i, k < i → i < n → |M i k| ≤ |M k k|) : LUNear n (k + 1) B F π (flElim k M) := by
  have heta := eta_pos (K := K)
  have hB0 : 0 ≤ B := by
    have := (abs_nonneg _).trans (h.growth k k hk hk (by omega))
    exact nonneg_of_mul_nonneg_right this (by positivity)
  have hrow : ∀ l j, l ≤ k → flElim k M l j = M l j := by
    intro l j hl; unfold flElim; rw [if_neg (by omega)]
  have hcol : ∀ i l, l < k → flElim k M i l = M i l := by
    intro i l hl; unfold flElim
    by_cases hki : k < i
    · rw [if_pos hki, if_neg (by omega), if_neg (by omega)]
    · rw [if_neg hki]
  refine ⟨h.low, h.onto, ?_, ?_, ?_, ?_, ?_⟩
  · intro l hl
    rw [hrow l l (by omega)]
    by_cases hlk : l = k
    · subst hlk; exact hp
    · exact h.pivot l (by omega)
  · intro i j hi hj
    unfold flElim
    split_ifs
    · exact fl_isDouble _
    · exact fl_isDouble _
    · exact h.dbls i j hi hj
    · exact h.dbls i j hi hj
  · intro i l hi hl hli
    by_cases hlk : l = k
    · subst hlk
      unfold flElim
      rw [if_pos hli, if_pos rfl]
      exact div_abs_le_one (hmax i hli hi)
    · rw [hcol i l (by omega)]
      exact h.small i l hi (by omega) hli
  · intro i j hi hj hc
    by_cases hki : k < i
    · have hkj : k < j := by omega
      rw [show min (k + 1) i = k + 1 by omega]
      have h1 := h.growth i j hi hj (by omega)
      have h2 := h.growth k j hk hj (by omega)
      rw [show min k i = k by omega] at h1
      rw [Nat.min_self] at h2
      exact flElim_abs_le hB hki hkj (hmax i hki hi) h1 h2
    · rw [hrow i j (by omega), show min (k + 1) i = min k i by omega]
      exact h.growth i j hi hj (by omega)
  · intro i j hi hj
    have h1 := h.near i j hi hj
    have e1 : ∀ l ∈ range k, luTerm (flElim k M) i j l = luTerm M i j l := by
      intro l hl
      rw [mem_range] at hl
      simp only [luTerm, hcol i l hl, hrow l j hl.le]
    rw [sum_range_succ, sum_range_succ, sum_congr rfl e1, sum_congr rfl (fun l hl => congrArg abs (e1 l hl))]
    have hT : 0 ≤ ∑ l ∈ range k, |luTerm M i j l| := sum_nonneg fun _ _ => abs_nonneg _
    have hk40 : k ≤ 2 ^ 40 := by omega
    have hgm : (gam k : K) ≤ gam (k + 1) := gam_mono (by omega)
    by_cases hki : k < i
    · rcases lt_trichotomy j k with hjk | hjk | hjk
      · have e2 : luTerm (flElim k M) i j k = 0 := by
          unfold luTerm; rw [if_neg (show ¬ k ≤ j by omega), mul_zero]
        have e3 : luRest (k + 1) (flElim k M) i j = 0 := by
          unfold luRest; rw [if_pos (by omega)]
        have e4 : luRest k M i j = 0 := by unfold luRest; rw [if_pos (by omega)]
        rw [e4, if_pos (show j < k ∧ j < i by omega)] at h1
        rw [e2, e3, abs_zero, if_pos (show j < k + 1 ∧ j < i by omega), hrow j j (by omega)]
        simp only [add_zero, abs_zero] at h1 ⊢
        refine h1.trans (add_le_add (mul_le_mul_of_nonneg_right hgm hT) ?_)
        push_cast
        have : 0 ≤ eta * |M j j| := by positivity
        linarith
      · subst hjk
        have e2 : luTerm (flElim j M) i j j = fl (M i j / M j j) * M j j := by
          unfold luTerm
          rw [if_pos hki, if_pos le_rfl, hrow j j le_rfl]
          unfold flElim; rw [if_pos hki, if_pos rfl]
        have e3 : luRest (j + 1) (flElim j M) i j = 0 := by
          unfold luRest; rw [if_pos (by omega)]
        have e4 : luRest j M i j = M i j := by unfold luRest; rw [if_neg (by omega)]
        rw [e4, if_neg (by omega), add_zero] at h1
        rw [e2, e3, abs_zero, add_zero, add_zero, if_pos (show j < j + 1 ∧ j < i by omega), hrow j j le_rfl]
        refine (div_step hk40 hT hne h1).trans ?_
        push_cast
        linarith
      · have e2 : luTerm (flElim k M) i j k = fl (M i k / M k k) * M k j := by
          unfold luTerm
          rw [if_pos hki, if_pos (by omega), hrow k j le_rfl]
          unfold flElim; rw [if_pos hki, if_pos rfl]
        have e3 : luRest (k + 1) (flElim k M) i j = fl (M i j - fl (fl (M i k / M k k) * M k j)) := by
          unfold luRest flElim
          rw [if_neg (by omega), if_pos hki, if_neg (by omega), if_pos hjk]
        have e4 : luRest k M i j = M i j := by unfold luRest; rw [if_neg (by omega)]
        rw [e4, if_neg (by omega), add_zero] at h1
        rw [e2, e3, if_neg (by omega), add_zero]
        refine (sub_step hk40 (h.dbls i j hi hj) hT h1).trans ?_
        push_cast
        linarith
    · have e2 : luTerm (flElim k M) i j k = 0 := by
        unfold luTerm; rw [if_neg hki, zero_mul]
      have e3 : luRest (k + 1) (flElim k M) i j = luRest k M i j := by
        unfold luRest
        by_cases hc : j < k ∧ j < i
        · rw [if_pos hc, if_pos (by omega)]
        · rw [if_neg hc, if_neg (by omega), hrow i j (by omega)]
      have e5 : (if j < k + 1 ∧ j < i then |flElim k M j j| else 0) = if j < k ∧ j < i then |M j j| else 0 := by
        by_cases hc : j < k ∧ j < i
        · rw [if_pos hc, if_pos (by omega), hrow j j (by omega)]
        · rw [if_neg hc, if_neg (by omega)]
      rw [e2, e3, e5, abs_zero, add_zero, add_zero]
      refine h1.trans (add_le_add (mul_le_mul_of_nonneg_right hgm (add_nonneg hT (abs_nonneg _))) ?_)
      push_cast
      linarith

end Rodeo.Dbl
