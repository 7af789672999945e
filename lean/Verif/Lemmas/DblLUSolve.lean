import Verif.Lemmas.DblLU
import Verif.Spec.DblLU

/-! # The LU factorization, its solves and the inverse in doubles -/

set_option linter.unusedSectionVars false

namespace Rodeo.Dbl

open Spec Finset

variable {K : Type} [Field K] [LinearOrder K] [IsStrictOrderedRing K] [FloorRing K]

theorem lit_tol_pos : (0 : K) < lit Mat.pivotTol := by
  have hd : IsDouble ((2 : K) ^ (-30 : ℤ)) := ⟨1, -30, by norm_num, by norm_num, by simp⟩
  have h : (2 : K) ^ (-30 : ℤ) ≤ Mat.pivotTol := by
    unfold Mat.pivotTol
    rw [show (2 : K) ^ (-30 : ℤ) = 1 / 2 ^ 30 by rw [zpow_neg, one_div]; norm_cast]
    norm_num
  exact lt_of_lt_of_le (zp _) (double_le_fl hd h)

theorem two_eta_eq : 2 * (eta : K) = 1 / 2 ^ 1074 := by
  have : (eta : K) = 1 / 2 ^ 1075 := by
    unfold eta; rw [zpow_neg, one_div, two_pow_cast 1075]; rfl
  rw [this, show (1075 : ℕ) = 1 + 1074 from rfl, pow_add]
  field_simp

/-- A map of an initial segment onto itself is one to one. -/
theorem onto_inj {n : Nat} {π : Nat → Nat} (h1 : ∀ i, i < n → π i < n)
    (h2 : ∀ r, r < n → ∃ i, i < n ∧ π i = r) : ∀ i j, i < n → j < n → π i = π j → i = j := by
  let f : Fin n → Fin n := fun i => ⟨π i, h1 i i.2⟩
  have hs : Function.Surjective f := by
    intro r
    obtain ⟨i, hi, e⟩ := h2 r r.2
    exact ⟨⟨i, hi⟩, Fin.ext e⟩
  have hi := Finite.injective_iff_surjective.2 hs
  intro i j h3 h4 h5
  have : (⟨i, h3⟩ : Fin n) = ⟨j, h4⟩ := hi (Fin.ext h5)
  exact congrArg Fin.val this

theorem sum_pow_le {B : K} (hB : 0 ≤ B) (k : Nat) : ∑ l ∈ range k, 2 ^ l * B ≤ 2 ^ k * B := by
  induction k with
  | zero => simpa using hB
  | succ k ih => rw [sum_range_succ, pow_succ]; linarith

theorem LUNear.bound_nonneg {n k : Nat} {B : K} {F : Nat → Nat → K} {π : Nat → Nat} {M : Nat → Nat → K}
    (h : LUNear n k B F π M) (hn : 0 < n) : 0 ≤ B := by
  have := (abs_nonneg _).trans (h.growth 0 0 hn hn (by omega))
  simpa using this

theorem pow_mul_mono {B : K} (hB : 0 ≤ B) {a b : Nat} (h : a ≤ b) : 2 ^ a * B ≤ 2 ^ b * B :=
  mul_le_mul_of_nonneg_right (pow_le_pow_right₀ (by norm_num) h) hB

/-- The sizes of the products. -/
theorem LUNear.sizes {n k : Nat} {B : K} {F : Nat → Nat → K} {π : Nat → Nat} {M : Nat → Nat → K}
    (h : LUNear n k B F π M) (hk : k ≤ n) {i j : Nat} (hi : i < n) (hj : j < n) :
    ∑ l ∈ range k, |luTerm M i j l| ≤ 2 ^ min k i * B := by
  have hB := h.bound_nonneg (by omega)
  refine le_trans ?_ (sum_pow_le hB (min k i))
  have e : range (min k i) = (range k).filter (· < i) := by
    ext a; simp only [mem_range, mem_filter]; omega
  rw [e, sum_filter]
  refine sum_le_sum fun l hl => ?_
  rw [mem_range] at hl
  unfold luTerm
  by_cases hli : l < i
  · rw [if_pos hli, if_pos hli, abs_mul]
    have h1 := h.small i l hi hl hli
    by_cases hlj : l ≤ j
    · rw [if_pos hlj]
      have h2 := h.growth l j (by omega) hj (by omega)
      rw [show min k l = l by omega] at h2
      calc |M i l| * |M l j| ≤ 1 * (2 ^ l * B) :=
            mul_le_mul h1 h2 (abs_nonneg _) zero_le_one
        _ = 2 ^ l * B := one_mul _
    · rw [if_neg hlj, abs_zero, mul_zero]; positivity
  · rw [if_neg hli, if_neg hli, zero_mul, abs_zero]

theorem LUNear.error {n k : Nat} {B : K} {F : Nat → Nat → K} {π : Nat → Nat} {M : Nat → Nat → K}
    (h : LUNear n k B F π M) (hk : k < n) (hn : n ≤ 2 ^ 32) {i j : Nat} (hi : i < n) (hj : j < n) :
    |F (π i) j - (∑ l ∈ range k, luTerm M i j l + luRest k M i j)| ≤ luError n B := by
  have hB := h.bound_nonneg (by omega)
  refine (h.near i j hi hj).trans ?_
  unfold luError
  have h1 : ∑ l ∈ range k, |luTerm M i j l| + |luRest k M i j| ≤ 2 ^ n * B := by
    have h2 := h.sizes hk.le hi hj
    have h3 : |luRest k M i j| ≤ 2 ^ min k i * B := by
      unfold luRest
      split_ifs with hc
      · rw [abs_zero]; positivity
      · exact h.growth i j hi hj hc
    have h4 := pow_mul_mono hB (show min k i + 1 ≤ n by omega)
    rw [pow_succ] at h4
    linarith
  have h5 : (gam k : K) ≤ n / 2 ^ 52 := (gam_mono hk.le).trans (gam_le (by omega))
  have h6 : gam k * (∑ l ∈ range k, |luTerm M i j l| + |luRest k M i j|) ≤ n / 2 ^ 52 * (2 ^ n * B) :=
    mul_le_mul h5 h1 (add_nonneg (sum_nonneg fun _ _ => abs_nonneg _) (abs_nonneg _)) (by positivity)
  have h7 : ((k : K) + if j < k ∧ j < i then |M j j| else 0) ≤ n + 2 ^ n * B := by
    have hkn : (k : K) ≤ n := by exact_mod_cast hk.le
    have : (if j < k ∧ j < i then |M j j| else 0) ≤ 2 ^ n * B := by
      split_ifs with hc
      · have h8 := h.growth j j hj hj (by omega)
        exact h8.trans (pow_mul_mono hB (by omega))
      · positivity
    linarith
  refine add_le_add h6 ?_
  have e : 2 * ((k : K) + if j < k ∧ j < i then |M j j| else 0) * eta =
      (k + if j < k ∧ j < i then |M j j| else 0) * (2 * eta) := by ring
  rw [e, two_eta_eq, div_eq_mul_one_div ((n : K) + _)]
  exact mul_le_mul_of_nonneg_right h7 (by positivity)

/-- When the rest of a column is small, a nearby matrix maps some vector with an entry 1 to a small one. -/
theorem LUNear.stuck {n k : Nat} {B : K} {F : Nat → Nat → K} {π : Nat → Nat} {M : Nat → Nat → K}
    (h : LUNear n k B F π M) (hk : k < n) (hn : n ≤ 2 ^ 32) {tol : K} (ht : 0 < tol)
    (hs : ∀ i, k ≤ i → i < n → |M i k| < tol) :
    ∃ G : Nat → Nat → K, (∀ i j, i < n → j < n → |F i j - G i j| ≤ luError n B) ∧
      ∃ x : Nat → K, x k = 1 ∧ ∀ r, r < n → |∑ j ∈ range n, G r j * x j| < tol := by
  have hσ : ∀ r, ∃ i, r < n → i < n ∧ π i = r := by
    intro r
    by_cases hr : r < n
    · obtain ⟨i, h1⟩ := h.onto r hr
      exact ⟨i, fun _ => h1⟩
    · exact ⟨0, fun h' => absurd h' hr⟩
  choose σ hσ using hσ
  have hσπ : ∀ i, i < n → σ (π i) = i := by
    intro i hi
    obtain ⟨h1, h2⟩ := hσ (π i) (h.low i hi)
    exact onto_inj h.low h.onto _ _ h1 hi h2
  let G : Nat → Nat → K := fun r j => ∑ l ∈ range k, luTerm M (σ r) j l + luRest k M (σ r) j
  refine ⟨G, ?_, ?_⟩
  · intro r j hr hj
    obtain ⟨h1, h2⟩ := hσ r hr
    have := h.error hk hn h1 hj
    rwa [h2] at this
  · have hinv : LUInv n k G π M := by
      refine ⟨h.low, h.onto, ?_, ?_⟩
      · intro l hl h0
        have := h.pivot l hl
        rw [h0, abs_zero] at this
        exact absurd this (not_le.2 lit_tol_pos)
      · intro i j hi hj
        simp only [G, hσπ i hi]
        rfl
    exact hinv.stuck hk ht hs

/-- What the loop over the columns has established. -/
def LUOutNear (n : Nat) (B : K) (F : Nat → Nat → K) (k : Nat)
    (s : Option (List (Option K) × List (Option Nat))) : Prop :=
  match s with
  | some (lu, p) => ∃ M π, Rep2 lu n n (fun i j => some (M i j)) ∧
      Rep1 p n (fun i => some (π i)) ∧ LUNear n k B F π M
  | none => ∃ G : Nat → Nat → K, (∀ i j, i < n → j < n → |F i j - G i j| ≤ luError n B) ∧
      ∃ c, c < n ∧ ∃ x : Nat → K, x c = 1 ∧ ∀ r, r < n → |∑ j ∈ range n, G r j * x j| < lit Mat.pivotTol

theorem luStep_post {n k : Nat} {B : K} {F M : Nat → Nat → K} {π : Nat → Nat} {lu : List (Option K)}
    {p : List (Option Nat)} (h : Rep2 lu n n (fun i j => some (M i j)))
    (hp : Rep1 p n (fun i => some (π i))) (hinv : LUNear n k B F π M) (hk : k < n) (hn : n ≤ 2 ^ 32)
    (hB : IsDouble B) :
    Post (luStep n k lu p) (LUOutNear n B F (k + 1)) ∧
    (2 ^ n * B ≤ 2 ^ (1023 : ℤ) → ∃ r, luStep n k lu p = .ok r) := by
  obtain ⟨r, e1, h1, h2, h3⟩ := Mat.luPivotRow_ok h hk
  obtain ⟨⟨lu', p'⟩, e2, h4, h5⟩ := Mat.luSwap_ok h hp hk h2
  have hinv' := hinv.swap hk h2 h1
  have e3 := h4.rd (i := k) (j := k) hk hk (Nat.add_comm _ _) rfl
  have hsk : swapIdx k r k = r := by simp [swapIdx]
  have hstep : luStep n k lu p = (if |M (swapIdx k r k) k| < lit Mat.pivotTol then .ok none
      else do
        let lu ← luEliminate n k lu'
        .ok (some (lu, p'))) := by
    unfold luStep
    exact bind_eq e1 (bind_eq e2 (bind_eq e3 rfl))
  have hmx : ∀ i, k ≤ i → i < n → |M (swapIdx k r i) k| ≤ |M (swapIdx k r k) k| := by
    intro i hi1 hi2
    rw [hsk]
    refine h3 _ ?_ ?_ <;> unfold swapIdx <;> split_ifs <;> omega
  rw [hstep]
  split_ifs with hc
  · refine ⟨Post.ok ?_, fun _ => ⟨none, rfl⟩⟩
    obtain ⟨G, g1, x, g2, g3⟩ := hinv'.stuck hk hn lit_tol_pos fun i hi1 hi2 => (hmx i hi1 hi2).trans_lt hc
    exact ⟨G, g1, k, hk, x, g2, g3⟩
  · have hge := not_lt.1 hc
    have hne : M (swapIdx k r k) k ≠ 0 := by
      intro h0
      rw [h0, abs_zero] at hge
      exact absurd hge (not_le.2 lit_tol_pos)
    constructor
    · refine Post.bind (luEliminate_post h4 hk) ?_
      intro lu'' h6
      exact Post.ok ⟨_, _, h6, h5, hinv'.elim hn hk hB hge hne fun i hi1 hi2 => hmx i hi1.le hi2⟩
    · intro hfin
      have hB0 := hinv.bound_nonneg (by omega)
      have hgr : ∀ i j, k ≤ i → i < n → k < j → j < n → |M (swapIdx k r i) j| ≤ 2 ^ k * B := by
        intro i j h7 h8 h9 h10
        have := hinv'.growth i j h8 h10 (by omega)
        rwa [show min k i = k by omega] at this
      have hkn : 2 ^ k * B + 2 ^ k * B ≤ 2 ^ (1023 : ℤ) := by
        have := pow_mul_mono hB0 (show k + 1 ≤ n by omega)
        rw [pow_succ] at this
        linarith
      have hk0 : 0 ≤ 2 ^ k * B := by positivity
      have hq : ∀ i, k < i → i < n →
          |fl (M (swapIdx k r i) k / M (swapIdx k r k) k)| ≤ 1 := fun i h7 h8 =>
        div_abs_le_one (hmx i h7.le h8)
      have hm : ∀ i j, k < i → i < n → k < j → j < n →
          |fl (fl (M (swapIdx k r i) k / M (swapIdx k r k) k) * M (swapIdx k r k) j)| ≤ 2 ^ k * B :=
        fun i j h7 h8 h9 h10 => mul_abs_le (isDouble_pow_mul hB k) (hq i h7 h8) (hgr k j le_rfl hk h9 h10)
      obtain ⟨d, e⟩ := luEliminate_total h4 hk (by
        intro i h7 h8
        unfold div
        rw [if_neg hne]
        refine dbl_of_le (n := 1023) (by norm_num) le_rfl ?_
        rw [abs_div]
        refine ((div_le_one (abs_pos.2 hne)).2 (hmx i h7.le h8)).trans ?_
        rw [← zpow_zero (2 : K)]
        exact zp_mono (by norm_num)) (by
        intro i j h7 h8 h9 h10
        refine dbl_of_le (n := 1023) (by norm_num) le_rfl ?_
        rw [abs_mul]
        have h11 := mul_le_mul (hq i h7 h8) (hgr k j le_rfl hk h9 h10) (abs_nonneg _) zero_le_one
        rw [one_mul] at h11
        exact h11.trans ((le_add_of_nonneg_left hk0).trans hkn)) (by
        intro i j h7 h8 h9 h10
        refine dbl_of_le (n := 1023) (by norm_num) le_rfl ((abs_sub _ _).trans ?_)
        exact (add_le_add (hgr i j h7.le h8 h9 h10) (hm i j h7 h8 h9 h10)).trans hkn)
      exact ⟨_, bind_eq e rfl⟩

theorem luDecomposition_post {A : Mat K} {n : Nat} {B : K} {F : Nat → Nat → K} (hA : IsMat A n n F)
    (hn : n ≤ 2 ^ 32) (hB : IsDouble B) (hF : ∀ i j, i < n → j < n → IsDouble (F i j))
    (hFB : ∀ i j, i < n → j < n → |F i j| ≤ B) :
    Post (luDecomposition A.buf n) (LUOutNear n B F n) ∧
    (2 ^ n * B ≤ 2 ^ (1023 : ℤ) → ∃ r, luDecomposition A.buf n = .ok r) := by
  have hcopy : OkP (forRange n (fun i (s : List (Option K) × List (Option Nat)) => do
    let p ← Mem.wr s.2 i i
    let lu ← forRange n (fun j lu => do
      let v ← rawAt A.buf (i + j * n)
      Mem.wr lu (i + j * n) v) s.1
    .ok (lu, p)) (Mem.alloc (n * n), Mem.alloc n)) (fun s =>
      Rep2 s.1 n n (fun i j => if i < n then some (F i j) else none) ∧
      Rep1 s.2 n (fun i => if i < n then some i else none)) := by
    refine Mat.okP_for (fun q (s : List (Option K) × List (Option Nat)) =>
      Rep2 s.1 n n (fun i j => if i < q then some (F i j) else none) ∧
      Rep1 s.2 n (fun i => if i < q then some i else none)) ?_ ?_
    · exact ⟨(rep2_alloc n n).start (by omega), (rep1_alloc n).congr (by simp)⟩
    · rintro q ⟨lu, p⟩ hq ⟨h1, h2⟩
      refine OkP.bind (h2.wr (v := q) hq) ?_
      intro p' hp'
      refine OkP.bind (Mat.okP_for (fun r d => Rep2 d n n (fun i j =>
        if i < q ∨ (i = q ∧ j < r) then some (F i j) else none)) ?_ ?_) ?_
      · exact h1.cond (by omega)
      · intro r d hr hd
        refine bind_okP (hA.raw (i := q) (j := r) hq hr (Nat.add_comm _ _)) ?_
        exact hd.wr_next q r hq hr (Nat.add_comm _ _) rfl (by omega)
      · intro d hd
        refine okP_ok ⟨hd.cond (by omega), hp'.congr ?_⟩
        intro i hi
        by_cases h3 : i = q
        · rw [if_pos h3, if_pos (by omega), h3]
        · rw [if_neg h3]
          by_cases h4 : i < q
          · rw [if_pos h4, if_pos (by omega)]
          · rw [if_neg h4, if_neg (by omega)]
  obtain ⟨⟨lu, p⟩, e, h1, h2⟩ := hcopy
  have hstart : LUOutNear n B F 0 (some (lu, p)) := by
    refine ⟨F, fun i => i, h1.done (by omega), h2.congr ?_, LUNear.start hF hFB⟩
    intro i hi; rw [if_pos hi]
  unfold luDecomposition
  constructor
  · refine post_of e ?_
    refine forRange_post' (LUOutNear n B F) hstart ?_
    rintro k (_ | ⟨lu, p⟩) hk hs
    · exact Post.ok hs
    · obtain ⟨M, π, h3, h4, h5⟩ := hs
      exact (luStep_post h3 h4 h5 hk hn hB).1
  · intro hfin
    suffices OkP _ (LUOutNear n B F n) by
      obtain ⟨r, h, -⟩ := this
      exact ⟨r, bind_eq e h⟩
    refine Mat.okP_for (LUOutNear n B F) hstart ?_
    rintro k (_ | ⟨lu, p⟩) hk hs
    · exact okP_ok hs
    · obtain ⟨M, π, h3, h4, h5⟩ := hs
      obtain ⟨h6, h7⟩ := luStep_post h3 h4 h5 hk hn hB
      obtain ⟨r, hr⟩ := h7 hfin
      exact ⟨r, hr, h6 r hr⟩

theorem lu_post {A : Mat K} {n : Nat} {B : K} {F : Nat → Nat → K} (hA : IsMat A n n F) (hn : n ≤ 2 ^ 32)
    (hB : IsDouble B) (hF : ∀ i j, i < n → j < n → IsDouble (F i j))
    (hFB : ∀ i j, i < n → j < n → |F i j| ≤ B) :
    Post (lu A) (fun r => match r with
      | some (LU, p) => ∃ M π, IsMat LU n n M ∧ p = (List.range n).map π ∧ LUNear n n B F π M
      | none => ∃ G : Nat → Nat → K, (∀ i j, i < n → j < n → |F i j - G i j| ≤ luError n B) ∧
          ∃ c, c < n ∧ ∃ x : Nat → K, x c = 1 ∧
            ∀ r, r < n → |∑ j ∈ range n, G r j * x j| < lit Mat.pivotTol) ∧
    (2 ^ n * B ≤ 2 ^ (1023 : ℤ) → ∃ r, lu A = .ok r) := by
  obtain ⟨hr, hc, -, -⟩ := id hA
  obtain ⟨h1, h2⟩ := luDecomposition_post hA hn hB hF hFB
  have fin : ∀ s, LUOutNear n B F n s → OkP (match s with
      | none => (.ok none : Res (Option (Mat K × List Nat)))
      | some (lu, p) => do
        let l ← Mem.freeze lu
        let q ← Mem.freeze p
        .ok (some (⟨n, n, l⟩, q))) (fun r => match r with
      | some (LU, p) => ∃ M π, IsMat LU n n M ∧ p = (List.range n).map π ∧ LUNear n n B F π M
      | none => ∃ G : Nat → Nat → K, (∀ i j, i < n → j < n → |F i j - G i j| ≤ luError n B) ∧
          ∃ c, c < n ∧ ∃ x : Nat → K, x c = 1 ∧
            ∀ r, r < n → |∑ j ∈ range n, G r j * x j| < lit Mat.pivotTol) := by
    rintro (_ | ⟨lu, p⟩) hs
    · exact okP_ok hs
    · obtain ⟨M, π, h3, h4, h5⟩ := hs
      refine OkP.bind (Mat.okP_freeze h3) ?_
      intro l hl
      refine bind_okP h4.freeze ?_
      exact okP_ok ⟨M, π, hl, rfl, h5⟩
  unfold lu
  rw [if_neg (by omega), hr, hc]
  constructor
  · refine Post.bind h1 ?_
    intro s hs
    exact OkP.post (fin s hs)
  · intro hfin
    obtain ⟨s, hs⟩ := h2 hfin
    obtain ⟨r, hr, -⟩ := fin s (h1 s hs)
    exact ⟨r, bind_eq hs hr⟩

/-! ## The triangular solves -/

theorem vecFun_double {b : List K} {i : Nat} (hb : Doubles b) (hi : i < b.length) : IsDouble (vecFun b i) := by
  have : vecFun b i = b[i] := by simp [vecFun, hi]
  rw [this]
  exact hb _ (List.getElem_mem _)

theorem forwardSubstitution_post {n : Nat} {LU : Mat K} {M : Nat → Nat → K} {π : Nat → Nat} {b : List K}
    (hL : IsMat LU n n M) (hπ : ∀ i, i < n → π i < n) (hb : b.length = n) (hbd : Doubles b)
    (hn : n ≤ 2 ^ 32) :
    Post (forwardSubstitution n LU.buf ((List.range n).map π) b (Mem.alloc n))
      (fun y => ∃ Y : Nat → K, Rep1 y n (fun i => some (Y i)) ∧ (∀ i, i < n → IsDouble (Y i)) ∧
        ∀ i, i < n → |vecFun b (π i) - (∑ l ∈ range i, M i l * Y l + Y i)| ≤
          gam i * (∑ l ∈ range i, |M i l * Y l| + |Y i|) + 2 * i * eta) := by
  unfold forwardSubstitution
  refine Post.bind (OkP.post (Mat.okP_for (fun q y => Rep1 y n (fun i =>
      if i < q then some (vecFun b (π i)) else none)) ?_ ?_)) ?_
  · exact (rep1_alloc n).congr (by simp)
  · intro q y hq hy
    refine bind_okP (a := π q) (by simp [rawAt, hq]) ?_
    refine bind_okP (a := vecFun b (π q)) ?_ ?_
    · have := hπ q hq
      simp [rawAt, vecFun, hb, this]
    · refine (hy.wr hq).mono ?_
      intro d hd
      refine hd.congr ?_
      intro i hi
      by_cases h3 : i = q
      · rw [if_pos h3, if_pos (by omega), h3]
      · rw [if_neg h3]
        by_cases h4 : i < q
        · rw [if_pos h4, if_pos (by omega)]
        · rw [if_neg h4, if_neg (by omega)]
  · intro y hy
    refine (forRange_post' (fun q y => ∃ Y : Nat → K, Rep1 y n (fun i => some (Y i)) ∧
      (∀ i, i < n → IsDouble (Y i)) ∧
      (∀ i, i < q → |vecFun b (π i) - (∑ l ∈ range i, M i l * Y l + Y i)| ≤
          gam i * (∑ l ∈ range i, |M i l * Y l| + |Y i|) + 2 * i * eta) ∧
      (∀ i, q ≤ i → Y i = vecFun b (π i))) ?_ ?_).mono ?_
    · refine ⟨fun i => vecFun b (π i), hy.congr ?_, fun i hi => vecFun_double hbd (by have := hπ i hi; omega),
        by omega, fun i _ => rfl⟩
      intro i hi; rw [if_pos hi]
    · rintro q y hq ⟨Y, h1, hd1, h2, h3⟩
      refine (forRange_post' (fun r y => ∃ Z : Nat → K, Rep1 y n (fun i => some (Z i)) ∧
        (∀ i, i < n → IsDouble (Z i)) ∧ (∀ i, i ≠ q → Z i = Y i) ∧
        |vecFun b (π q) - (∑ l ∈ range r, M q l * Y l + Z q)| ≤
          gam r * (∑ l ∈ range r, |M q l * Y l| + |Z q|) + 2 * r * eta) ?_ ?_).mono ?_
      · exact ⟨Y, h1, hd1, fun _ _ => rfl, by simp [h3 q (le_refl _), gam]⟩
      · rintro r y hr ⟨Z, h4, hd4, h5, h6⟩
        refine post_of (h4.rd hq rfl) ?_
        refine post_of (hL.raw (i := q) (j := r) hq (by omega) (Nat.add_comm _ _)) ?_
        refine post_of (h4.rd (i := r) (by omega) rfl) ?_
        refine Post.bind (P := fun v => v = fl (M q r * Z r)) (fun v hv => dbl_ok hv) ?_
        rintro _ rfl
        refine Post.bind (P := fun v => v = fl (Z q - fl (M q r * Z r))) (fun v hv => dbl_ok hv) ?_
        rintro _ rfl
        refine (OkP.post (h4.wr hq)).mono ?_
        intro d hd
        refine ⟨fun i => if i = q then fl (Z q - fl (M q r * Z r)) else Z i, hd.congr ?_, ?_, ?_, ?_⟩
        · intro i _; dsimp only; split_ifs <;> rfl
        · intro i hi; dsimp only; split_ifs
          · exact fl_isDouble _
          · exact hd4 i hi
        · intro i hi; simp only [if_neg hi]; exact h5 i hi
        · simp only [if_true]
          rw [sum_range_succ, sum_range_succ, ← h5 r (by omega)]
          refine (sub_step (by omega) (hd4 q hq) (sum_nonneg fun _ _ => abs_nonneg _) h6).trans ?_
          push_cast
          linarith
      · rintro d ⟨Z, h4, hd4, h5, h6⟩
        have hsum : ∀ i, i ≤ q → ∑ l ∈ range i, M i l * Z l = ∑ l ∈ range i, M i l * Y l := fun i hi =>
          sum_congr rfl fun l hl => by rw [mem_range] at hl; rw [h5 l (by omega)]
        have hsum2 : ∀ i, i ≤ q → ∑ l ∈ range i, |M i l * Z l| = ∑ l ∈ range i, |M i l * Y l| := fun i hi =>
          sum_congr rfl fun l hl => by rw [mem_range] at hl; rw [h5 l (by omega)]
        refine ⟨Z, h4, hd4, ?_, ?_⟩
        · intro i hi
          rw [hsum i (by omega), hsum2 i (by omega)]
          by_cases hiq : i = q
          · subst hiq; exact h6
          · rw [h5 i hiq]; exact h2 i (by omega)
        · intro i hi
          rw [h5 i (by omega), h3 i (by omega)]
    · rintro y ⟨Y, h1, h2, h3, _⟩
      exact ⟨Y, h1, h2, h3⟩

theorem backwardSubstitution_post {n : Nat} {LU : Mat K} {M : Nat → Nat → K} {y : List (Option K)}
    {Y : Nat → K} (hL : IsMat LU n n M) (hy : Rep1 y n (fun i => some (Y i)))
    (hyd : ∀ i, i < n → IsDouble (Y i)) (hn : n ≤ 2 ^ 32) :
    Post (backwardSubstitution n LU.buf y (Mem.zeros n))
      (fun x => ∃ X : Nat → K, Rep1 x n (fun i => some (X i)) ∧
        ∀ i, i < n → |Y i - ∑ j ∈ Ico i n, M i j * X j| ≤
          gam n * ∑ j ∈ Ico i n, |M i j * X j| + 2 * (n + |M i i|) * eta) := by
  have heta := eta_pos (K := K)
  unfold backwardSubstitution
  refine (forRange_post' (fun t x => ∃ X : Nat → K, Rep1 x n (fun i => some (X i)) ∧
      ∀ i, n - t ≤ i → i < n → |Y i - ∑ j ∈ Ico i n, M i j * X j| ≤
          gam n * ∑ j ∈ Ico i n, |M i j * X j| + 2 * (n + |M i i|) * eta) ?_ ?_).mono ?_
  · exact ⟨fun _ => 0, rep1_zeros n, by omega⟩
  · rintro t x ht ⟨X, h1, h2⟩
    have hi : n - 1 - t < n := by omega
    simp only []
    generalize hidef : n - 1 - t = i at hi ⊢
    refine post_of (hy.rd hi rfl) ?_
    refine Post.bind (OkP.post (h1.wr (v := Y i) hi)) ?_
    intro x1 hx1
    refine Post.bind (forFromTo_post (fun r x => ∃ Z : Nat → K, Rep1 x n (fun a => some (Z a)) ∧
        (∀ a, a ≠ i → Z a = X a) ∧ IsDouble (Z i) ∧
        |Y i - (∑ j ∈ Ico (i + 1) r, M i j * X j + Z i)| ≤
          gam (r - (i + 1)) * (∑ j ∈ Ico (i + 1) r, |M i j * X j| + |Z i|) + 2 * (r - (i + 1) : Nat) * eta)
        (a := i + 1) (b := n) (by omega) ?_ ?_) ?_
    · refine ⟨fun a => if a = i then Y i else X a, hx1.congr ?_, ?_, by simpa using hyd i hi, by simp [gam]⟩
      · intro a _; dsimp only; split_ifs <;> rfl
      · intro a ha; simp only [if_neg ha]
    · rintro r x hr1 hr2 ⟨Z, h4, h5, hd4, h6⟩
      refine post_of (h4.rd hi rfl) ?_
      refine post_of (hL.raw (i := i) (j := r) hi hr2 (Nat.add_comm _ _)) ?_
      refine post_of (h4.rd (i := r) hr2 rfl) ?_
      refine Post.bind (P := fun v => v = fl (M i r * Z r)) (fun v hv => dbl_ok hv) ?_
      rintro _ rfl
      refine Post.bind (P := fun v => v = fl (Z i - fl (M i r * Z r))) (fun v hv => dbl_ok hv) ?_
      rintro _ rfl
      refine (OkP.post (h4.wr hi)).mono ?_
      intro d hd
      refine ⟨fun a => if a = i then fl (Z i - fl (M i r * Z r)) else Z a, hd.congr ?_, ?_, ?_, ?_⟩
      · intro a _; dsimp only; split_ifs <;> rfl
      · intro a ha; simp only [if_neg ha]; exact h5 a ha
      · simp only [if_true]; exact fl_isDouble _
      · simp only [if_true]
        rw [sum_Ico_succ_top hr1, sum_Ico_succ_top hr1, ← h5 r (by omega),
          show r + 1 - (i + 1) = r - (i + 1) + 1 by omega]
        refine (sub_step (by omega) hd4 (sum_nonneg fun _ _ => abs_nonneg _) h6).trans ?_
        push_cast
        linarith
    · rintro x2 ⟨Z, h4, h5, hd4, h6⟩
      refine post_of (h4.rd hi rfl) ?_
      refine post_of (hL.raw (i := i) (j := i) hi hi (Nat.add_comm _ _)) ?_
      refine Post.bind (P := fun v => M i i ≠ 0 ∧ v = fl (Z i / M i i)) (fun v hv => div_ok hv) ?_
      rintro _ ⟨hne, rfl⟩
      refine (OkP.post (h4.wr hi)).mono ?_
      intro d hd'
      refine ⟨fun a => if a = i then fl (Z i / M i i) else Z a, hd'.congr ?_, ?_⟩
      · intro a _; dsimp only; split_ifs <;> rfl
      · intro a ha1 ha2
        have hs1 : ∀ c, i ≤ c → ∑ j ∈ Ico (c + 1) n, M c j * Z j = ∑ j ∈ Ico (c + 1) n, M c j * X j :=
          fun c hc => sum_congr rfl fun j hj => by rw [mem_Ico] at hj; rw [h5 j (by omega)]
        dsimp only
        by_cases hai : a = i
        · subst hai
          have e3 : ∑ j ∈ Ico (a + 1) n, M a j * (if j = a then fl (Z a / M a a) else Z j) =
              ∑ j ∈ Ico (a + 1) n, M a j * X j := by
            rw [sum_upd (by simp)]
            exact sum_congr rfl fun j hj => by rw [mem_Ico] at hj; rw [h5 j (by omega)]
          have e4 : ∑ j ∈ Ico (a + 1) n, |M a j * (if j = a then fl (Z a / M a a) else Z j)| =
              ∑ j ∈ Ico (a + 1) n, |M a j * X j| := by
            rw [sum_upd_abs (by simp)]
            exact sum_congr rfl fun j hj => by rw [mem_Ico] at hj; rw [h5 j (by omega)]
          rw [sum_eq_sum_Ico_succ_bot ha2, sum_eq_sum_Ico_succ_bot ha2, e3, e4, if_pos rfl,
            mul_comm (M a a), add_comm (fl _ * _), add_comm |fl _ * _|]
          refine (div_step (by omega) (sum_nonneg fun _ _ => abs_nonneg _) hne h6).trans ?_
          refine add_le_add (mul_le_mul_of_nonneg_right (gam_mono (by omega))
            (add_nonneg (sum_nonneg fun _ _ => abs_nonneg _) (abs_nonneg _))) ?_
          have : ((n - (a + 1) : Nat) : K) * eta ≤ n * eta :=
            mul_le_mul_of_nonneg_right (by exact_mod_cast Nat.sub_le _ _) heta.le
          linarith
        · have e3 : ∑ j ∈ Ico a n, M a j * (if j = i then fl (Z i / M i i) else Z j) =
              ∑ j ∈ Ico a n, M a j * X j :=
            sum_congr rfl fun j hj => by
              rw [mem_Ico] at hj; rw [if_neg (by omega), h5 j (by omega)]
          have e4 : ∑ j ∈ Ico a n, |M a j * (if j = i then fl (Z i / M i i) else Z j)| =
              ∑ j ∈ Ico a n, |M a j * X j| :=
            sum_congr rfl fun j hj => by
              rw [mem_Ico] at hj; rw [if_neg (by omega), h5 j (by omega)]
          rw [e3, e4]
          exact h2 a (by omega) ha2
  · rintro x ⟨X, h1, h2⟩
    exact ⟨X, h1, fun i hi => h2 i (by omega) hi⟩

/-! ## Residuals -/

/-- Errors of a factorization and of two triangular solves add up. -/
theorem residual_alg {n : Nat} {g b e : K} (hg : 0 ≤ g) {a L x Y c d : Nat → K} {U : Nat → Nat → K}
    (hA : ∀ j, j < n → |a j - ∑ l ∈ range n, L l * U l j| ≤ g * ∑ l ∈ range n, |L l * U l j| + c j)
    (hU : ∀ l, l < n → |Y l - ∑ j ∈ range n, U l j * x j| ≤ g * ∑ j ∈ range n, |U l j * x j| + d l)
    (hL : |b - ∑ l ∈ range n, L l * Y l| ≤ g * ∑ l ∈ range n, |L l * Y l| + e) :
    |∑ j ∈ range n, a j * x j - b| ≤
      (3 * g + g * g) * ∑ j ∈ range n, (∑ l ∈ range n, |L l * U l j|) * |x j| +
        (∑ j ∈ range n, c j * |x j| + (1 + g) * ∑ l ∈ range n, |L l| * d l + e) := by
  set P := ∑ j ∈ range n, (∑ l ∈ range n, |L l * U l j|) * |x j| with hP
  have hPl : ∑ l ∈ range n, |L l| * ∑ j ∈ range n, |U l j * x j| = P := by
    simp only [hP, mul_sum, sum_mul]
    rw [sum_comm]
    refine sum_congr rfl fun j _ => sum_congr rfl fun l _ => ?_
    simp only [abs_mul]; ring
  have hLU : ∑ l ∈ range n, L l * ∑ j ∈ range n, U l j * x j =
      ∑ j ∈ range n, (∑ l ∈ range n, L l * U l j) * x j := by
    simp only [mul_sum, sum_mul]
    rw [sum_comm]
    exact sum_congr rfl fun j _ => sum_congr rfl fun l _ => by ring
  have h1 : |∑ j ∈ range n, a j * x j - ∑ j ∈ range n, (∑ l ∈ range n, L l * U l j) * x j| ≤
      g * P + ∑ j ∈ range n, c j * |x j| := by
    rw [← sum_sub_distrib]
    refine (abs_sum_le_sum_abs _ _).trans ?_
    rw [hP, mul_sum, ← sum_add_distrib]
    refine sum_le_sum fun j hj => ?_
    rw [mem_range] at hj
    rw [← sub_mul, abs_mul, ← mul_assoc, ← add_mul]
    exact mul_le_mul_of_nonneg_right (hA j hj) (abs_nonneg _)
  have h2 : |∑ l ∈ range n, L l * Y l - ∑ l ∈ range n, L l * ∑ j ∈ range n, U l j * x j| ≤
      g * P + ∑ l ∈ range n, |L l| * d l := by
    rw [← sum_sub_distrib]
    refine (abs_sum_le_sum_abs _ _).trans ?_
    rw [← hPl, mul_sum, ← sum_add_distrib]
    refine sum_le_sum fun l hl => ?_
    rw [mem_range] at hl
    rw [← mul_sub, abs_mul]
    have := mul_le_mul_of_nonneg_left (hU l hl) (abs_nonneg (L l))
    linarith
  have h3 : ∑ l ∈ range n, |L l * Y l| ≤ (1 + g) * P + ∑ l ∈ range n, |L l| * d l := by
    rw [← hPl, mul_sum, ← sum_add_distrib]
    refine sum_le_sum fun l hl => ?_
    rw [mem_range] at hl
    have h4 : |Y l| ≤ (1 + g) * ∑ j ∈ range n, |U l j * x j| + d l := by
      have h5 := hU l hl
      have h6 := abs_sub_abs_le_abs_sub (Y l) (∑ j ∈ range n, U l j * x j)
      have h7 := abs_sum_le_sum_abs (fun j => U l j * x j) (range n)
      linarith
    rw [abs_mul]
    have := mul_le_mul_of_nonneg_left h4 (abs_nonneg (L l))
    linarith
  have h4 : g * ∑ l ∈ range n, |L l * Y l| ≤ g * ((1 + g) * P + ∑ l ∈ range n, |L l| * d l) :=
    mul_le_mul_of_nonneg_left h3 hg
  rw [hLU] at h2
  have e1 : ∑ j ∈ range n, a j * x j - b =
      (∑ j ∈ range n, a j * x j - ∑ j ∈ range n, (∑ l ∈ range n, L l * U l j) * x j) -
      (∑ l ∈ range n, L l * Y l - ∑ j ∈ range n, (∑ l ∈ range n, L l * U l j) * x j) -
      (b - ∑ l ∈ range n, L l * Y l) := by ring
  rw [e1]
  generalize (∑ j ∈ range n, a j * x j - ∑ j ∈ range n, (∑ l ∈ range n, L l * U l j) * x j) = z1 at *
  generalize (∑ l ∈ range n, L l * Y l - ∑ j ∈ range n, (∑ l ∈ range n, L l * U l j) * x j) = z2 at *
  generalize b - ∑ l ∈ range n, L l * Y l = z3 at *
  have h5 := abs_sub (z1 - z2) z3
  have h6 := abs_sub z1 z2
  linarith

theorem sum_lowerUnit {n i : Nat} (hi : i < n) (M : Nat → Nat → K) (f : Nat → K) :
    ∑ l ∈ range n, lowerUnit M i l * f l = ∑ l ∈ range i, M i l * f l + f i := by
  have e : ∀ l, lowerUnit M i l * f l = (if l < i then M i l * f l else 0) + if l = i then f l else 0 := by
    intro l; unfold lowerUnit
    rcases lt_trichotomy l i with h | h | h
    · rw [if_pos h, if_pos h, if_neg (by omega), add_zero]
    · rw [if_neg (by omega), if_pos h, if_neg (by omega), if_pos h]; ring
    · rw [if_neg (by omega), if_neg (by omega), if_neg (by omega), if_neg (by omega)]; ring
  simp only [e, sum_add_distrib, ← sum_filter]
  have e1 : (range n).filter (· < i) = range i := by
    ext a; simp only [mem_range, mem_filter]; omega
  have e2 : (range n).filter (· = i) = {i} := by
    ext a; simp only [mem_range, mem_filter, mem_singleton]; omega
  rw [e1, e2, sum_singleton]

theorem sum_lowerUnit_abs {n i : Nat} (hi : i < n) (M : Nat → Nat → K) (f : Nat → K) :
    ∑ l ∈ range n, |lowerUnit M i l * f l| = ∑ l ∈ range i, |M i l * f l| + |f i| := by
  have e : ∀ l, |lowerUnit M i l * f l| = (if l < i then |M i l * f l| else 0) + if l = i then |f l| else 0 := by
    intro l; unfold lowerUnit
    rcases lt_trichotomy l i with h | h | h
    · rw [if_pos h, if_pos h, if_neg (by omega), add_zero]
    · rw [if_neg (by omega), if_pos h, if_neg (by omega), if_pos h, one_mul, zero_add]
    · rw [if_neg (by omega), if_neg (by omega), if_neg (by omega), if_neg (by omega)]; simp
  simp only [e, sum_add_distrib, ← sum_filter]
  have e1 : (range n).filter (· < i) = range i := by
    ext a; simp only [mem_range, mem_filter]; omega
  have e2 : (range n).filter (· = i) = {i} := by
    ext a; simp only [mem_range, mem_filter, mem_singleton]; omega
  rw [e1, e2, sum_singleton]

theorem sum_upperPart {n i : Nat} (M : Nat → Nat → K) (x : Nat → K) :
    ∑ j ∈ range n, upperPart M i j * x j = ∑ j ∈ Ico i n, M i j * x j := by
  have e1 : (range n).filter (i ≤ ·) = Ico i n := by
    ext a; simp only [mem_range, mem_filter, mem_Ico]; omega
  rw [← e1, sum_filter]
  refine sum_congr rfl fun j _ => ?_
  unfold upperPart; split_ifs <;> ring

theorem sum_upperPart_abs {n i : Nat} (M : Nat → Nat → K) (x : Nat → K) :
    ∑ j ∈ range n, |upperPart M i j * x j| = ∑ j ∈ Ico i n, |M i j * x j| := by
  have e1 : (range n).filter (i ≤ ·) = Ico i n := by
    ext a; simp only [mem_range, mem_filter, mem_Ico]; omega
  rw [← e1, sum_filter]
  refine sum_congr rfl fun j _ => ?_
  unfold upperPart; split_ifs <;> simp

theorem sum_luTerm {n i : Nat} (hi : i < n) (M : Nat → Nat → K) (j : Nat) (φ : K → K) (h0 : φ 0 = 0) :
    ∑ l ∈ range n, φ (luTerm M i j l) = ∑ l ∈ range i, φ (M i l * upperPart M l j) := by
  have e1 : range i = (range n).filter (· < i) := by
    ext a; simp only [mem_range, mem_filter]; omega
  rw [e1, sum_filter]
  refine sum_congr rfl fun l _ => ?_
  unfold luTerm upperPart
  by_cases h : l < i
  · rw [if_pos h, if_pos h]
  · rw [if_neg h, if_neg h, zero_mul, h0]

/-- A finished factorization, in terms of the two factors. -/
theorem LUNear.factors {n : Nat} {B : K} {F : Nat → Nat → K} {π : Nat → Nat} {M : Nat → Nat → K}
    (h : LUNear n n B F π M) {i j : Nat} (hi : i < n) (hj : j < n) :
    |F (π i) j - luProduct n M i j| ≤ gam n * luSize n M i j + 2 * (n + |M j j|) * eta := by
  have heta := eta_pos (K := K)
  have h1 := h.near i j hi hj
  have e : luRest n M i j = upperPart M i j := by
    unfold luRest upperPart
    by_cases hji : j < i
    · rw [if_pos ⟨hj, hji⟩, if_neg (by omega)]
    · rw [if_neg (by omega), if_pos (by omega)]
  have e1 : ∑ l ∈ range n, luTerm M i j l + luRest n M i j = luProduct n M i j := by
    unfold luProduct
    rw [sum_lowerUnit hi M (fun l => upperPart M l j), e, sum_luTerm hi M j (fun t => t) rfl]
  have e2 : ∑ l ∈ range n, |luTerm M i j l| + |luRest n M i j| = luSize n M i j := by
    unfold luSize
    rw [sum_lowerUnit_abs hi M (fun l => upperPart M l j), e, sum_luTerm hi M j (fun t => |t|) abs_zero]
  rw [e1, e2] at h1
  refine h1.trans ?_
  have : (if j < n ∧ j < i then |M j j| else 0) ≤ |M j j| := by
    split_ifs
    · exact le_rfl
    · exact abs_nonneg _
  have := mul_le_mul_of_nonneg_right this heta.le
  linarith

theorem gam_three_le {n : Nat} (hn : n ≤ 2 ^ 32) : 3 * (gam n : K) + gam n * gam n ≤ n / 2 ^ 50 := by
  have h1 := gam_le (K := K) (n := n) (by omega)
  have h2 := gam_le_one (K := K) (k := n) (by omega)
  have h3 := mul_le_mul_of_nonneg_left h2 (gam_nonneg (K := K) n)
  have e : (n : K) / 2 ^ 50 = 4 * (n / 2 ^ 52) := by ring
  rw [e]; linarith

theorem lowerUnit_abs_le {n k : Nat} {B : K} {F : Nat → Nat → K} {π : Nat → Nat} {M : Nat → Nat → K}
    (h : LUNear n k B F π M) {i l : Nat} (hi : i < n) (hl : l < k) : |lowerUnit M i l| ≤ 1 := by
  unfold lowerUnit
  split_ifs with h1 h2
  · exact h.small i l hi hl h1
  · simp
  · simp

theorem solveLU_post {n : Nat} {B : K} {LU : Mat K} {F M : Nat → Nat → K} {π : Nat → Nat} {b : List K}
    (hL : IsMat LU n n M) (hinv : LUNear n n B F π M) (hb : b.length = n) (hbd : Doubles b) (hn : n ≤ 2 ^ 32) :
    Post (solveLU LU ((List.range n).map π) b) (fun x => x.length = n ∧
      ∀ i, i < n → |∑ j ∈ range n, F (π i) j * vecFun x j - vecFun b (π i)| ≤ luResidual n M (vecFun x) i) := by
  have heta := eta_pos (K := K)
  obtain ⟨hr, hc, -, -⟩ := id hL
  unfold solveLU
  rw [if_neg (by omega), hr]
  refine Post.bind (forwardSubstitution_post hL hinv.low hb hbd hn) ?_
  rintro y ⟨Y, h1, hyd, h2⟩
  refine Post.bind (backwardSubstitution_post hL h1 hyd hn) ?_
  rintro x ⟨X, h3, h4⟩
  rw [h3.freeze]
  refine Post.ok ⟨by simp, ?_⟩
  intro i hi
  have ev : ∀ j ∈ range n, vecFun ((List.range n).map X) j = X j := by
    intro j hj
    rw [mem_range] at hj
    simp [vecFun, List.getD, hj]
  have e1 : ∑ j ∈ range n, F (π i) j * vecFun ((List.range n).map X) j = ∑ j ∈ range n, F (π i) j * X j :=
    sum_congr rfl fun j hj => by rw [ev j hj]
  have e2 : luResidual n M (vecFun ((List.range n).map X)) i = luResidual n M X i := by
    unfold luResidual
    have q1 : ∑ j ∈ range n, luSize n M i j * |vecFun ((List.range n).map X) j| =
        ∑ j ∈ range n, luSize n M i j * |X j| := sum_congr rfl fun j hj => by rw [ev j hj]
    have q2 : ∑ j ∈ range n, ((n : K) + |M j j|) * (|vecFun ((List.range n).map X) j| + 2) =
        ∑ j ∈ range n, ((n : K) + |M j j|) * (|X j| + 2) := sum_congr rfl fun j hj => by rw [ev j hj]
    rw [q1, q2]
  rw [e1, e2]
  have hmain := residual_alg (n := n) (g := gam n) (b := vecFun b (π i)) (e := 2 * n * eta)
    (gam_nonneg n) (a := fun j => F (π i) j) (L := fun l => lowerUnit M i l) (x := X) (Y := Y)
    (c := fun j => 2 * (n + |M j j|) * eta) (d := fun j => 2 * (n + |M j j|) * eta) (U := upperPart M)
    (fun j hj => hinv.factors hi hj) (fun l hl => by
      rw [sum_upperPart, sum_upperPart_abs]; exact h4 l hl) (by
      rw [sum_lowerUnit hi M Y, sum_lowerUnit_abs hi M Y]
      refine (h2 i hi).trans (add_le_add (mul_le_mul_of_nonneg_right (gam_mono hi.le)
        (add_nonneg (sum_nonneg fun _ _ => abs_nonneg _) (abs_nonneg _))) ?_)
      have : (i : K) ≤ n := by exact_mod_cast hi.le
      have := mul_le_mul_of_nonneg_right this heta.le
      linarith)
  refine hmain.trans ?_
  unfold luResidual
  refine add_le_add (mul_le_mul_of_nonneg_right (gam_three_le hn) (sum_nonneg fun j _ =>
    mul_nonneg (sum_nonneg fun _ _ => abs_nonneg _) (abs_nonneg _))) ?_
  have hg1 := gam_le_one (K := K) (k := n) (by omega)
  have h5 : ∑ l ∈ range n, |lowerUnit M i l| * (2 * (n + |M l l|) * eta) ≤
      ∑ l ∈ range n, 2 * (n + |M l l|) * eta := by
    refine sum_le_sum fun l hl => ?_
    rw [mem_range] at hl
    have h0 : 0 ≤ 2 * (n + |M l l|) * eta := by positivity
    calc _ ≤ 1 * (2 * (n + |M l l|) * eta) := mul_le_mul_of_nonneg_right (lowerUnit_abs_le hinv hi hl) h0
      _ = _ := one_mul _
  have h6 : 0 ≤ ∑ l ∈ range n, |lowerUnit M i l| * (2 * (n + |M l l|) * eta) :=
    sum_nonneg fun l _ => by positivity
  have h7 : (1 + gam n) * ∑ l ∈ range n, |lowerUnit M i l| * (2 * (n + |M l l|) * eta) ≤
      2 * ∑ l ∈ range n, 2 * (n + |M l l|) * eta :=
    mul_le_mul (by linarith) h5 h6 (by norm_num)
  have e3 : (n + ∑ j ∈ range n, (n + |M j j|) * (|X j| + 2)) / (2 : K) ^ 1074 =
      ∑ j ∈ range n, 2 * (n + |M j j|) * eta * |X j| + 2 * ∑ l ∈ range n, 2 * (n + |M l l|) * eta +
        2 * n * eta := by
    rw [div_eq_mul_one_div, ← two_eta_eq, add_mul, sum_mul, mul_sum, ← sum_add_distrib, add_comm]
    congr 1
    · exact sum_congr rfl fun j _ => by ring
    · ring
  rw [e3]
  linarith

theorem doubles_unitVec (n i : Nat) : Doubles (Mat.unitVec n i : List K) := by
  intro x hx
  unfold Mat.unitVec at hx
  rcases List.mem_or_eq_of_mem_set hx with h | h
  · rw [List.eq_of_mem_replicate h]; exact isDouble_zero
  · rw [h]; exact isDouble_one

theorem invert_post {A : Mat K} {n : Nat} {B : K} {F : Nat → Nat → K} (hA : IsMat A n n F) (hn : n ≤ 2 ^ 32)
    (hB : IsDouble B) (hF : ∀ i j, i < n → j < n → IsDouble (F i j))
    (hFB : ∀ i j, i < n → j < n → |F i j| ≤ B) :
    Post (invert A) (fun C => ∃ LU M π G, lu A = .ok (some (LU, (List.range n).map π)) ∧
      IsMat LU n n M ∧ LUNear n n B F π M ∧ IsMat C n n G ∧ ∀ i j, i < n → j < n →
        |∑ k ∈ range n, F (π i) k * G k j - if π i = j then 1 else 0| ≤ luResidual n M (fun k => G k j) i) := by
  obtain ⟨hr, hc, -, -⟩ := id hA
  unfold invert
  rw [if_neg (by omega), hr]
  cases hlu : lu A with
  | error e => exact Post.error
  | ok r =>
    have h1 := (lu_post hA hn hB hF hFB).1 r hlu
    rcases r with _ | ⟨LU, p⟩
    · exact Post.error
    · obtain ⟨M, π, h3, rfl, h4⟩ := h1
      refine Post.bind (P := fun d => ∃ X : Nat → List K, Rep2 d n n (fun i j =>
        if j < n then some (vecFun (X j) i) else some 0) ∧ ∀ j, j < n → ∀ i, i < n →
          |∑ k ∈ range n, F (π i) k * vecFun (X j) k - if π i = j then 1 else 0| ≤
            luResidual n M (vecFun (X j)) i) ?_ ?_
      · refine forRange_post' (fun q d => ∃ X : Nat → List K, Rep2 d n n (fun i j =>
          if j < q then some (vecFun (X j) i) else some 0) ∧ ∀ j, j < q → ∀ i, i < n →
            |∑ k ∈ range n, F (π i) k * vecFun (X j) k - if π i = j then 1 else 0| ≤
              luResidual n M (vecFun (X j)) i) ?_ ?_
        · exact ⟨fun _ => [], (rep2_zeros n n).start (by omega), by omega⟩
        · rintro q d hq ⟨X, hd, hX⟩
          refine Post.bind (solveLU_post h3 h4 (b := Mat.unitVec n q) (by simp [Mat.unitVec])
            (doubles_unitVec n q) hn) ?_
          rintro x ⟨hx1, hx2⟩
          refine (OkP.post (Mat.okP_for (fun r d => Rep2 d n n (fun i j =>
            if j < q ∨ (j = q ∧ i < r) then some (vecFun (if j = q then x else X j) i) else some 0)) ?_ ?_)).mono ?_
          · refine hd.congr ?_
            intro i j hi hj
            by_cases hjq : j < q
            · rw [if_pos hjq, if_pos (by omega), if_neg (by omega)]
            · rw [if_neg hjq, if_neg (by omega)]
          · intro r d hr' hd
            refine bind_okP (Mat.vat_vecFun (by omega)) ?_
            rw [Mat.wrAt_eq hr' hq]
            exact hd.wr_next r q hr' hq rfl (by simp) (by omega)
          · intro d hd
            refine ⟨fun j => if j = q then x else X j, hd.cond (by omega), ?_⟩
            intro j hj i hi
            by_cases hjq : j = q
            · subst hjq
              simp only [if_true]
              have := hx2 i hi
              rwa [Mat.vecFun_unitVec hq (h4.low i hi)] at this
            · simp only [if_neg hjq]
              exact hX j (by omega) i hi
      · rintro d ⟨X, hd, hX⟩
        refine Post.bind (OkP.post (Mat.okP_freeze (hd.done (by omega)))) ?_
        intro l hl
        exact Post.ok ⟨LU, M, π, fun i j => vecFun (X j) i, rfl, h3, h4, hl, fun i j hi hj => hX j hj i hi⟩

end Rodeo.Dbl
