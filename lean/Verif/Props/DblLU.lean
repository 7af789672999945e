import Verif.Lemmas.DblLUSolve
import Verif.Lemmas.DblGrid
import Verif.Props.Solve
import Mathlib.Data.Rat.Floor

/-! # C130: the LU solver and the inverse in double arithmetic

`luProduct`, `luSize`, `luResidual` and `luError` (Spec/DblLU.lean): the product of the two factors, the product
of their absolute values, the residual relative to it, and the distance to the next matrix that is as good as
singular. -/

set_option linter.unusedSectionVars false

namespace Rodeo

open Spec Dbl Finset

variable {K : Type} [Field K] [LinearOrder K] [IsStrictOrderedRing K] [FloorRing K]

theorem tol_near : (1 - 1 / 2 ^ 53) / 10 ^ 9 ≤ (lit Mat.pivotTol : K) ∧
    (lit Mat.pivotTol : K) ≤ (1 + 1 / 2 ^ 53) / 10 ^ 9 := by
  have h0 : (0 : K) < Mat.pivotTol := Mat.pivotTol_pos
  have hd : (2 : K) ^ (-1000 : ℤ) ≤ |Mat.pivotTol| := by
    rw [abs_of_pos h0]
    have h1 : (2 : K) ^ (-1000 : ℤ) ≤ 2 ^ (-30 : ℤ) := zp_mono (by norm_num)
    refine h1.trans ?_
    unfold Mat.pivotTol
    rw [show (2 : K) ^ (-30 : ℤ) = 1 / 2 ^ 30 by rw [zpow_neg, one_div]; norm_cast]
    norm_num
  have h := lit_rel hd
  rw [abs_of_pos h0, abs_le] at h
  have e : (eps : K) * Mat.pivotTol = 1 / 2 ^ 53 / 10 ^ 9 := by unfold eps Mat.pivotTol; norm_num
  have e2 : (Mat.pivotTol : K) = 1 / 10 ^ 9 := by unfold Mat.pivotTol; norm_num
  rw [e, e2] at h
  unfold lit
  rw [e2]
  constructor
  · rw [sub_div]; linarith [h.1]
  · rw [add_div]; linarith [h.2]

theorem getD_map_range {n : Nat} {π : Nat → Nat} {i : Nat} (hi : i < n) :
    ((List.range n).map π).getD i 0 = π i := by
  simp [List.getD, hi]

theorem perm_of_onto {n : Nat} {π : Nat → Nat} (h1 : ∀ i, i < n → π i < n)
    (h2 : ∀ r, r < n → ∃ i, i < n ∧ π i = r) : ((List.range n).map π).Perm (List.range n) := by
  have hnd : ((List.range n).map π).Nodup := by
    rw [List.nodup_map_iff_inj_on List.nodup_range]
    intro i hi j hj e
    exact onto_inj h1 h2 i j (List.mem_range.1 hi) (List.mem_range.1 hj) e
  refine (List.perm_ext_iff_of_nodup hnd List.nodup_range).2 ?_
  intro r
  simp only [List.mem_map, List.mem_range]
  constructor
  · rintro ⟨i, hi, rfl⟩; exact h1 i hi
  · exact h2 r

/-- C130: when the factorization of a matrix of doubles returns factors, the pivots are a permutation of the
rows, the multipliers are at most 1, the diagonal is at least 1e-9, the upper factor has grown by at most
`2 ^ i` in row `i`, and the product of the factors is the permuted matrix up to the rounding errors. -/
theorem C130_factor {A : Mat K} {n : Nat} {B : K} {F : Nat → Nat → K} (hA : IsMat A n n F) (hn : n ≤ 2 ^ 32)
    (hB : IsDouble B) (hF : ∀ i j, i < n → j < n → IsDouble (F i j) ∧ |F i j| ≤ B)
    {LU : Mat K} {p : List Nat} (h : Dbl.lu A = .ok (some (LU, p))) :
    p.Perm (List.range n) ∧ ∃ M, IsMat LU n n M ∧
      (∀ i l, l < i → i < n → |M i l| ≤ 1) ∧
      (∀ i, i < n → (1 - 1 / 2 ^ 53) / 10 ^ 9 ≤ |M i i|) ∧
      (∀ i j, i ≤ j → j < n → |M i j| ≤ 2 ^ i * B) ∧
      ∀ i j, i < n → j < n → |F (p.getD i 0) j - luProduct n M i j| ≤
        n / 2 ^ 52 * luSize n M i j + (n + |M j j|) / 2 ^ 1074 := by
  obtain ⟨M, π, h1, rfl, h2⟩ := (lu_post hA hn hB (fun i j hi hj => (hF i j hi hj).1)
    (fun i j hi hj => (hF i j hi hj).2)).1 _ h
  refine ⟨perm_of_onto h2.low h2.onto, M, h1, ?_, ?_, ?_, ?_⟩
  · intro i l hl hi
    exact h2.small i l hi (by omega) hl
  · intro i hi
    exact tol_near.1.trans (h2.pivot i hi)
  · intro i j hij hj
    have := h2.growth i j (by omega) hj (by omega)
    rwa [show min n i = i by omega] at this
  · intro i j hi hj
    rw [getD_map_range hi]
    refine (h2.factors hi hj).trans (add_le_add ?_ (le_of_eq ?_))
    · exact mul_le_mul_of_nonneg_right (gam_le (by omega)) (sum_nonneg fun _ _ => abs_nonneg _)
    · rw [div_eq_mul_one_div, ← two_eta_eq]; ring

/-- C130: a solution that is returned for a right-hand side of doubles satisfies every row of the system up to
the rounding errors. -/
theorem C130_solve {A : Mat K} {n : Nat} {B : K} {F : Nat → Nat → K} (hA : IsMat A n n F) (hn : n ≤ 2 ^ 32)
    (hB : IsDouble B) (hF : ∀ i j, i < n → j < n → IsDouble (F i j) ∧ |F i j| ≤ B)
    {LU : Mat K} {p : List Nat} (h : Dbl.lu A = .ok (some (LU, p))) {b x : List K} (hb : b.length = n)
    (hbd : Doubles b) (hx : Dbl.solveLU LU p b = .ok x) :
    x.length = n ∧ ∃ M, IsMat LU n n M ∧ ∀ i, i < n →
      |∑ j ∈ range n, F (p.getD i 0) j * vecFun x j - vecFun b (p.getD i 0)| ≤ luResidual n M (vecFun x) i := by
  obtain ⟨M, π, h1, rfl, h2⟩ := (lu_post hA hn hB (fun i j hi hj => (hF i j hi hj).1)
    (fun i j hi hj => (hF i j hi hj).2)).1 _ h
  obtain ⟨h3, h4⟩ := solveLU_post h1 h2 hb hbd hn x hx
  refine ⟨h3, M, h1, fun i hi => ?_⟩
  rw [getD_map_range hi]
  exact h4 i hi

theorem luSize_le {n : Nat} {B : K} {F : Nat → Nat → K} {π : Nat → Nat} {M : Nat → Nat → K}
    (h : LUNear n n B F π M) {i j : Nat} (hi : i < n) (hj : j < n) : luSize n M i j ≤ 2 ^ n * B := by
  have hB := h.bound_nonneg (by omega)
  unfold luSize
  rw [sum_lowerUnit_abs hi M (fun l => upperPart M l j), ← sum_luTerm hi M j (fun t => |t|) abs_zero]
  have h1 := h.sizes le_rfl hi hj
  have h2 : |upperPart M i j| ≤ 2 ^ min n i * B := by
    unfold upperPart
    split_ifs with hij
    · exact h.growth i j hi hj (by omega)
    · rw [abs_zero]; positivity
  have h3 := pow_mul_mono hB (show min n i + 1 ≤ n by omega)
  rw [pow_succ] at h3
  linarith

theorem luResidual_le {n : Nat} {B : K} {F : Nat → Nat → K} {π : Nat → Nat} {M : Nat → Nat → K}
    (h : LUNear n n B F π M) {i : Nat} (hi : i < n) (x : Nat → K) :
    luResidual n M x i ≤ n / 2 ^ 50 * (2 ^ n * B) * ∑ j ∈ range n, |x j| +
      (n + (n + 2 ^ n * B) * ∑ j ∈ range n, (|x j| + 2)) / 2 ^ 1074 := by
  have hB := h.bound_nonneg (by omega)
  unfold luResidual
  refine add_le_add ?_ ?_
  · rw [mul_assoc, mul_sum (s := range n) (a := 2 ^ n * B)]
    refine mul_le_mul_of_nonneg_left (sum_le_sum fun j hj => ?_) (by positivity)
    exact mul_le_mul_of_nonneg_right (luSize_le h hi (mem_range.1 hj)) (abs_nonneg _)
  · rw [mul_sum]
    refine div_le_div_of_nonneg_right ?_ (by positivity)
    have : ∑ j ∈ range n, ((n : K) + |M j j|) * (|x j| + 2) ≤ ∑ j ∈ range n, ((n : K) + 2 ^ n * B) * (|x j| + 2) := by
      refine sum_le_sum fun j hj => mul_le_mul_of_nonneg_right ?_ (by positivity)
      rw [mem_range] at hj
      have h1 := h.growth j j hj hj (by omega)
      have h2 := pow_mul_mono hB (show min n j ≤ n by omega)
      linarith
    linarith

/-- C130: an inverse that is returned is a right inverse up to the rounding errors, which are relative to the
entries of the matrix and of the inverse. -/
theorem C130_inverse {A : Mat K} {n : Nat} {B : K} {F : Nat → Nat → K} (hA : IsMat A n n F) (hn : n ≤ 2 ^ 32)
    (hB : IsDouble B) (hF : ∀ i j, i < n → j < n → IsDouble (F i j) ∧ |F i j| ≤ B)
    {C : Mat K} (h : Dbl.invert A = .ok C) :
    ∃ G, IsMat C n n G ∧ (∀ r j, r < n → j < n →
      |∑ k ∈ range n, F r k * G k j - if r = j then 1 else 0| ≤
        n / 2 ^ 50 * (2 ^ n * B) * ∑ k ∈ range n, |G k j| +
          (n + (n + 2 ^ n * B) * ∑ k ∈ range n, (|G k j| + 2)) / 2 ^ 1074) ∧
      ∃ LU p M, Dbl.lu A = .ok (some (LU, p)) ∧ IsMat LU n n M ∧ ∀ i j, i < n → j < n →
        |∑ k ∈ range n, F (p.getD i 0) k * G k j - if p.getD i 0 = j then 1 else 0| ≤
          luResidual n M (fun k => G k j) i := by
  obtain ⟨LU, M, π, G, h1, h2, h3, h4, h5⟩ := invert_post hA hn hB (fun i j hi hj => (hF i j hi hj).1)
    (fun i j hi hj => (hF i j hi hj).2) C h
  refine ⟨G, h4, ?_, LU, _, M, h1, h2, fun i j hi hj => ?_⟩
  · intro r j hr hj
    obtain ⟨i, hi, rfl⟩ := h3.onto r hr
    exact (h5 i j hi hj).trans (luResidual_le h3 hi _)
  · rw [getD_map_range hi]
    exact h5 i j hi hj

/-- C130: the factorization fails only when the matrix is, up to the rounding errors, as good as singular: some
matrix as near as the rounding errors maps a vector with an entry 1 to one below 1e-9. -/
theorem C130_failure {A : Mat K} {n : Nat} {B : K} {F : Nat → Nat → K} (hA : IsMat A n n F) (hn : n ≤ 2 ^ 32)
    (hB : IsDouble B) (hF : ∀ i j, i < n → j < n → IsDouble (F i j) ∧ |F i j| ≤ B)
    (h : Dbl.lu A = .ok none) :
    ∃ G : Nat → Nat → K, (∀ i j, i < n → j < n → |F i j - G i j| ≤ luError n B) ∧
      ∃ c, c < n ∧ ∃ x : Nat → K, x c = 1 ∧
        ∀ r, r < n → |∑ j ∈ range n, G r j * x j| < (1 + 1 / 2 ^ 53) / 10 ^ 9 := by
  obtain ⟨G, h1, c, hc, x, h2, h3⟩ := (lu_post hA hn hB (fun i j hi hj => (hF i j hi hj).1)
    (fun i j hi hj => (hF i j hi hj).2)).1 _ h
  exact ⟨G, h1, c, hc, x, h2, fun r hr => (h3 r hr).trans_le tol_near.2⟩

/-- C130: the factorization has no infinite intermediate value when the entries leave room for the growth. -/
theorem C130_total {A : Mat K} {n : Nat} {B : K} {F : Nat → Nat → K} (hA : IsMat A n n F) (hn : n ≤ 2 ^ 32)
    (hB : IsDouble B) (hF : ∀ i j, i < n → j < n → IsDouble (F i j) ∧ |F i j| ≤ B)
    (hfin : 2 ^ n * B ≤ 2 ^ (1023 : ℤ)) : ∃ r, Dbl.lu A = .ok r :=
  (lu_post hA hn hB (fun i j hi hj => (hF i j hi hj).1) (fun i j hi hj => (hF i j hi hj).2)).2 hfin

/-! ## A concrete case -/

/-- Rows (1 4 2), (3 1 7) and (2 5 3): rows are exchanged, and the multipliers are thirds. -/
def exThirds : Mat ℚ := ⟨3, 3, [1, 3, 2, 4, 1, 5, 2, 7, 3]⟩

def exThirdsF (i j : Nat) : ℚ := ([1, 3, 2, 4, 1, 5, 2, 7, 3] : List ℚ).getD (j * 3 + i) 0

/-- The factorization is found with rows exchanged, and the solution does not satisfy the system exactly. -/
example : (match Dbl.lu exThirds with
    | .ok (some (LU, p)) => decide (p ≠ [0, 1, 2]) && (match Dbl.solveLU LU p [1, 1, 1] with
      | .ok [x, y, z] => decide (x + 4 * y + 2 * z ≠ 1 ∨ 3 * x + y + 7 * z ≠ 1 ∨ 2 * x + 5 * y + 3 * z ≠ 1)
      | _ => false)
    | _ => false) = true := by decide +kernel

/-- The inverse is found. -/
example : (match Dbl.invert exThirds with
    | .ok C => decide (C.nrows = 3 ∧ C.buf.length = 9)
    | _ => false) = true := by decide +kernel

/-- The hypotheses of all five theorems hold. -/
example : IsMat exThirds 3 3 exThirdsF ∧ IsDouble (7 : ℚ) ∧
    (∀ i j, i < 3 → j < 3 → IsDouble (exThirdsF i j) ∧ |exThirdsF i j| ≤ 7) ∧
    (2 : ℚ) ^ 3 * 7 ≤ 2 ^ (1023 : ℤ) ∧ Doubles ([1, 1, 1] : List ℚ) := by
  have hd : ∀ m : ℤ, |m| < 2 ^ 53 → IsDouble (m : ℚ) := fun m hm => ⟨m, 0, hm, by norm_num, by simp⟩
  refine ⟨⟨rfl, rfl, rfl, fun i j hi hj => ?_⟩, hd 7 (by norm_num), fun i j hi hj => ?_, ?_, ?_⟩
  · interval_cases i <;> interval_cases j <;> rfl
  · have h1 : IsDouble (1 : ℚ) := by simpa using hd 1 (by norm_num)
    have h2 : IsDouble (2 : ℚ) := by simpa using hd 2 (by norm_num)
    have h3 : IsDouble (3 : ℚ) := by simpa using hd 3 (by norm_num)
    have h4 : IsDouble (4 : ℚ) := by simpa using hd 4 (by norm_num)
    have h5 : IsDouble (5 : ℚ) := by simpa using hd 5 (by norm_num)
    have h7 : IsDouble (7 : ℚ) := by simpa using hd 7 (by norm_num)
    interval_cases i <;> interval_cases j <;>
      simp only [exThirdsF, List.getD, List.getElem?_cons_zero, List.getElem?_cons_succ, Option.getD_some] <;>
      refine ⟨by assumption, by norm_num⟩
  · have : (2 : ℚ) ^ (6 : ℤ) ≤ 2 ^ (1023 : ℤ) := zp_mono (by norm_num)
    refine le_trans ?_ this
    norm_num
  · intro x hx
    simp at hx
    subst hx
    simpa using hd 1 (by norm_num)

/-- Rows (1 2) and (2 4): the failure is reported. -/
example : Dbl.lu (⟨2, 2, [1, 2, 2, 4]⟩ : Mat ℚ) = .ok none := by decide +kernel

end Rodeo
