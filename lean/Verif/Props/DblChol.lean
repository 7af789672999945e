import Verif.Lemmas.DblSolveOk
import Verif.Props.Solve
import Mathlib.Data.Rat.Floor

/-! # C116: the Cholesky solver in double arithmetic -/

set_option linter.unusedSectionVars false

namespace Rodeo

open Spec Dbl Finset

variable {K : Type} [Field K] [LinearOrder K] [IsStrictOrderedRing K] [FloorRing K]

/-- C116: whatever the symmetric matrix of doubles, a result that the solver returns without an infinite
intermediate value satisfies the system up to a residual of the size of the rounding errors. -/
theorem C116_residual {A : Mat K} {n : Nat} {F : Nat → Nat → K} {sqrt : K → K} (hs : IsSqrt sqrt)
    (hA : IsMat A n n F) (hsym : Symm n F) (hn : n ≤ 2 ^ 32)
    (hF : ∀ i j, i < n → j < n → IsDouble (F i j)) {b x : List K} (hb : b.length = n) (hbd : Doubles b)
    {M : K} (hM : ∀ i, i < n → F i i ≤ M) (hM1 : 2 ^ (-100 : ℤ) ≤ M) (hM2 : M ≤ 2 ^ (100 : ℤ))
    (h : Dbl.solveSystem sqrt A b = .ok x) :
    x.length = n ∧ ∀ i, i < n →
      |vecFun b i - ∑ j ∈ range n, F i j * vecFun x j| ≤
        25 / 8 * ((n : K) + 2) / 2 ^ 53 * M * ∑ j ∈ range n, |vecFun x j| + 2 ^ (-400 : ℤ) :=
  solveSystem_near hs hA hsym hn hF hb hbd hM hM1 hM2 x h

/-- C116: a symmetric matrix of doubles that is positive definite with a margin `μ` above the rounding
errors is factorized: the call reports success, and the product of the factor with its transpose is the
matrix up to rounding errors. -/
theorem C116_factor {A : Mat K} {n : Nat} {F : Nat → Nat → K} {sqrt : K → K} {M μ : K} (hs : IsSqrt sqrt)
    (hA : IsMat A n n F) (hsym : Symm n F) (hn : n ≤ 2 ^ 32)
    (hF : ∀ i j, i < n → j < n → IsDouble (F i j)) (hM1 : 2 ^ (-100 : ℤ) ≤ M) (hM2 : M ≤ 2 ^ (100 : ℤ))
    (hM : ∀ i j, i < n → j < n → |F i j| ≤ M)
    (hμ : ∀ x : Nat → K, μ * ∑ p ∈ range n, x p ^ 2 ≤ quadForm n F x)
    (hμ2 : 17 / 16 * ((n : K) + 5) * (((n : K) + 2) / 2 ^ 53) * M ≤ μ) :
    ∃ L G, Dbl.cholesky sqrt A = .ok (L, 1) ∧ IsMat L n n G ∧
      (∀ i j, i < n → j < n → i < j → G i j = 0) ∧ (∀ i, i < n → 0 < G i i) ∧
      ∀ i j, i < n → j < n →
        |F i j - ∑ k ∈ range n, G i k * G j k| ≤ 33 / 32 * (((n : K) + 2) / 2 ^ 53) * M := by
  obtain ⟨⟨L, ret⟩, h1, h2, G, h3, h4⟩ := cholesky_total hs hA hsym hn hF hM1 hM2 hM hμ hμ2
  dsimp only at h2 h3
  subst h2
  refine ⟨L, lowerPart G, h1, h3, ?_, ?_, ?_⟩
  · intro i j _ _ hij
    unfold lowerPart
    rw [if_neg (by omega)]
  · intro i hi
    unfold lowerPart
    rw [if_pos le_rfl]
    exact (zp _).trans_le (h4 i hi).2.1
  · exact fun i j hi hj => good_product hsym h4 i j hi hj

/-- C116: under the same margin, every right-hand side of doubles up to `2 ^ 100` is solved, without an
infinite intermediate value. The residual is of the size of the rounding errors, and the distance to the
exact solution is the residual divided by the margin. -/
theorem C116_partial {A : Mat K} {n : Nat} {F : Nat → Nat → K} {sqrt : K → K} {M μ : K} (hs : IsSqrt sqrt)
    (hA : IsMat A n n F) (hsym : Symm n F) (hn0 : 0 < n) (hn : n ≤ 2 ^ 32)
    (hF : ∀ i j, i < n → j < n → IsDouble (F i j)) (hM1 : 2 ^ (-100 : ℤ) ≤ M) (hM2 : M ≤ 2 ^ (100 : ℤ))
    (hM : ∀ i j, i < n → j < n → |F i j| ≤ M)
    (hμ : ∀ x : Nat → K, μ * ∑ p ∈ range n, x p ^ 2 ≤ quadForm n F x)
    (hμ2 : 17 / 16 * ((n : K) + 5) * (((n : K) + 2) / 2 ^ 53) * M ≤ μ)
    {b : List K} (hb : b.length = n) (hbd : Doubles b) (hbs : ∀ a, a < n → |vecFun b a| ≤ 2 ^ (100 : ℤ)) :
    ∃ x ρ, Dbl.solveSystem sqrt A b = .ok x ∧ x.length = n ∧
      ρ = 25 / 8 * ((n : K) + 2) / 2 ^ 53 * M * ∑ j ∈ range n, |vecFun x j| + 2 ^ (-400 : ℤ) ∧
      (∀ i, i < n → |vecFun b i - ∑ j ∈ range n, F i j * vecFun x j| ≤ ρ) ∧
      ∀ z, Solves n F z (vecFun b) → μ ^ 2 * ∑ j ∈ range n, (vecFun x j - z j) ^ 2 ≤ n * ρ ^ 2 := by
  obtain ⟨x, h1, h2, -⟩ := solveSystem_total hs hA hsym hn0 hn hF hM1 hM2 hM hμ hμ2 hb hbd hbs
  obtain ⟨-, h3⟩ := C116_residual hs hA hsym hn hF hb hbd (fun i hi => (le_abs_self _).trans (hM i i hi hi))
    hM1 hM2 h1
  refine ⟨x, _, h1, h2, rfl, h3, ?_⟩
  intro z hz
  refine forward_error ?_ hμ h3 hz
  have hh1 := hh_low (K := K) hn0
  have hM0 : 0 < M := (zp _).trans_le hM1
  have : 0 ≤ 17 / 16 * ((n : K) + 5) * hh n * M := mul_nonneg (mul_nonneg (by positivity) (by linarith)) hM0.le
  exact this.trans hμ2

/-! ## The full statement and why it fails -/

/-- C116, full statement: every symmetric positive definite matrix of doubles of moderate size is solved. -/
def C116_full : Prop :=
  ∀ (n : Nat) (A : Mat ℝ) (F : Nat → Nat → ℝ) (b : List ℝ), IsMat A n n F → Symm n F → PosDef n F →
    (∀ i j, i < n → j < n → IsDouble (F i j) ∧ |F i j| ≤ 2) → b.length = n → Doubles b → (∀ t ∈ b, |t| ≤ 1) →
    ∃ x, Dbl.solveSystem Real.sqrt A b = .ok x

theorem log_cast (q : ℚ) (h : 0 < q) : Int.log 2 ((q : K)) = Int.log 2 q := by
  have h' : (0 : K) < (q : K) := by exact_mod_cast h
  refine le_antisymm ?_ ?_
  · rw [← Int.zpow_le_iff_le_log (by norm_num) h]
    have := (Int.zpow_le_iff_le_log (b := 2) (by norm_num) h').2 le_rfl
    rw [← Rat.cast_le (K := K)]
    push_cast at this ⊢
    exact this
  · rw [← Int.zpow_le_iff_le_log (by norm_num) h']
    have := (Int.zpow_le_iff_le_log (b := 2) (by norm_num) h).2 le_rfl
    rw [← Rat.cast_le (K := K)] at this
    push_cast at this ⊢
    exact this

theorem roundEven_cast (q : ℚ) : roundEven ((q : K)) = roundEven q := by
  unfold roundEven
  rw [Rat.floor_cast]
  have e1 : ((q : K) - ((⌊q⌋ : ℤ) : K) < 1 / 2) ↔ (q - ((⌊q⌋ : ℤ) : ℚ) < 1 / 2) := by
    rw [← Rat.cast_lt (K := K)]; push_cast; exact Iff.rfl
  have e2 : (1 / 2 < (q : K) - ((⌊q⌋ : ℤ) : K)) ↔ (1 / 2 < q - ((⌊q⌋ : ℤ) : ℚ)) := by
    rw [← Rat.cast_lt (K := K)]; push_cast; exact Iff.rfl
  simp only [e1, e2]

/-- Rounding does not depend on the field in which a rational number is seen. -/
theorem fl_cast (q : ℚ) : fl ((q : K)) = ((fl q : ℚ) : K) := by
  have eu : ulpExp ((q : K)) = ulpExp q := by
    unfold ulpExp
    rcases eq_or_ne q 0 with h | h
    · subst h; simp
    · rw [← Rat.cast_abs, log_cast _ (abs_pos.2 h)]
  unfold fl
  rw [eu]
  have e : (q : K) / 2 ^ ulpExp q = ((q / 2 ^ ulpExp q : ℚ) : K) := by push_cast; rfl
  rw [e, roundEven_cast]
  push_cast
  rfl

/-- `1 + 50331648 * 2 ^ (-52)`. -/
def offQ : ℚ := (2 ^ 52 + 50331648) / 2 ^ 52

/-- `1 + 100663297 * 2 ^ (-52)`: a little more than the square of `offQ`, but the double nearest to it. -/
def diagQ : ℚ := (2 ^ 52 + 100663297) / 2 ^ 52

/-- The matrix with rows (1 offQ) and (offQ diagQ). -/
noncomputable def exNear : Mat ℝ := ⟨2, 2, [1, (offQ : ℝ), (offQ : ℝ), (diagQ : ℝ)]⟩

theorem fl_off : fl (offQ * offQ) = diagQ ∧ fl offQ = offQ ∧ fl diagQ = diagQ ∧ offQ * offQ < diagQ ∧
    |diagQ| ≤ 2 ∧ |offQ| ≤ 2 := by decide +kernel

theorem dblR {x y : ℚ} (h : fl x = y) (hy : |y| ≤ 2) {t : ℝ} (ht : t = x) : dbl t = .ok ((y : ℚ) : ℝ) := by
  subst ht
  unfold dbl
  rw [fl_cast, h, if_pos]
  rw [← Rat.cast_abs]
  have h1 : ((|y| : ℚ) : ℝ) ≤ ((2 : ℚ) : ℝ) := Rat.cast_le.2 hy
  have h2 : ((2 : ℚ) : ℝ) < 2 ^ 1024 := by
    have : (2 : ℝ) ^ 1 < 2 ^ 1024 := pow_lt_pow_right₀ (by norm_num) (by norm_num)
    simpa using this
  exact h1.trans_lt h2

theorem loop0 {σ : Type} {body : Nat → σ → Res σ} {i : Nat} {s : σ} : loopFrom body i 0 s = .ok s := rfl

theorem loop_next {σ : Type} {body : Nat → σ → Res σ} {i k : Nat} {s : σ} :
    loopFrom body i (k + 1) s = (body i s >>= loopFrom body (i + 1) k) := by
  rw [loopFrom]
  cases body i s <;> rfl

theorem loop1 {σ : Type} {body : Nat → σ → Res σ} {i : Nat} {s : σ} :
    loopFrom body i 1 s = (body i s >>= loopFrom body (i + 1) 0) := loop_next

theorem loop2 {σ : Type} {body : Nat → σ → Res σ} {i : Nat} {s : σ} :
    loopFrom body i 2 s = (body i s >>= loopFrom body (i + 1) 1) := loop_next

theorem ok_bind {α β : Type} {a : α} {f : α → Res β} : ((Except.ok a : Res α) >>= f) = f a := rfl

/-- The factorization succeeds, with the last pivot 0. -/
theorem exNear_cholesky :
    Dbl.cholesky Real.sqrt exNear = .ok (⟨2, 2, [1, (offQ : ℝ), 0, 0]⟩, 1) := by
  obtain ⟨h1, h2, h3, h4, h5, h6⟩ := fl_off
  have d0 : dbl (0 : ℝ) = .ok 0 := by simpa using dblR (x := 0) (y := 0) (by decide +kernel) (by norm_num) (by simp)
  have d1 : dbl (1 : ℝ) = .ok 1 := by simpa using dblR (x := 1) (y := 1) (by decide +kernel) (by norm_num) (by simp)
  have da : dbl (offQ : ℝ) = .ok (offQ : ℝ) := dblR h2 h6 rfl
  have dc : dbl (diagQ : ℝ) = .ok (diagQ : ℝ) := dblR h3 h5 rfl
  have daa : dbl ((offQ : ℝ) * offQ) = .ok (diagQ : ℝ) := dblR h1 h5 (by push_cast; rfl)
  have n1 : ¬ (1 : ℝ) < 0 := by norm_num
  simp [n1, Dbl.cholesky, Dbl.choleskyRow, exNear, forRange, sumFrom, Mat.forFromTo, Mem.zeros, Mem.rd, Mem.wr,
    Mem.freeze, rawAt, loop0, loop1, loop2, ok_bind, tab, tabFrom, Dbl.sub, Dbl.mul, Dbl.add, Dbl.div, d0, d1, da, dc, daa]

/-- The entries of `exNear`. -/
noncomputable def exNearF (i j : Nat) : ℝ := ([1, (offQ : ℝ), (offQ : ℝ), (diagQ : ℝ)] : List ℝ).getD (j * 2 + i) 0

theorem exNear_isMat : IsMat exNear 2 2 exNearF := by
  refine ⟨rfl, rfl, rfl, fun i j hi hj => ?_⟩
  interval_cases i <;> interval_cases j <;> rfl

/-- The backward substitution would divide by 0. -/
theorem exNear_solve : Dbl.solveSystem Real.sqrt exNear [1, 0] = .error .nonFinite := by
  obtain ⟨h1, h2, h3, h4, h5, h6⟩ := fl_off
  have d1 : dbl (1 : ℝ) = .ok 1 := by simpa using dblR (x := 1) (y := 1) (by decide +kernel) (by norm_num) (by simp)
  have da : dbl (offQ : ℝ) = .ok (offQ : ℝ) := dblR h2 h6 rfl
  have da' : dbl (-(offQ : ℝ)) = .ok (-(offQ : ℝ)) := by
    have := dblR (x := -offQ) (y := -offQ) (by decide +kernel) (by rw [abs_neg]; exact h6) (t := -(offQ : ℝ))
      (by push_cast; rfl)
    rw [this]; push_cast; rfl
  unfold Dbl.solveSystem
  rw [exNear_cholesky]
  simp [Dbl.solveCholesky, forRange, sumFrom, Mat.forFromTo, Mem.zeros, Mem.rd, Mem.wr, vat,
    rawAt, loop0, loop1, loop2, ok_bind, Dbl.sub, Dbl.mul, Dbl.add, Dbl.div, d1, da, da']
  rfl

theorem C116_false : ¬ C116_full := by
  intro h
  obtain ⟨h1, h2, h3, h4, h5, h6⟩ := fl_off
  have hoff : IsDouble (offQ : ℝ) := by
    rw [← h2, ← fl_cast]; exact fl_isDouble _
  have hdiag : IsDouble (diagQ : ℝ) := by
    rw [← h3, ← fl_cast]; exact fl_isDouble _
  have a1 : |(offQ : ℝ)| ≤ 2 := by rw [← Rat.cast_abs]; exact_mod_cast h6
  have a2 : |(diagQ : ℝ)| ≤ 2 := by rw [← Rat.cast_abs]; exact_mod_cast h5
  have a3 : (offQ : ℝ) * offQ < diagQ := by exact_mod_cast h4
  suffices hx : ∃ x, Dbl.solveSystem Real.sqrt exNear [1, 0] = .ok x by
    obtain ⟨x, hx⟩ := hx
    rw [exNear_solve] at hx
    cases hx
  refine h 2 exNear exNearF [1, 0] exNear_isMat ?_ ?_ ?_ rfl ?_ ?_
  · intro i j hi hj
    interval_cases i <;> interval_cases j <;> rfl
  · intro x hx
    have e : quadForm 2 exNearF x = (x 0 + offQ * x 1) ^ 2 + (diagQ - offQ * offQ) * x 1 ^ 2 := by
      simp [quadForm, sum_range_succ, exNearF]
      ring
    rw [e]
    by_cases hx1 : x 1 = 0
    · have hx0 : x 0 ≠ 0 := by
        obtain ⟨i, hi, hne⟩ := hx
        interval_cases i
        · exact hne
        · exact absurd hx1 hne
      rw [hx1]
      have := pow_pos (abs_pos.2 hx0) 2
      rw [sq_abs] at this
      simpa using this
    · have := mul_pos (sub_pos.2 a3) (by positivity : 0 < x 1 ^ 2)
      have := sq_nonneg (x 0 + offQ * x 1)
      linarith
  · intro i j hi hj
    interval_cases i <;> interval_cases j
    · exact ⟨isDouble_one, by simp [exNearF]⟩
    · exact ⟨hoff, a1⟩
    · exact ⟨hoff, a1⟩
    · exact ⟨hdiag, a2⟩
  · intro t ht
    simp only [List.mem_cons, List.not_mem_nil, or_false] at ht
    rcases ht with rfl | rfl
    · exact isDouble_one
    · exact isDouble_zero
  · intro t ht
    simp only [List.mem_cons, List.not_mem_nil, or_false] at ht
    rcases ht with rfl | rfl <;> norm_num

/-! ## A case of the theorems -/

/-- The matrix with rows (4 2) and (2 5). -/
noncomputable def exDef : Mat ℝ := ⟨2, 2, [4, 2, 2, 5]⟩

noncomputable def exDefF (i j : Nat) : ℝ := ([4, 2, 2, 5] : List ℝ).getD (j * 2 + i) 0

theorem exDef_hyps : IsMat exDef 2 2 exDefF ∧ Symm 2 exDefF ∧
    (∀ i j, i < 2 → j < 2 → IsDouble (exDefF i j)) ∧ (∀ i j, i < 2 → j < 2 → |exDefF i j| ≤ 5) ∧
    (∀ x : Nat → ℝ, 2 * ∑ p ∈ range 2, x p ^ 2 ≤ quadForm 2 exDefF x) ∧
    (2 : ℝ) ^ (-100 : ℤ) ≤ 5 ∧ (5 : ℝ) ≤ 2 ^ (100 : ℤ) := by
  refine ⟨⟨rfl, rfl, rfl, fun i j hi hj => ?_⟩, fun i j hi hj => ?_, fun i j hi hj => ?_, fun i j hi hj => ?_,
    fun x => ?_, ?_, ?_⟩
  · interval_cases i <;> interval_cases j <;> rfl
  · interval_cases i <;> interval_cases j <;> rfl
  · have hd : ∀ k : Nat, k < 2 ^ 53 → IsDouble ((k : Nat) : ℝ) := fun k hk => isDouble_nat hk
    interval_cases i <;> interval_cases j
    · exact hd 4 (by norm_num)
    · exact hd 2 (by norm_num)
    · exact hd 2 (by norm_num)
    · exact hd 5 (by norm_num)
  · interval_cases i <;> interval_cases j <;> norm_num [exDefF]
  · simp only [quadForm, sum_range_succ, sum_range_zero, exDefF]
    norm_num
    nlinarith [sq_nonneg (x 0 + x 1), sq_nonneg (x 1)]
  · rw [zpow_neg]; norm_num
  · norm_num

example : ∃ x ρ, Dbl.solveSystem Real.sqrt exDef [2, 9] = .ok x ∧ x.length = 2 ∧
    ρ = 25 / 8 * (((2 : Nat) : ℝ) + 2) / 2 ^ 53 * 5 * ∑ j ∈ range 2, |vecFun x j| + 2 ^ (-400 : ℤ) ∧
    (∀ i, i < 2 → |vecFun [2, 9] i - ∑ j ∈ range 2, exDefF i j * vecFun x j| ≤ ρ) ∧
    ∀ z, Solves 2 exDefF z (vecFun [2, 9]) →
      2 ^ 2 * ∑ j ∈ range 2, (vecFun x j - z j) ^ 2 ≤ ((2 : Nat) : ℝ) * ρ ^ 2 := by
  obtain ⟨e1, e2, e3, e4, e5, e6, e7⟩ := exDef_hyps
  refine C116_partial isSqrt_real e1 e2 (by norm_num) (by norm_num) e3 e6 e7 e4 e5 (by norm_num) rfl ?_ ?_
  · intro t ht
    simp only [List.mem_cons, List.not_mem_nil, or_false] at ht
    rcases ht with rfl | rfl
    · exact isDouble_nat (n := 2) (by norm_num)
    · exact isDouble_nat (n := 9) (by norm_num)
  · intro a ha
    interval_cases a <;> norm_num [vecFun]

example : ∃ L G, Dbl.cholesky Real.sqrt exDef = .ok (L, 1) ∧ IsMat L 2 2 G ∧
    (∀ i j, i < 2 → j < 2 → i < j → G i j = 0) ∧ (∀ i, i < 2 → 0 < G i i) ∧
    ∀ i j, i < 2 → j < 2 →
      |exDefF i j - ∑ k ∈ range 2, G i k * G j k| ≤ 33 / 32 * ((((2 : Nat) : ℝ) + 2) / 2 ^ 53) * 5 := by
  obtain ⟨e1, e2, e3, e4, e5, e6, e7⟩ := exDef_hyps
  exact C116_factor isSqrt_real e1 e2 (by norm_num) e3 e6 e7 e4 e5 (by norm_num)

end Rodeo
