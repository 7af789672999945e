import Verif.Lemmas.Chol
import Verif.Lemmas.Matrix
import Verif.Props.Mat
import Mathlib.Analysis.SpecialFunctions.Log.Basic

/-! # C46, C47, C48, C63: direct linear solvers

`Solves n F x b` (Spec/LinSys.lean): the product of the matrix `F` with `x` is `b`. -/

set_option linter.unusedSectionVars false

namespace Rodeo
open Spec Mat

variable {K : Type} [Field K] [LinearOrder K] [IsStrictOrderedRing K]

/-- Rows (0 2) and (1 1): elimination needs a row exchange. -/
def exP : Mat ℚ := ⟨2, 2, [0, 1, 2, 1]⟩

/-! ## C46 -/

/-- LU of a square matrix never throws and never has undefined behaviour; a nonsquare one is
rejected. -/
theorem C46_total {A : Mat K} {n m : Nat} {F : Nat → Nat → K} (hA : IsMat A n m F) :
    if n ≠ m then lu A = .error .invalidArgument
    else ∃ r, lu A = .ok r := by
  obtain ⟨hr, hc, -, -⟩ := id hA
  split_ifs with h
  · unfold lu; rw [if_pos (by omega)]
  · push Not at h; subst h
    obtain ⟨r, h1, -⟩ := lu_ok hA
    exact ⟨r, h1⟩

/-- After a successful factorization every right-hand side of matching size is solved exactly;
the others are rejected. -/
theorem C46_solve {A LU : Mat K} {p : List Nat} {n : Nat} {F : Nat → Nat → K} (hA : IsMat A n n F)
    (hlu : lu A = .ok (some (LU, p))) (b : List K) :
    if b.length ≠ n then solveLU LU p b = .error .invalidArgument
    else ∃ x, solveLU LU p b = .ok x ∧ x.length = n ∧ Solves n F (vecFun x) (vecFun b) := by
  obtain ⟨r, h1, h2⟩ := lu_ok hA
  rw [hlu] at h1
  cases h1
  obtain ⟨M, π, h3, rfl, h4⟩ := h2
  split_ifs with h
  · unfold solveLU; rw [if_pos (by have := h3.1; have := h3.2.1; omega)]
  · exact solveLU_ok h3 h4 (by omega)

/-- A singular matrix is always reported as failed. -/
theorem C46_singular {A : Mat K} {n : Nat} {F : Nat → Nat → K} (hA : IsMat A n n F)
    (hdet : (toMatrix n F).det = 0) : lu A = .ok none := by
  obtain ⟨r, h1, h2⟩ := lu_ok hA
  rcases r with _ | ⟨LU, p⟩
  · exact h1
  · exfalso
    refine det_ne_zero_of_solvable (n := n) (F := F) ?_ hdet
    intro b
    have := C46_solve hA h1 ((List.range n).map b)
    rw [if_neg (by simp)] at this
    obtain ⟨x, -, -, hx⟩ := this
    refine ⟨vecFun x, fun i hi => ?_⟩
    rw [hx i hi]
    simp [vecFun, List.getD, hi]

/-- The inverse is a two-sided inverse whenever LU succeeds, and `invert` throws otherwise. -/
theorem C46_inverse {A : Mat K} {n : Nat} {F : Nat → Nat → K} (hA : IsMat A n n F) :
    (∃ LU p B G, lu A = .ok (some (LU, p)) ∧ invert A = .ok B ∧ IsMat B n n G ∧
      (∀ i j, i < n → j < n → ∑ k ∈ Finset.range n, F i k * G k j = if i = j then 1 else 0) ∧
      (∀ i j, i < n → j < n → ∑ k ∈ Finset.range n, G i k * F k j = if i = j then 1 else 0)) ∨
    (lu A = .ok none ∧ invert A = .error .runtimeError) := by
  rcases invert_ok hA with ⟨LU, p, h1, B, h2, G, h3, h4⟩ | h
  · exact Or.inl ⟨LU, p, B, G, h1, h2, h3, h4, left_inverse_of_right h4⟩
  · exact Or.inr h

/-- The solver object: `setMatrix`, `factorize`, then `solveLinearSystem`.  Either the object says
that the factorization failed (and solving is refused), or every system is solved exactly. -/
theorem C46_object {A : Mat K} {n : Nat} {F : Nat → Nat → K} (hA : IsMat A n n F)
    (s : LUSystem K) :
    ∃ s', (s.setMatrix A).factorize = .ok s' ∧
      if s'.done then ∀ b : List K, b.length = n →
        ∃ x, s'.solveLinearSystem b = .ok x ∧ x.length = n ∧ Solves n F (vecFun x) (vecFun b)
      else ∀ b : List K, b.length = n → s'.solveLinearSystem b = .error .abort := by
  obtain ⟨r, h1, h2⟩ := lu_ok hA
  have hn := hA.1
  rcases r with _ | ⟨LU, p⟩
  · refine ⟨{ s.setMatrix A with fact := none, done := false }, bind_eq h1 rfl, ?_⟩
    simp only [Bool.false_eq_true, if_false]
    intro b hb
    unfold LUSystem.solveLinearSystem LUSystem.setMatrix
    simp only
    rw [if_neg (by omega), if_pos trivial]
  · refine ⟨{ s.setMatrix A with fact := some LU, pivots := p, done := true },
      bind_eq h1 rfl, ?_⟩
    simp only [if_true]
    intro b hb
    have := C46_solve hA h1 b
    rw [if_neg (by omega)] at this
    unfold LUSystem.solveLinearSystem LUSystem.setMatrix
    simp only
    rw [if_neg (by omega), if_neg (by simp)]
    exact this

theorem LUSystem.calls_append (s : LUSystem K) (a b : List (LUSystem.Call K)) :
    s.calls (a ++ b) = (s.calls a).bind (fun s' => s'.calls b) := by
  induction a generalizing s with
  | nil => rfl
  | cons c cs ih =>
    show (s.call c).bind _ = ((s.call c).bind _).bind _
    rcases s.call c with e | s1
    · rfl
    · exact ih s1

/-- Every matrix handed over is square. -/
def Spec.SquareCalls (cs : List (LUSystem.Call K)) : Prop :=
  ∀ c ∈ cs, match c with
    | .setMatrix A => ∃ n F, IsMat A n n F
    | .factorize => True

theorem LUSystem.calls_total (cs : List (LUSystem.Call K)) (hc : SquareCalls cs) (s : LUSystem K)
    (hs : ∃ n F, IsMat s.A n n F) :
    ∃ s', s.calls cs = .ok s' ∧ ∃ n F, IsMat s'.A n n F := by
  induction cs generalizing s with
  | nil => exact ⟨s, rfl, hs⟩
  | cons c cs ih =>
    have hcs : SquareCalls cs := fun d hd => hc d (List.mem_cons_of_mem _ hd)
    have h0 := hc c List.mem_cons_self
    rcases c with A | _
    · exact ih hcs (s.setMatrix A) h0
    · obtain ⟨n, F, hA⟩ := hs
      obtain ⟨r, h1, -⟩ := lu_ok hA
      rcases r with _ | ⟨LU, p⟩
      · have e : s.factorize = .ok { s with fact := none, done := false } := bind_eq h1 rfl
        obtain ⟨s', h2, h3⟩ := ih hcs { s with fact := none, done := false } ⟨n, F, hA⟩
        exact ⟨s', bind_eq e h2, h3⟩
      · have e : s.factorize = .ok { s with fact := some LU, pivots := p, done := true } :=
          bind_eq h1 rfl
        obtain ⟨s', h2, h3⟩ := ih hcs { s with fact := some LU, pivots := p, done := true }
          ⟨n, F, hA⟩
        exact ⟨s', bind_eq e h2, h3⟩

/-- One solver object used again and again: after any sequence of `setMatrix` and `factorize`
calls whose last matrix is `A`, solving is refused if `A` has not been factorized since it was set
or its factorization failed; otherwise the system with the matrix `A` is solved exactly.  No
earlier matrix shows. -/
theorem C46_history {A : Mat K} {n : Nat} {F : Nat → Nat → K} (hA : IsMat A n n F)
    (pre : List (LUSystem.Call K)) (hpre : SquareCalls pre) (k : Nat) :
    ∃ s, LUSystem.new.calls (pre ++ .setMatrix A :: List.replicate k .factorize) = .ok s ∧
      ∀ b : List K, b.length = n →
        if k = 0 ∨ lu A = .ok none then s.solveLinearSystem b = .error .abort
        else ∃ x, s.solveLinearSystem b = .ok x ∧ x.length = n ∧
          Solves n F (vecFun x) (vecFun b) := by
  obtain ⟨s0, h0, -⟩ := LUSystem.calls_total pre hpre LUSystem.new
    ⟨0, fun _ _ => 0, rfl, rfl, rfl, fun i j hi _ => absurd hi (by omega)⟩
  have hn := hA.1
  obtain ⟨r, h1, -⟩ := lu_ok hA
  have key : ∀ (k : Nat) (s : LUSystem K), s.A = A → s.dimension = n → (s.done = false ∨
      ∃ LU, lu A = .ok (some (LU, s.pivots)) ∧ s.fact = some LU ∧ s.done = true) →
      ∃ s', s.calls (List.replicate k .factorize) = .ok s' ∧ s'.dimension = n ∧
        ((k = 0 ∧ s'.done = s.done) ∨ (lu A = .ok none ∧ s'.done = false) ∨
          ∃ LU, lu A = .ok (some (LU, s'.pivots)) ∧ s'.fact = some LU ∧ s'.done = true) := by
    intro k
    induction k with
    | zero => intro s _ hd _; exact ⟨s, rfl, hd, Or.inl ⟨rfl, rfl⟩⟩
    | succ k ih =>
      intro s hsA hd _
      subst hsA
      rcases r with _ | ⟨LU, p⟩
      · have e : s.factorize = .ok { s with fact := none, done := false } := bind_eq h1 rfl
        obtain ⟨s', h2, h3, h4⟩ := ih { s with fact := none, done := false } rfl hd (Or.inl rfl)
        refine ⟨s', bind_eq e h2, h3, ?_⟩
        rcases h4 with ⟨-, h4⟩ | h4 | h4
        · exact Or.inr (Or.inl ⟨h1, h4⟩)
        · exact Or.inr (Or.inl h4)
        · exact Or.inr (Or.inr h4)
      · have e : s.factorize = .ok { s with fact := some LU, pivots := p, done := true } :=
          bind_eq h1 rfl
        obtain ⟨s', h2, h3, h4⟩ := ih { s with fact := some LU, pivots := p, done := true } rfl hd
          (Or.inr ⟨LU, h1, rfl, rfl⟩)
        refine ⟨s', bind_eq e h2, h3, ?_⟩
        rcases h4 with ⟨hk, h4⟩ | h4 | h4
        · subst hk
          cases h2
          exact Or.inr (Or.inr ⟨LU, h1, rfl, rfl⟩)
        · exact Or.inr (Or.inl h4)
        · exact Or.inr (Or.inr h4)
  obtain ⟨s', h2, h3, h4⟩ := key k (s0.setMatrix A) rfl hn (Or.inl rfl)
  refine ⟨s', ?_, ?_⟩
  · rw [LUSystem.calls_append, h0]; exact h2
  · intro b hb
    split_ifs with hk
    · have hd : s'.done = false := by
        rcases h4 with ⟨-, h4⟩ | ⟨-, h4⟩ | ⟨LU, h4, -, -⟩
        · exact h4
        · exact h4
        · rcases hk with rfl | hk
          · cases h2; rfl
          · rw [hk] at h4; cases h4
      unfold LUSystem.solveLinearSystem
      rw [if_neg (by omega), if_pos hd]
    · push Not at hk
      rcases h4 with ⟨h4, -⟩ | ⟨h4, -⟩ | ⟨LU, h4, h5, h6⟩
      · exact absurd h4 hk.1
      · exact absurd h4 hk.2
      · have := C46_solve hA h4 b
        rw [if_neg (by omega)] at this
        unfold LUSystem.solveLinearSystem
        rw [if_neg (by omega), if_neg (by simp [h6]), h5]
        exact this

example : ∃ s, LUSystem.new.calls [.setMatrix (⟨2, 2, [1, 2, 2, 4]⟩ : Mat ℚ), .factorize,
      .setMatrix exP, .factorize] = .ok s ∧ s.solveLinearSystem [4, 5] = .ok [3, 2] := by
  refine ⟨⟨2, exP, some ⟨2, 2, [1, 0, 1, 2]⟩, [1, 0], true⟩, ?_, ?_⟩ <;> decide +kernel
example : ∃ s, LUSystem.new.calls [.setMatrix (⟨2, 2, [1, 2, 2, 4]⟩ : Mat ℚ), .factorize,
      .setMatrix exP] = .ok s ∧ s.solveLinearSystem [4, 5] = .error .abort := by
  refine ⟨⟨2, exP, some ⟨2, 2, [0, 0, 0, 0]⟩, [0, 0], false⟩, ?_, ?_⟩ <;> decide +kernel

/-- What the object does not protect against: `setDimension` after a factorization keeps the flag,
and solving then divides by zero. -/
theorem C46_stale_flag :
    ∃ s1 s2 : LUSystem ℚ, (LUSystem.new.setMatrix exP).factorize = .ok s1 ∧ s1.done = true ∧
      s1.setDimension 2 = .ok s2 ∧ s2.done = true ∧
      s2.solveLinearSystem [1, 1] = .error .nonFinite := by
  refine ⟨⟨2, exP, some ⟨2, 2, [1, 0, 1, 2]⟩, [1, 0], true⟩, _, ?_, rfl, rfl, rfl, ?_⟩ <;>
    decide +kernel

example : lu exP = .ok (some (⟨2, 2, [1, 0, 1, 2]⟩, [1, 0])) ∧
    solveLU ⟨2, 2, [1, 0, 1, 2]⟩ [1, 0] [4, 5] = .ok [3, (2 : ℚ)] ∧
    invert exP = .ok ⟨2, 2, [-1/2, 1/2, 1, 0]⟩ := by decide +kernel
example : lu (⟨2, 2, [1, 2, 2, 4]⟩ : Mat ℚ) = .ok none ∧
    invert (⟨2, 2, [1, 2, 2, 4]⟩ : Mat ℚ) = .error .runtimeError := by decide +kernel

/-! ## C47 -/

/-- The full property: every invertible matrix is accepted. -/
def C47_full (K : Type) [Field K] [LinearOrder K] [IsStrictOrderedRing K] : Prop :=
  ∀ (A : Mat K) (n : Nat) (F : Nat → Nat → K), IsMat A n n F → (toMatrix n F).det ≠ 0 →
    ∃ LU p, lu A = .ok (some (LU, p))

/-- Not true: the absolute pivot tolerance 1e-9 rejects the invertible matrix (1e-10). -/
theorem C47_false : ¬ C47_full ℚ := by
  intro h
  obtain ⟨LU, p, h1⟩ := h ⟨1, 1, [1 / 10 ^ 10]⟩ 1 (fun _ _ => 1 / 10 ^ 10)
    ⟨rfl, rfl, rfl, by
      intro i j hi hj
      have : i = 0 := by omega
      have : j = 0 := by omega
      subst i j; rfl⟩
    (by rw [Matrix.det_fin_one]; norm_num [toMatrix])
  have h2 : lu (⟨1, 1, [1 / 10 ^ 10]⟩ : Mat ℚ) = .ok none := by decide +kernel
  rw [h2] at h1
  cases h1

/-- Every matrix whose inverse has row sums of absolute values at most 1e9 is accepted.  Missing:
invertible matrices with larger inverses; `C47_false` shows that they can be rejected. -/
theorem C47_partial {A : Mat K} {n : Nat} {F G : Nat → Nat → K} (hA : IsMat A n n F)
    (hinv : ∀ i j, i < n → j < n → ∑ k ∈ Finset.range n, G i k * F k j = if i = j then 1 else 0)
    (hnorm : ∀ i, i < n → ∑ k ∈ Finset.range n, |G i k| ≤ 10 ^ 9) :
    ∃ LU p, lu A = .ok (some (LU, p)) := by
  obtain ⟨r, h1, h2⟩ := lu_ok hA
  rcases r with _ | ⟨LU, p⟩
  · exfalso
    obtain ⟨c, hc, x, hx1, hx2⟩ := h2
    have key : x c = ∑ k ∈ Finset.range n, G c k * ∑ j ∈ Finset.range n, F k j * x j := by
      have : ∑ k ∈ Finset.range n, G c k * ∑ j ∈ Finset.range n, F k j * x j
          = ∑ j ∈ Finset.range n, (if c = j then 1 else 0) * x j := by
        simp only [Finset.mul_sum]
        rw [Finset.sum_comm]
        apply Finset.sum_congr rfl
        intro j hj
        rw [Finset.mem_range] at hj
        rw [← hinv c j hc hj, Finset.sum_mul]
        apply Finset.sum_congr rfl
        intro k _; ring
      rw [this]
      simp [hc]
    have hb : |x c| < 1 := by
      by_cases hz : ∀ k, k < n → G c k = 0
      · have : x c = 0 := by
          rw [key]
          apply Finset.sum_eq_zero
          intro k hk
          rw [hz k (Finset.mem_range.1 hk), zero_mul]
        rw [this]; simp
      · push Not at hz
        obtain ⟨k0, hk0, hne⟩ := hz
        calc |x c| ≤ ∑ k ∈ Finset.range n, |G c k * ∑ j ∈ Finset.range n, F k j * x j| := by
              rw [key]; exact Finset.abs_sum_le_sum_abs _ _
          _ < ∑ k ∈ Finset.range n, |G c k| * pivotTol := by
              apply Finset.sum_lt_sum
              · intro k hk
                rw [abs_mul]
                exact mul_le_mul_of_nonneg_left (hx2 k (Finset.mem_range.1 hk)).le (abs_nonneg _)
              · refine ⟨k0, Finset.mem_range.2 hk0, ?_⟩
                rw [abs_mul]
                exact mul_lt_mul_of_pos_left (hx2 k0 hk0) (abs_pos.2 hne)
          _ = (∑ k ∈ Finset.range n, |G c k|) * pivotTol := by rw [Finset.sum_mul]
          _ ≤ 10 ^ 9 * pivotTol := mul_le_mul_of_nonneg_right (hnorm c hc) pivotTol_pos.le
          _ = 1 := by unfold pivotTol; norm_num
    rw [hx1] at hb
    simp at hb
  · exact ⟨LU, p, h1⟩

/-- The hypotheses are met by the matrix (0 2; 1 1), whose inverse is (-1/2 1; 1/2 0). -/
example : ∃ G : Nat → Nat → ℚ,
    (∀ i j, i < 2 → j < 2 → ∑ k ∈ Finset.range 2,
      G i k * (fun i j => exP.buf.getD (j * 2 + i) 0) k j = if i = j then 1 else 0) ∧
    (∀ i, i < 2 → ∑ k ∈ Finset.range 2, |G i k| ≤ 10 ^ 9) := by
  refine ⟨fun i j => [-1/2, 1/2, 1, 0].getD (j * 2 + i) 0, ?_, ?_⟩
  · intro i j hi hj
    have h1 : i = 0 ∨ i = 1 := by omega
    have h2 : j = 0 ∨ j = 1 := by omega
    rcases h1 with rfl | rfl <;> rcases h2 with rfl | rfl <;>
      norm_num [Finset.sum_range_succ, exP]
  · intro i hi
    have h1 : i = 0 ∨ i = 1 := by omega
    rcases h1 with rfl | rfl <;> norm_num [Finset.sum_range_succ]

/-! ## C48 -/

/-- The full property for a square root function `sqrt`. -/
def C48_full (K : Type) [Field K] [LinearOrder K] [IsStrictOrderedRing K] (sqrt : K → K) : Prop :=
  ∀ (A : Mat K) (n : Nat) (F : Nat → Nat → K), IsMat A n n F → Symm n F →
    ∃ L ret, cholesky sqrt A = .ok (L, ret) ∧ (ret = 1 ↔ PosDef n F) ∧
      (ret = 1 → (∃ G, IsMat L n n G ∧ (∀ i j, i < n → j < n → i < j → G i j = 0) ∧
          ∀ i j, i < n → j < n → ∑ k ∈ Finset.range n, G i k * G j k = F i j) ∧
        ∀ b : List K, b.length = n →
          ∃ x, solveCholesky L b = .ok x ∧ x.length = n ∧ Solves n F (vecFun x) (vecFun b))

/-- Not true, whatever the number field and square root: the zero matrix is reported as
successfully factorized. -/
theorem C48_false (sqrt : K → K) : ¬ C48_full K sqrt := by
  intro h
  obtain ⟨L, ret, h1, h2, -⟩ := h ⟨1, 1, [0]⟩ 1 (fun _ _ => 0)
    ⟨rfl, rfl, rfl, by
      intro i j hi hj
      have : i = 0 := by omega
      have : j = 0 := by omega
      subst i j; rfl⟩ (fun _ _ _ _ => rfl)
  have h3 : cholesky sqrt (⟨1, 1, [0]⟩ : Mat K) = .ok (⟨1, 1, [sqrt 0]⟩, 1) := by
    simp [cholesky, choleskyRow, forRange, loopFrom, sumLoop, forFromTo, Mem.zeros, Mem.wr,
      Mem.freeze, tab, tabFrom, rawAt, bind, Except.bind]
  rw [h3] at h1
  cases h1
  have h4 := (h2.1 rfl) (fun _ => 1) ⟨0, by omega, one_ne_zero⟩
  simp [quadForm] at h4

/-- With a zero pivot in front, the factorization even runs into a division by zero (in C++ the
factor then contains NaN and success is still reported). -/
theorem C48_false_nan :
    cholesky (fun x : ℚ => x) (⟨2, 2, [0, 0, 0, 1]⟩ : Mat ℚ) = .error .nonFinite := by
  decide +kernel

theorem chol_diag_pos {n : Nat} {F G : Nat → Nat → K} (hF : Symm n F) (hI : CholInv F G n)
    (hP : PosDef n F) : ∀ a, a < n → 0 < G a a := by
  intro a ha
  obtain ⟨h1, h2, h3⟩ := hI a ha
  obtain ⟨x, hx1, hx2⟩ := chol_pivot hF ha (fun b hb => hI b (by omega)) h3
    (fun b hb => h1 b hb.le)
  have hpos := hP x ⟨a, ha, by rw [hx1]; exact one_ne_zero⟩
  rw [hx2] at hpos
  have := h1 a le_rfl
  unfold CholEq at this
  rw [← this] at hpos
  refine lt_of_le_of_ne h2 (fun h => ?_)
  rw [← h] at hpos
  simp at hpos

/-- A lower triangular matrix with nonzero diagonal has a positive definite Gram matrix. -/
theorem posDef_of_gram {n : Nat} {F L : Nat → Nat → K}
    (hl : ∀ i j, i < n → j < n → i < j → L i j = 0) (hd : ∀ i, i < n → L i i ≠ 0)
    (h : ∀ i j, i < n → j < n → ∑ k ∈ Finset.range n, L i k * L j k = F i j) : PosDef n F := by
  intro x hx
  rw [quadForm_gram h]
  refine lt_of_le_of_ne (Finset.sum_nonneg (fun k _ => sq_nonneg _)) (fun h0 => ?_)
  have hz := (Finset.sum_eq_zero_iff_of_nonneg (fun k _ => sq_nonneg _)).1 h0.symm
  have hall : ∀ t i, n - t ≤ i → i < n → x i = 0 := by
    intro t
    induction t with
    | zero => intro i h1 h2; omega
    | succ t ih =>
      intro i h1 h2
      by_cases h3 : n - t ≤ i
      · exact ih i h3 h2
      · have := hz i (Finset.mem_range.2 h2)
        rw [sq_eq_zero_iff, Finset.sum_eq_single i] at this
        · exact (mul_eq_zero.1 this).resolve_right (hd i h2)
        · intro j hj hji
          rw [Finset.mem_range] at hj
          rcases Nat.lt_or_gt_of_ne hji with hlt | hgt
          · rw [hl j i hj h2 hlt, mul_zero]
          · rw [ih j (by omega) hj, zero_mul]
        · intro hc; exact absurd (Finset.mem_range.2 h2) hc
  obtain ⟨i, hi, hne⟩ := hx
  exact hne (hall n i (by omega) hi)

/-- Everything that holds for symmetric matrices.
(1) Positive definite: success, positive diagonal, exact factor, exact solves.
(2) Success reported: the factor is exact and the matrix is positive semidefinite; if moreover no
diagonal entry of the factor is zero, the matrix is positive definite.
(3) Failure reported: the matrix is not positive semidefinite.
(4) The only other outcome is a division by zero, and then the matrix is not positive definite.
Missing for the full property: matrices that are semidefinite but not definite can be reported as
successful (`C48_false`) or divide by zero (`C48_false_nan`). -/
theorem C48_partial {A : Mat K} {n : Nat} {F : Nat → Nat → K} {sqrt : K → K} (hs : IsSqrt sqrt)
    (hA : IsMat A n n F) (hF : Symm n F) :
    (PosDef n F → ∃ L G, cholesky sqrt A = .ok (L, 1) ∧ IsMat L n n G ∧
      (∀ i, i < n → 0 < G i i) ∧
      ∀ b : List K, b.length = n →
        ∃ x, solveCholesky L b = .ok x ∧ x.length = n ∧ Solves n F (vecFun x) (vecFun b)) ∧
    (∀ L, cholesky sqrt A = .ok (L, 1) → PosSemidef n F ∧ ∃ G, IsMat L n n G ∧
      (∀ i j, i < n → j < n → i < j → G i j = 0) ∧
      (∀ i j, i < n → j < n → ∑ k ∈ Finset.range n, G i k * G j k = F i j) ∧
      ((∀ i, i < n → G i i ≠ 0) → PosDef n F)) ∧
    (∀ L ret, cholesky sqrt A = .ok (L, ret) → ret ≠ 1 → ret = -1 ∧ ¬ PosSemidef n F) ∧
    (∀ e, cholesky sqrt A = .error e → e = .nonFinite ∧ ¬ PosDef n F) := by
  have hmain := cholesky_ok hs hA hF
  refine ⟨?_, ?_, ?_, ?_⟩
  · intro hP
    rcases hmain with ⟨-, x, a, ha, hx1, hx2⟩ | ⟨⟨L, ret⟩, h1, h2⟩
    · have := hP x ⟨a, ha, by rw [hx1]; exact one_ne_zero⟩
      rw [hx2] at this
      exact absurd this (lt_irrefl _)
    · rcases h2 with ⟨rfl, G, h3, h4⟩ | ⟨-, x, a, ha, hx1, hx2⟩
      · have hpos := chol_diag_pos hF h4 hP
        refine ⟨L, lowerPart G, h1, h3, ?_, ?_⟩
        · intro i hi; simp only [lowerPart, le_refl, if_true]; exact hpos i hi
        · intro b hb
          exact solveCholesky_ok h3 hF h4 (fun i hi => (hpos i hi).ne') hb
      · exact absurd (hP x ⟨a, ha, by rw [hx1]; exact one_ne_zero⟩) (not_lt.2 hx2.le)
  · intro L hL
    rcases hmain with ⟨h, -⟩ | ⟨⟨L', ret⟩, h1, h2⟩
    · rw [hL] at h; cases h
    · rw [hL] at h1
      cases h1
      rcases h2 with ⟨-, G, h3, h4⟩ | ⟨h, -⟩
      · have hp := chol_product hF h4
        have hl : ∀ i j, i < n → j < n → i < j → lowerPart G i j = 0 := by
          intro i j _ _ hij; simp only [lowerPart]; rw [if_neg (by omega)]
        refine ⟨?_, lowerPart G, h3, hl, hp, fun hd => posDef_of_gram hl hd hp⟩
        intro x
        rw [quadForm_gram hp]
        exact Finset.sum_nonneg (fun k _ => sq_nonneg _)
      · omega
  · intro L ret hL hne
    rcases hmain with ⟨h, -⟩ | ⟨⟨L', ret'⟩, h1, h2⟩
    · rw [hL] at h; cases h
    · rw [hL] at h1
      cases h1
      rcases h2 with ⟨h, -⟩ | ⟨h, x, a, ha, hx1, hx2⟩
      · exact absurd h hne
      · exact ⟨h, fun hP => absurd (hP x) (not_le.2 hx2)⟩
  · intro e he
    rcases hmain with ⟨h, x, a, ha, hx1, hx2⟩ | ⟨⟨L', ret'⟩, h1, h2⟩
    · rw [he] at h
      cases h
      refine ⟨rfl, fun hP => ?_⟩
      have := hP x ⟨a, ha, by rw [hx1]; exact one_ne_zero⟩
      rw [hx2] at this
      exact absurd this (lt_irrefl _)
    · rw [he] at h1; cases h1

/-- `Real.sqrt` is a square root function, so all of the above holds over the reals. -/
theorem isSqrt_real : IsSqrt Real.sqrt := fun t ht => ⟨Real.sqrt_nonneg t, Real.mul_self_sqrt ht⟩

/-- A positive definite matrix: rows (4 2) and (2 5). -/
example : Symm 2 (fun i j => ([4, 2, 2, 5] : List ℝ).getD (j * 2 + i) 0) ∧
    PosDef 2 (fun i j => ([4, 2, 2, 5] : List ℝ).getD (j * 2 + i) 0) := by
  constructor
  · intro i j hi hj
    have h1 : i = 0 ∨ i = 1 := by omega
    have h2 : j = 0 ∨ j = 1 := by omega
    rcases h1 with rfl | rfl <;> rcases h2 with rfl | rfl <;> norm_num
  · rintro x ⟨i, hi, hne⟩
    simp only [quadForm, Finset.sum_range_succ, Finset.sum_range_zero]
    norm_num
    have h1 : i = 0 ∨ i = 1 := by omega
    rcases h1 with rfl | rfl
    · have := mul_self_pos.2 hne
      nlinarith [sq_nonneg (x 0 + 5 / 2 * x 1), sq_nonneg (x 1)]
    · have := mul_self_pos.2 hne
      nlinarith [sq_nonneg (2 * x 0 + x 1)]

/-- The same matrix, with a square root that is right on the two pivots 4 and 4. -/
example : cholesky (fun x : ℚ => x / 2) ⟨2, 2, [4, 2, 2, 5]⟩ = .ok (⟨2, 2, [2, 1, 0, 2]⟩, 1) ∧
    solveCholesky (⟨2, 2, [2, 1, 0, 2]⟩ : Mat ℚ) [8, 12] = .ok [1, 2] ∧
    cholesky (fun x : ℚ => x / 2) ⟨2, 2, [4, 4, 4, 1]⟩ = .ok (⟨2, 2, [2, 2, 0, 0]⟩, -1) := by
  decide +kernel

/-! ## C63: determinants -/

/-- After a successful Cholesky factorization of a nonempty symmetric matrix the object returns
the determinant of the matrix. -/
theorem C63_determinant {A : Mat K} {n : Nat} {F : Nat → Nat → K} {sqrt : K → K} (hs : IsSqrt sqrt)
    (hA : IsMat A n n F) (hF : Symm n F) (hn : n ≠ 0) {s s' : CholeskySystem K}
    (hf : (s.setMatrix A).factorize sqrt = .ok s') (hdone : s'.done = true) :
    s'.calculateDeterminant = .ok (toMatrix n F).det := by
  have hmain := cholesky_ok hs hA hF
  unfold CholeskySystem.factorize at hf
  rcases hmain with ⟨h, -⟩ | ⟨⟨L, ret⟩, h1, h2⟩
  · have : (cholesky sqrt (s.setMatrix A).A) = .error .nonFinite := h
    rw [this] at hf; cases hf
  · rw [show cholesky sqrt (s.setMatrix A).A = .ok (L, ret) from h1] at hf
    simp only [bind, Except.bind] at hf
    split_ifs at hf with hret
    · cases hf; simp at hdone
    · cases hf
      rcases h2 with ⟨-, G, h3, h4⟩ | ⟨h, -⟩
      · unfold CholeskySystem.calculateDeterminant
        simp only [Bool.true_eq_false, if_false]
        refine bind_eq (diag_ok h3 hn) ?_
        have hp := chol_product hF h4
        have hl : ∀ i j, i < n → j < n → i < j → lowerPart G i j = 0 := by
          intro i j _ _ hij; simp only [lowerPart]; rw [if_neg (by omega)]
        rw [det_gram hl hp, sq]
        have hprod : CholeskySystem.product ((List.range n).map (fun i => lowerPart G i i))
            = ∏ i ∈ Finset.range n, lowerPart G i i := by
          unfold CholeskySystem.product
          clear hn h1 h3 h4 hp hl hA hF hret
          induction n with
          | zero => simp
          | succ n ih =>
            rw [List.range_succ, List.map_append, List.foldl_append, ih, Finset.prod_range_succ]
            rfl
        rw [hprod]
      · exact absurd h hret

/-- For a positive definite real matrix the log determinant is the logarithm of the
determinant. -/
theorem C63_logDeterminant {A : Mat ℝ} {n : Nat} {F : Nat → Nat → ℝ} (hA : IsMat A n n F)
    (hF : Symm n F) (hP : PosDef n F) (hn : n ≠ 0) (s : CholeskySystem ℝ) :
    ∃ s', (s.setMatrix A).factorize Real.sqrt = .ok s' ∧ s'.done = true ∧
      s'.calculateLogDeterminant Real.log = .ok (Real.log (toMatrix n F).det) := by
  have hmain := cholesky_ok isSqrt_real hA hF
  rcases hmain with ⟨-, x, a, ha, hx1, hx2⟩ | ⟨⟨L, ret⟩, h1, h2⟩
  · have := hP x ⟨a, ha, by rw [hx1]; exact one_ne_zero⟩
    rw [hx2] at this
    exact absurd this (lt_irrefl _)
  · rcases h2 with ⟨rfl, G, h3, h4⟩ | ⟨-, x, a, ha, hx1, hx2⟩
    · have hpos := chol_diag_pos hF h4 hP
      refine ⟨{ s.setMatrix A with fact := L, done := true }, bind_eq h1 rfl, rfl, ?_⟩
      unfold CholeskySystem.calculateLogDeterminant
      simp only [Bool.true_eq_false, if_false]
      refine bind_eq (diag_ok h3 hn) ?_
      have hdim : (s.setMatrix A).dimension = n := hA.1
      rw [hdim]
      refine bind_eq (sumLoop_ok (g := fun i => Real.log (G i i)) ?_) ?_
      · intro i hi
        refine bind_eq (a := G i i) ?_ ?_
        · simp [vat, hi, lowerPart]
        · rw [if_neg (not_le.2 (hpos i hi))]
      · have hp := chol_product hF h4
        have hl : ∀ i j, i < n → j < n → i < j → lowerPart G i j = 0 := by
          intro i j _ _ hij; simp only [lowerPart]; rw [if_neg (by omega)]
        rw [det_gram hl hp, Real.log_pow, Real.log_prod]
        · simp [lowerPart]
        · intro i hi
          rw [Finset.mem_range] at hi
          simp only [lowerPart, le_refl, if_true]
          exact (hpos i hi).ne'
    · exact absurd (hP x ⟨a, ha, by rw [hx1]; exact one_ne_zero⟩) (not_lt.2 hx2.le)

example : ∃ s', (CholeskySystem.new.setMatrix ⟨2, 2, [4, 2, 2, 5]⟩).factorize (fun x : ℚ => x / 2)
    = .ok s' ∧ s'.done = true ∧ s'.calculateDeterminant = .ok 16 := by
  refine ⟨⟨2, ⟨2, 2, [4, 2, 2, 5]⟩, ⟨2, 2, [2, 1, 0, 2]⟩, true⟩, ?_, rfl, ?_⟩ <;> decide +kernel

end Rodeo
