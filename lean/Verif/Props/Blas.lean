import Verif.Lemmas.BlasReal
import Verif.Props.Linear
import Verif.Props.CorrPD

/-! # C122, C123, C124: builds with OpenBLAS

`Documented B` (Spec/Blas.lean) is the documented behaviour of the library in exact arithmetic. -/

set_option linter.unusedSectionVars false

namespace Rodeo
open Spec Mat

variable {K : Type} [Field K] [LinearOrder K] [IsStrictOrderedRing K]

/-! ## C123: what the solvers do with the library -/

/-- Cholesky: success is reported exactly for the positive definite matrices; then the factor is
lower triangular with a positive diagonal, its product with its transpose is the matrix, and every
right-hand side of matching size is solved exactly (the others are rejected). -/
theorem C123_cholesky {B : Blas K} (hB : Documented B) {A : Mat K} {n : Nat} {F : Nat → Nat → K}
    (hA : IsMat A n n F) (hF : Symm n F) (hn : 0 < n) :
    ∃ L ret, Lib.cholesky B A = .ok (L, ret) ∧ (ret = 1 ∨ ret = -1) ∧ (ret = 1 ↔ PosDef n F) ∧
      (ret = 1 → (∃ G, IsMat L n n G ∧ (∀ i j, i < n → j < n → i < j → G i j = 0) ∧
          (∀ i, i < n → 0 < G i i) ∧
          ∀ i j, i < n → j < n → ∑ k ∈ Finset.range n, G i k * G j k = F i j) ∧
        ∀ b : List K, if b.length ≠ n then Lib.solveCholesky B L b = .error .invalidArgument
          else ∃ x, Lib.solveCholesky B L b = .ok x ∧ x.length = n ∧
            Solves n F (vecFun x) (vecFun b)) := by
  obtain ⟨h1, h2⟩ := Lib.cholesky_ok hB hA hF hn
  by_cases hP : PosDef n F
  · obtain ⟨L, G, e1, e2, e3, e4, e5⟩ := h1 hP
    refine ⟨L, 1, e1, Or.inl rfl, ⟨fun _ => hP, fun _ => rfl⟩, fun _ => ⟨⟨G, e2, e3, e4, e5⟩, ?_⟩⟩
    intro b
    split_ifs with hb
    · unfold Lib.solveCholesky
      rw [if_pos (by have := e2.1; omega)]
    · exact Lib.solveCholesky_ok hB e2 e3 (fun i hi => (e4 i hi).ne') e5 hn (by omega)
  · obtain ⟨L, e1⟩ := h2 hP
    exact ⟨L, -1, e1, Or.inr rfl, ⟨fun h => absurd h (by decide), fun h => absurd h hP⟩,
      fun h => absurd h (by decide)⟩

theorem Lib.tab_buf {A : Mat K} {n : Nat} {F : Nat → Nat → K} (hA : IsMat A n n F) :
    tab (n * n) (fun i => rawAt A.buf i) = .ok A.buf := by
  refine tab_ok_list hA.2.2.1 (fun j hj => ?_)
  simp [rawAt, hj]

theorem Lib.lu_eq {B : Blas K} {A : Mat K} {n : Nat} {F : Nat → Nat → K}
    (hA : IsMat A n n F) : Lib.lu B A =
      if (B.getrf n A.buf n).2.2 < 0 then .error .runtimeError
      else if (B.getrf n A.buf n).2.2 > 0 then .ok none
      else .ok (some (⟨n, n, (B.getrf n A.buf n).1⟩, (B.getrf n A.buf n).2.1)) := by
  obtain ⟨hr, hc, hl, -⟩ := id hA
  unfold Lib.lu
  rw [if_neg (by omega), hr, hc]
  refine bind_eq (Lib.tab_buf hA) (bind_eq (a := B.getrf n A.buf n) ?_ rfl)
  unfold Lib.guarded
  rw [Lib.fits_true (by omega), if_pos rfl]

theorem Lib.lu_det {A : Mat K} {n : Nat} {F : Nat → Nat → K} (hA : IsMat A n n F) :
    toMatrix n (entry A.buf n) = toMatrix n F :=
  toMatrix_congr (fun _ _ hi hj => entry_isMat hA hi hj)

/-- The LU object: `setMatrix`, `factorize`, `solveLinearSystem`.  The factorization succeeds exactly
for the nonsingular matrices; then every right-hand side of matching size is solved exactly.
Otherwise solving is refused. -/
theorem C123_lu {B : Blas K} (hB : Documented B) {A : Mat K} {n : Nat} {F : Nat → Nat → K}
    (hA : IsMat A n n F) (hn : 0 < n) (s : LUSystem K) :
    ∃ s', Lib.luFactorize B (s.setMatrix A) = .ok s' ∧
      (s'.done = true ↔ (toMatrix n F).det ≠ 0) ∧
      ∀ b : List K, if b.length ≠ n then Lib.luSolveLinearSystem B s' b = .error .invalidArgument
        else if s'.done = true then ∃ x, Lib.luSolveLinearSystem B s' b = .ok x ∧ x.length = n ∧
          Solves n F (vecFun x) (vecFun b)
        else Lib.luSolveLinearSystem B s' b = .error .abort := by
  obtain ⟨hr, hc, hl, -⟩ := id hA
  obtain ⟨g1, g2, g3, g4⟩ := hB.getrf n A.buf n hn le_rfl (by omega)
  rw [Lib.lu_det hA] at g3 g4
  by_cases hdet : (toMatrix n F).det = 0
  · refine ⟨{ s.setMatrix A with fact := some Mat.empty, done := false }, ?_, ?_, ?_⟩
    · unfold Lib.luFactorize
      refine bind_eq (a := none) ?_ rfl
      show Lib.lu B A = _
      rw [Lib.lu_eq hA, if_neg (by have := g4 hdet; omega), if_pos (g4 hdet)]
    · simp [hdet]
    · intro b
      rw [if_neg (by simp : ¬ (false = true))]
      unfold Lib.luSolveLinearSystem LUSystem.setMatrix
      simp only [hr]
      split_ifs with hb
      · rfl
      · rfl
  · have h0 := g3 hdet
    refine ⟨{ s.setMatrix A with
        fact := some ⟨n, n, (B.getrf n A.buf n).1⟩, pivots := (B.getrf n A.buf n).2.1, done := true },
      ?_, ?_, ?_⟩
    · unfold Lib.luFactorize
      refine bind_eq (a := some (⟨n, n, (B.getrf n A.buf n).1⟩, (B.getrf n A.buf n).2.1)) ?_ rfl
      show Lib.lu B A = _
      rw [Lib.lu_eq hA, if_neg (by omega), if_neg (by omega)]
    · simp [hdet]
    · intro b
      rw [if_pos (rfl : (true = true))]
      unfold Lib.luSolveLinearSystem LUSystem.setMatrix
      simp only [hr]
      by_cases hb : b.length = n
      · rw [if_neg (by omega)]
        obtain ⟨q1, q2, q3⟩ := hB.getrs n A.buf n b n hn le_rfl (by omega) le_rfl (by omega) h0
        refine ⟨_, ?_, by rw [q2]; exact hb, solves_congr (fun i j hi hj => entry_isMat hA hi hj) q3⟩
        rw [if_neg (by omega), if_neg (by simp)]
        unfold Lib.solveLU
        rw [if_neg (by simp; omega)]
        refine bind_eq (a := B.getrs n (B.getrf n A.buf n).1 n (B.getrf n A.buf n).2.1 b n) ?_ ?_
        · unfold Lib.guarded
          rw [Lib.fits_true (by simp only; omega)]
          rw [if_pos (by simp; omega)]
        · rw [if_neg (by omega)]
      · rw [if_pos hb, if_pos (by omega)]

/-- The inverse exists and is two-sided for every nonsingular matrix; a singular one is refused. -/
theorem C123_inverse {B : Blas K} (hB : Documented B) {A : Mat K} {n : Nat} {F : Nat → Nat → K}
    (hA : IsMat A n n F) (hn : 0 < n) :
    if (toMatrix n F).det = 0 then Lib.invert B A = .error .runtimeError
    else ∃ C G, Lib.invert B A = .ok C ∧ IsMat C n n G ∧
      (∀ i j, i < n → j < n → ∑ k ∈ Finset.range n, F i k * G k j = if i = j then 1 else 0) ∧
      (∀ i j, i < n → j < n → ∑ k ∈ Finset.range n, G i k * F k j = if i = j then 1 else 0) := by
  obtain ⟨hr, hc, hl, -⟩ := id hA
  obtain ⟨g1, g2, g3, g4⟩ := hB.getrf n A.buf n hn le_rfl (by omega)
  rw [Lib.lu_det hA] at g3 g4
  have e : Lib.guarded (Lib.fits A.buf n n) (B.getrf n A.buf n) = .ok (B.getrf n A.buf n) := by
    unfold Lib.guarded; rw [Lib.fits_true (by omega), if_pos rfl]
  split_ifs with hdet
  · unfold Lib.invert
    rw [if_neg (by omega), hr, hc]
    refine bind_eq e ?_
    rw [if_pos (by have := g4 hdet; omega)]
  · have h0 := g3 hdet
    obtain ⟨q1, q2, q3⟩ := hB.getri n A.buf n (n * 64) hn le_rfl (by omega) (by omega) h0
    have hinv : ∀ i j, i < n → j < n → ∑ k ∈ Finset.range n, F i k *
        entry (B.getri n (B.getrf n A.buf n).1 n (B.getrf n A.buf n).2.1 (n * 64)).1 n k j =
          if i = j then 1 else 0 := by
      intro i j hi hj
      rw [← q3 i j hi hj]
      exact Finset.sum_congr rfl (fun k hk => by rw [entry_isMat hA hi (Finset.mem_range.1 hk)])
    refine ⟨_, _, ?_, isMat_entry (by rw [q2]; exact hl), hinv, left_inverse_of_right hinv⟩
    unfold Lib.invert
    rw [if_neg (by omega), hr, hc]
    refine bind_eq e ?_
    rw [if_neg (by omega)]
    refine bind_eq (a := B.getri n (B.getrf n A.buf n).1 n (B.getrf n A.buf n).2.1 (n * 64)) ?_ ?_
    · unfold Lib.guarded; rw [Lib.fits_true (by omega), if_pos rfl]
    · rw [if_neg (by omega)]

/-- `solve` returns the solution for every nonsingular matrix and throws for every singular one. -/
theorem C123_solve {B : Blas K} (hB : Documented B) {A : Mat K} {n : Nat} {F : Nat → Nat → K}
    (hA : IsMat A n n F) (hn : 0 < n) (b : List K) :
    if b.length ≠ n then Lib.solve B A b = .error .invalidArgument
    else if (toMatrix n F).det = 0 then Lib.solve B A b = .error .runtimeError
    else ∃ x, Lib.solve B A b = .ok x ∧ x.length = n ∧ Solves n F (vecFun x) (vecFun b) := by
  obtain ⟨hr, hc, hl, -⟩ := id hA
  split_ifs with hb hdet
  · unfold Lib.solve
    rw [if_neg (by omega), if_pos (by omega)]
  all_goals
    push Not at hb
    obtain ⟨g1, g2⟩ := hB.gesv n A.buf n b n hn le_rfl (by omega) le_rfl (by omega)
    rw [Lib.lu_det hA] at g1 g2
    have e : Lib.guarded (Lib.fits A.buf n n && decide (n ≤ b.length)) (B.gesv n A.buf n b n) =
        .ok (B.gesv n A.buf n b n) := by
      unfold Lib.guarded; rw [Lib.fits_true (by omega), if_pos (by simp; omega)]
  · unfold Lib.solve
    rw [if_neg (by omega), if_neg (by omega), hr]
    refine bind_eq e ?_
    have := g2 hdet
    rw [if_neg (by omega), if_pos (by omega)]
  · obtain ⟨q1, q2, q3⟩ := g1 hdet
    refine ⟨(B.gesv n A.buf n b n).1, ?_, by omega, solves_congr
      (fun i j hi hj => entry_isMat hA hi hj) q3⟩
    unfold Lib.solve
    rw [if_neg (by omega), if_neg (by omega), hr]
    refine bind_eq e ?_
    rw [if_neg (by omega), if_neg (by omega)]

/-- Matrices that are not square are refused by all of them. -/
theorem C123_nonsquare (B : Blas K) (A : Mat K) (h : A.nrows ≠ A.ncols) (b : List K) (p : List Nat) :
    Lib.cholesky B A = .error .invalidArgument ∧ Lib.lu B A = .error .invalidArgument ∧
    Lib.invert B A = .error .invalidArgument ∧ Lib.solve B A b = .error .invalidArgument ∧
    Lib.solveCholesky B A b = .error .invalidArgument ∧
    Lib.solveLU B A p b = .error .invalidArgument := by
  refine ⟨?_, ?_, ?_, ?_, ?_, ?_⟩
  · unfold Lib.cholesky; rw [if_pos h]
  · unfold Lib.lu; rw [if_pos h]
  · unfold Lib.invert; rw [if_pos h]
  · unfold Lib.solve; rw [if_pos h]
  · unfold Lib.solveCholesky; rw [if_pos (Or.inl h)]
  · unfold Lib.solveLU; rw [if_pos (Or.inl h)]

/-- The empty matrix is an illegal argument for the library: LU, inverse and `solve` throw, Cholesky
reports success. -/
theorem C123_empty {B : Blas K} (hB : Documented B) :
    Lib.lu B Mat.empty = .error .runtimeError ∧ Lib.invert B Mat.empty = .error .runtimeError ∧
    Lib.solve B Mat.empty [] = .error .runtimeError ∧
    Lib.cholesky B Mat.empty = .ok (Mat.empty, 1) := by
  obtain ⟨h1, h1', h2, h3⟩ := hB.illegal 0 [] 0 (by simp)
  have h3 := h3 [] 0
  have hE : IsMat (Mat.empty : Mat K) 0 0 (fun _ _ => 0) := ⟨rfl, rfl, rfl, fun i j hi => by omega⟩
  refine ⟨?_, ?_, ?_, ?_⟩
  · rw [Lib.lu_eq hE]; exact if_pos h2
  · show (if (B.getrf 0 [] 0).2.2 ≠ 0 then _ else _ : Res (Mat K)) = _
    rw [if_pos (by omega)]
  · show (if (B.gesv 0 [] 0 [] 0).2 < 0 then _ else _ : Res (List K)) = _
    rw [if_pos h3]
  · show (if (B.potrf 0 [] 0).2 > 0 then _ else _ : Res (Mat K × Int)) = _
    rw [if_neg (by omega)]
    show (do
      let d ← forRange 0 _ (List.map some (B.potrf 0 [] 0).1)
      let l ← Mem.freeze d
      Except.ok ((⟨0, 0, l⟩ : Mat K), (1 : Int))) = _
    rw [h1']
    rfl

/-! ## C122: the same results in both builds -/

/-- Scalar products and `scaleAndAdd` are the same in both builds, for all vectors. -/
theorem C122_vectors {B : Blas K} (hB : Documented B) (v w : List K) (a : K) :
    Lib.dot B v w = Vec.dot v w ∧ Lib.scaleAndAdd B v a w = Vec.scaleAndAddVec v a w :=
  ⟨Lib.dot_eq hB v w, Lib.scaleAndAdd_eq hB v a w⟩

/-- Products of nonempty matrices are the same in both builds. -/
theorem C122_products {B : Blas K} (hB : Documented B) {A C : Mat K} {n m m' q : Nat}
    {F G : Nat → Nat → K} (hA : IsMat A n m F) (hC : IsMat C m' q G) (hn : 0 < n) (hm : 0 < m)
    (hq : 0 < q) (v : List K) :
    Lib.matVecProduct B A v = Mat.matVecProduct A v ∧
    Lib.matMatProduct B A C = Mat.matMatProduct A C :=
  ⟨Lib.matVecProduct_eq hB hA hn hm v, Lib.matMatProduct_eq hB hA hC hn hm hq⟩

/-- Correlations and correlation matrices are the same in both builds, also where a power is not
finite. -/
theorem C122_correlations {B : Blas K} (hB : Documented B) (exp : K → K) (pow : K → K → Res K) :
    (∀ (v w theta gamma : List K) (n : Nat), n ≤ v.length → n ≤ w.length → n ≤ theta.length →
      Lib.gaussian B exp v w theta n = Corr.gaussian exp v w theta n ∧
      (n ≤ gamma.length → Lib.exponential B exp pow v w theta gamma n =
        Corr.exponential exp pow v w theta gamma n)) ∧
    ∀ (X : Mat K) (theta gamma : List K),
      Lib.corrMatrixGaussian B exp X theta = Corr.corrMatrixGaussian exp X theta ∧
      Lib.corrMatrixExponential B exp pow X theta gamma =
        Corr.corrMatrixExponential exp pow X theta gamma := by
  refine ⟨fun v w theta gamma n h1 h2 h3 => ⟨Lib.gaussian_eq hB h1 h2 h3,
    fun h4 => Lib.exponential_eq hB h1 h2 h3 h4⟩, fun X theta gamma => ⟨?_, ?_⟩⟩
  · unfold Lib.corrMatrixGaussian Corr.corrMatrixGaussian
    split_ifs with h
    · rfl
    · push Not at h
      exact corrMatrixNaive_congr (fun a b ha hb =>
        Lib.gaussian_eq hB (by omega) (by omega) (by omega))
  · unfold Lib.corrMatrixExponential Corr.corrMatrixExponential
    split_ifs with h1 h2
    · rfl
    · rfl
    · push Not at h1 h2
      exact corrMatrixNaive_congr (fun a b ha hb =>
        Lib.exponential_eq hB (by omega) (by omega) (by omega) (by omega))

/-- A positive definite matrix has the same Cholesky factor in both builds, and all solves agree. -/
theorem Lib.cholesky_eq {B : Blas K} (hB : Documented B) {A : Mat K} {n : Nat}
    {F : Nat → Nat → K} {sqrt : K → K} (hs : IsSqrt sqrt) (hA : IsMat A n n F) (hF : Symm n F)
    (hn : 0 < n) (hP : PosDef n F) :
    ∃ L, Lib.cholesky B A = .ok (L, 1) ∧ Mat.cholesky sqrt A = .ok (L, 1) ∧
      ∀ b : List K, Lib.solveCholesky B L b = Mat.solveCholesky L b := by
  obtain ⟨L, G, e1, e2, e3, e4, e5⟩ := (Lib.cholesky_ok hB hA hF hn).1 hP
  obtain ⟨c1, c2, -, -⟩ := C48_partial hs hA hF
  obtain ⟨L', G', f1, f2, f3, f4⟩ := c1 hP
  obtain ⟨-, H, k1, k2, k3, -⟩ := c2 L' f1
  have hGH := (isMat_unique f2 k1).2.2
  have hLL : L = L' := by
    refine mat_ext e2 k1 (fun i j hi hj => ?_)
    exact factor_unique e3 k2 e4 (fun a ha => by rw [← hGH a a ha ha]; exact f3 a ha)
      (fun a b ha hb => by rw [e5 a b ha hb, k3 a b ha hb]) j hj i hi
  subst hLL
  refine ⟨L, e1, f1, fun b => ?_⟩
  by_cases hb : b.length = n
  · obtain ⟨x, x1, x2, x3⟩ := Lib.solveCholesky_ok hB e2 e3 (fun i hi => (e4 i hi).ne') e5 hn hb
    obtain ⟨z, z1, z2, z3⟩ := f4 b hb
    rw [x1, z1]
    congr 1
    refine list_ext_vecFun (by omega) (fun i hi => ?_)
    exact solves_unique_det (det_ne_zero_of_gram e3 (fun i hi => (e4 i hi).ne') e5) x3 z3 i (by omega)
  · unfold Lib.solveCholesky Mat.solveCholesky
    have := e2.1
    rw [if_pos (by omega), if_pos (by omega)]

/-- The full property: the two builds give the same Cholesky factor and flag for every symmetric
matrix and the same inverse for every square matrix. -/
def C122_full (K : Type) [Field K] [LinearOrder K] [IsStrictOrderedRing K] (sqrt : K → K) : Prop :=
  ∀ (B : Blas K), Documented B → ∀ (A : Mat K) (n : Nat) (F : Nat → Nat → K), IsMat A n n F →
    0 < n → (Symm n F → Lib.cholesky B A = cholesky sqrt A) ∧ Lib.invert B A = invert A

/-- Not true: the zero matrix is factorized without the library and refused with it. -/
theorem C122_false {B : Blas K} (hB : Documented B) (sqrt : K → K) : ¬ C122_full K sqrt := by
  intro h
  have hA : IsMat (⟨1, 1, [0]⟩ : Mat K) 1 1 (fun _ _ => 0) := ⟨rfl, rfl, rfl, by
      intro i j hi hj
      have : i = 0 := by omega
      have : j = 0 := by omega
      subst i j; rfl⟩
  obtain ⟨L, e⟩ := (Lib.cholesky_ok hB hA (fun _ _ _ _ => rfl) one_pos).2 (fun hP => by
    have := hP (fun _ => 1) ⟨0, one_pos, one_ne_zero⟩
    simp [quadForm] at this)
  have h3 : cholesky sqrt (⟨1, 1, [0]⟩ : Mat K) = .ok (⟨1, 1, [sqrt 0]⟩, 1) := by
    simp [cholesky, choleskyRow, forRange, loopFrom, sumLoop, forFromTo, Mem.zeros, Mem.wr,
      Mem.freeze, tab, tabFrom, rawAt, bind, Except.bind]
  have := (h B hB _ 1 _ hA one_pos).1 (fun _ _ _ _ => rfl)
  rw [e, h3] at this
  cases this

/-- The inverses differ as well: without the library a matrix with a pivot below 1e-9 is refused. -/
theorem C122_false_inverse {B : Blas K} (hB : Documented B) :
    ∃ A : Mat K, ∃ C, Lib.invert B A = .ok C ∧ invert A = .error .runtimeError := by
  have hA : IsMat (⟨1, 1, [1 / 10 ^ 10]⟩ : Mat K) 1 1 (fun _ _ => 1 / 10 ^ 10) := ⟨rfl, rfl, rfl, by
      intro i j hi hj
      have : i = 0 := by omega
      have : j = 0 := by omega
      subst i j; rfl⟩
  have h := C123_inverse hB hA one_pos
  rw [if_neg (by rw [Matrix.det_fin_one]; simp [toMatrix])] at h
  obtain ⟨C, G, e, -⟩ := h
  refine ⟨_, C, e, ?_⟩
  rcases C46_inverse hA with ⟨LU, p, -, -, h1, -⟩ | ⟨-, h1⟩
  · exfalso
    have h2 : lu (⟨1, 1, [1 / 10 ^ 10]⟩ : Mat K) = .ok none := by
      have hlt : |(1 / 10 ^ 10 : K)| < pivotTol := by
        unfold pivotTol
        rw [abs_of_pos (by positivity)]
        exact div_lt_div_of_pos_right (by norm_num) (by positivity)
      have h10 : ((10 : K) ^ 10)⁻¹ < pivotTol := by
        rw [← one_div]; rwa [abs_of_pos (by positivity)] at hlt
      simp [lu, luDecomposition, forRange, loopFrom, Mem.alloc, Mem.wr, rawAt, luStep, luPivotRow,
        luSwap, forFromTo, Mem.rd, bind, Except.bind, h10]
    rw [h2] at h1
    cases h1
  · exact h1

/-- What holds: the same factor, flag and solutions for every positive definite matrix, failure with
the library for every other symmetric matrix, the same inverse wherever the built-in one succeeds,
and the same solutions of the LU objects wherever the built-in factorization succeeds.  Missing:
semidefinite matrices and small pivots, where the builds differ (`C122_false`,
`C122_false_inverse`). -/
theorem C122_partial {B : Blas K} (hB : Documented B) {A : Mat K} {n : Nat} {F : Nat → Nat → K}
    (hA : IsMat A n n F) (hn : 0 < n) :
    (∀ sqrt : K → K, IsSqrt sqrt → Symm n F →
      (PosDef n F → ∃ L, Lib.cholesky B A = .ok (L, 1) ∧ cholesky sqrt A = .ok (L, 1) ∧
        ∀ b : List K, Lib.solveCholesky B L b = solveCholesky L b) ∧
      (¬ PosDef n F → ∃ L, Lib.cholesky B A = .ok (L, -1))) ∧
    (∀ C, invert A = .ok C → Lib.invert B A = .ok C) ∧
    (∀ s s1 : LUSystem K, (s.setMatrix A).factorize = .ok s1 → s1.done = true →
      ∃ s2, Lib.luFactorize B (s.setMatrix A) = .ok s2 ∧ s2.done = true ∧
        ∀ b : List K, Lib.luSolveLinearSystem B s2 b = s1.solveLinearSystem b) := by
  have hdet : ∀ C, invert A = .ok C → (toMatrix n F).det ≠ 0 := by
    intro C hC h0
    have h1 := C46_singular hA h0
    rcases C46_inverse hA with ⟨LU, p, -, -, h2, -⟩ | ⟨-, h2⟩
    · rw [h1] at h2; cases h2
    · rw [h2] at hC; cases hC
  refine ⟨fun sqrt hs hF => ⟨Lib.cholesky_eq hB hs hA hF hn, (Lib.cholesky_ok hB hA hF hn).2⟩, ?_, ?_⟩
  · intro C hC
    have h := C123_inverse hB hA hn
    rw [if_neg (hdet C hC)] at h
    obtain ⟨D, G, e, hD, hG, -⟩ := h
    rcases C46_inverse hA with ⟨LU, p, C', H, -, h2, hC', hH, -⟩ | ⟨-, h2⟩
    · rw [h2] at hC
      cases hC
      rw [e, mat_ext hD hC' (right_inverse_unique hG hH)]
    · rw [h2] at hC; cases hC
  · intro s s1 h1 h2
    obtain ⟨s1', e1, h3⟩ := C46_object hA s
    rw [h1] at e1
    cases e1
    rw [if_pos h2] at h3
    have hdet : (toMatrix n F).det ≠ 0 := by
      refine det_ne_zero_of_solvable (fun b => ?_)
      obtain ⟨x, -, -, hx⟩ := h3 ((List.range n).map b) (by simp)
      refine ⟨vecFun x, fun i hi => ?_⟩
      rw [hx i hi]
      simp [vecFun, List.getD, hi]
    obtain ⟨s2, e2, h4, h5⟩ := C123_lu hB hA hn s
    refine ⟨s2, e2, h4.2 hdet, fun b => ?_⟩
    have h5 := h5 b
    have hdim : s1.dimension = n := by
      unfold LUSystem.factorize at h1
      obtain ⟨r, -, h1⟩ := bind_ok_inv h1
      rcases r with _ | ⟨LU, p⟩ <;> (cases h1; exact hA.1)
    by_cases hb : b.length = n
    · rw [if_neg (by omega), if_pos (h4.2 hdet)] at h5
      obtain ⟨x, x1, x2, x3⟩ := h5
      obtain ⟨z, z1, z2, z3⟩ := h3 b hb
      rw [x1, z1]
      congr 1
      exact list_ext_vecFun (by omega) (fun i hi => solves_unique_det hdet x3 z3 i (by omega))
    · rw [if_pos hb] at h5
      rw [h5]
      unfold LUSystem.solveLinearSystem
      rw [if_pos (by omega)]

/-- Without the library `solve` always throws (matrix.cpp 1967-1971); this is the only function whose
two variants have nothing in common. -/
theorem C122_solve {B : Blas K} (hB : Documented B) {A : Mat K} {n : Nat} {F : Nat → Nat → K}
    (hA : IsMat A n n F) (hn : 0 < n) {b : List K} (hb : b.length = n) :
    Lib.solve B A b = .error .runtimeError ↔ (toMatrix n F).det = 0 := by
  have h := C123_solve hB hA hn b
  rw [if_neg (by omega)] at h
  by_cases hd : (toMatrix n F).det = 0
  · rw [if_pos hd] at h; simp [h, hd]
  · rw [if_neg hd] at h
    obtain ⟨x, e, -⟩ := h
    simp [e, hd]

/-! ## Concrete cases -/

/-- A positive definite matrix. -/
theorem exBlas_isMat : IsMat (⟨2, 2, [4, 2, 2, 5]⟩ : Mat ℝ) 2 2
    (fun i j => ([4, 2, 2, 5] : List ℝ).getD (j * 2 + i) 0) := by
  refine isMat_iff.2 ⟨rfl, rfl, rfl, fun i j hi hj => ?_⟩
  rcases (by omega : i = 0 ∨ i = 1) with rfl | rfl <;>
    rcases (by omega : j = 0 ∨ j = 1) with rfl | rfl <;> rfl

theorem exBlas_symm : Symm 2 (fun i j => ([4, 2, 2, 5] : List ℝ).getD (j * 2 + i) 0) := by
  intro i j hi hj
  rcases (by omega : i = 0 ∨ i = 1) with rfl | rfl <;>
    rcases (by omega : j = 0 ∨ j = 1) with rfl | rfl <;> norm_num

theorem exBlas_posDef : PosDef 2 (fun i j => ([4, 2, 2, 5] : List ℝ).getD (j * 2 + i) 0) := by
  rintro x ⟨i, hi, hne⟩
  simp only [quadForm, Finset.sum_range_succ, Finset.sum_range_zero]
  norm_num
  rcases (by omega : i = 0 ∨ i = 1) with rfl | rfl
  · have := mul_self_pos.2 hne
    nlinarith [sq_nonneg (x 0 + 5 / 2 * x 1), sq_nonneg (x 1)]
  · have := mul_self_pos.2 hne
    nlinarith [sq_nonneg (2 * x 0 + x 1)]

theorem exBlas_det : (toMatrix 2 (fun i j => ([4, 2, 2, 5] : List ℝ).getD (j * 2 + i) 0)).det ≠ 0 := by
  rw [Matrix.det_fin_two]
  norm_num [toMatrix]

/-- There is a library with the documented behaviour, and with it the matrix is factorized. -/
example : ∃ L, Lib.cholesky realBlas (⟨2, 2, [4, 2, 2, 5]⟩ : Mat ℝ) = .ok (L, 1) ∧
    cholesky Real.sqrt (⟨2, 2, [4, 2, 2, 5]⟩ : Mat ℝ) = .ok (L, 1) ∧
    ∀ b : List ℝ, Lib.solveCholesky realBlas L b = solveCholesky L b :=
  ((C122_partial realBlas_documented exBlas_isMat (by norm_num)).1 Real.sqrt isSqrt_real
    exBlas_symm).1 exBlas_posDef
example : ∃ s', Lib.luFactorize realBlas (LUSystem.new.setMatrix ⟨2, 2, [4, 2, 2, 5]⟩) = .ok s' ∧
    s'.done = true := by
  obtain ⟨s', h1, h2, -⟩ := C123_lu realBlas_documented exBlas_isMat (by norm_num) LUSystem.new
  exact ⟨s', h1, h2.2 exBlas_det⟩
example : ¬ C122_full ℝ Real.sqrt := C122_false realBlas_documented _
example : ∃ A : Mat ℝ, ∃ C, Lib.invert realBlas A = .ok C ∧ invert A = .error .runtimeError :=
  C122_false_inverse realBlas_documented
example : Lib.dot realBlas [1, 2] [3, 4] = Vec.dot [1, 2] [3, 4] :=
  (C122_vectors realBlas_documented _ _ 0).1

end Rodeo
