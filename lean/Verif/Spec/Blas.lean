import Verif.Model.Blas
import Verif.Spec.Mat
import Verif.Spec.LinSys
import Mathlib.LinearAlgebra.Matrix.Determinant.Basic

/-! # What the documentation of BLAS and LAPACK promises

The part of the documentation of the routines that the wrappers of `LinearAlgebra` rely on, in exact
arithmetic.  Nothing is promised for blocks that are too small; for sizes or leading dimensions that
are not allowed LAPACK promises a negative `info` and BLAS nothing. -/

namespace Rodeo.Spec

variable {K : Type} [Field K] [LinearOrder K] [IsStrictOrderedRing K]

/-- Row `i`, column `j` of the column major block `a` with leading dimension `ld`. -/
def entry (a : List K) (ld i j : Nat) : K := a.getD (j * ld + i) 0

/-- The lower triangular matrix stored in the lower triangle of the block. -/
def lowerTri (a : List K) (ld i j : Nat) : K := if j ≤ i then entry a ld i j else 0

/-- The symmetric matrix stored in the lower triangle of the block. -/
def symTri (a : List K) (ld i j : Nat) : K := if j ≤ i then entry a ld i j else entry a ld j i

/-- The documented behaviour. -/
structure Documented (B : Blas K) : Prop where
  /-- Scalar product. -/
  dot : ∀ (n : Nat) (x y : List K), n ≤ x.length → n ≤ y.length →
    B.dot n x y = ∑ i ∈ Finset.range n, vecFun x i * vecFun y i
  /-- `y := x`. -/
  copy : ∀ (n : Nat) (x y : List K), n ≤ x.length → n ≤ y.length →
    (B.copy n x y).length = y.length ∧ ∀ i, i < n → vecFun (B.copy n x y) i = vecFun x i
  /-- `y := a x + y`. -/
  axpy : ∀ (n : Nat) (a : K) (x y : List K), n ≤ x.length → n ≤ y.length →
    (B.axpy n a x y).length = y.length ∧
      ∀ i, i < n → vecFun (B.axpy n a x y) i = a * vecFun x i + vecFun y i
  /-- `y := alpha A x + beta y` with an `m x n` matrix. -/
  gemv : ∀ (m n : Nat) (alpha : K) (a : List K) (lda : Nat) (x : List K) (beta : K) (y : List K),
    0 < m → 0 < n → m ≤ lda → lda * n ≤ a.length → n ≤ x.length → m ≤ y.length →
    (B.gemv m n alpha a lda x beta y).length = y.length ∧
      ∀ i, i < m → vecFun (B.gemv m n alpha a lda x beta y) i =
        alpha * (∑ j ∈ Finset.range n, entry a lda i j * vecFun x j) + beta * vecFun y i
  /-- `C := alpha A B + beta C` with an `m x k` and a `k x n` matrix. -/
  gemm : ∀ (m n k : Nat) (alpha : K) (a : List K) (lda : Nat) (b : List K) (ldb : Nat) (beta : K)
      (c : List K) (ldc : Nat), 0 < m → 0 < n → 0 < k → m ≤ lda → k ≤ ldb → m ≤ ldc →
    lda * k ≤ a.length → ldb * n ≤ b.length → ldc * n ≤ c.length →
    (B.gemm m n k alpha a lda b ldb beta c ldc).length = c.length ∧
      ∀ i j, i < m → j < n → entry (B.gemm m n k alpha a lda b ldb beta c ldc) ldc i j =
        alpha * (∑ l ∈ Finset.range k, entry a lda i l * entry b ldb l j) + beta * entry c ldc i j
  /-- Solution of `L x = b` for the lower triangle `L` of the block. -/
  trsv : ∀ (n : Nat) (a : List K) (lda : Nat) (x : List K), 0 < n → n ≤ lda → lda * n ≤ a.length →
    n ≤ x.length → (∀ i, i < n → entry a lda i i ≠ 0) →
    (B.trsv false n a lda x).length = x.length ∧
      Solves n (lowerTri a lda) (vecFun (B.trsv false n a lda x)) (vecFun x)
  /-- Solution of `L^T x = b`. -/
  trsvT : ∀ (n : Nat) (a : List K) (lda : Nat) (x : List K), 0 < n → n ≤ lda → lda * n ≤ a.length →
    n ≤ x.length → (∀ i, i < n → entry a lda i i ≠ 0) →
    (B.trsv true n a lda x).length = x.length ∧
      Solves n (fun i j => lowerTri a lda j i) (vecFun (B.trsv true n a lda x)) (vecFun x)
  /-- Cholesky factorization of the symmetric matrix in the lower triangle: if it is positive
  definite, `info` is zero and the lower triangle of the result has a positive diagonal and its
  product with its transpose is the matrix; otherwise `info` is positive. -/
  potrf : ∀ (n : Nat) (a : List K) (lda : Nat), 0 < n → n ≤ lda → lda * n ≤ a.length →
    (PosDef n (symTri a lda) → (B.potrf n a lda).2 = 0 ∧
      (B.potrf n a lda).1.length = a.length ∧
      (∀ i, i < n → 0 < entry (B.potrf n a lda).1 lda i i) ∧
      ∀ i j, i < n → j < n → ∑ k ∈ Finset.range n,
        lowerTri (B.potrf n a lda).1 lda i k * lowerTri (B.potrf n a lda).1 lda j k =
          symTri a lda i j) ∧
    (¬ PosDef n (symTri a lda) → 0 < (B.potrf n a lda).2 ∧
      (B.potrf n a lda).1.length = a.length)
  /-- LU factorization: `info` is zero for a nonsingular matrix and positive for a singular one. -/
  getrf : ∀ (n : Nat) (a : List K) (lda : Nat), 0 < n → n ≤ lda → lda * n ≤ a.length →
    (B.getrf n a lda).1.length = a.length ∧ (B.getrf n a lda).2.1.length = n ∧
    ((toMatrix n (entry a lda)).det ≠ 0 → (B.getrf n a lda).2.2 = 0) ∧
    ((toMatrix n (entry a lda)).det = 0 → 0 < (B.getrf n a lda).2.2)
  /-- Solution of a system with the matrix that `dgetrf` has factorized. -/
  getrs : ∀ (n : Nat) (a : List K) (lda : Nat) (b : List K) (ldb : Nat), 0 < n → n ≤ lda →
    lda * n ≤ a.length → n ≤ ldb → n ≤ b.length → (B.getrf n a lda).2.2 = 0 →
    (B.getrs n (B.getrf n a lda).1 lda (B.getrf n a lda).2.1 b ldb).2 = 0 ∧
    (B.getrs n (B.getrf n a lda).1 lda (B.getrf n a lda).2.1 b ldb).1.length = b.length ∧
    Solves n (entry a lda)
      (vecFun (B.getrs n (B.getrf n a lda).1 lda (B.getrf n a lda).2.1 b ldb).1) (vecFun b)
  /-- Inverse of the matrix that `dgetrf` has factorized. -/
  getri : ∀ (n : Nat) (a : List K) (lda lwork : Nat), 0 < n → n ≤ lda → lda * n ≤ a.length →
    n ≤ lwork → (B.getrf n a lda).2.2 = 0 →
    (B.getri n (B.getrf n a lda).1 lda (B.getrf n a lda).2.1 lwork).2 = 0 ∧
    (B.getri n (B.getrf n a lda).1 lda (B.getrf n a lda).2.1 lwork).1.length = a.length ∧
    ∀ i j, i < n → j < n → ∑ k ∈ Finset.range n, entry a lda i k *
      entry (B.getri n (B.getrf n a lda).1 lda (B.getrf n a lda).2.1 lwork).1 lda k j =
        if i = j then 1 else 0
  /-- Solution of a system: `info` is zero for a nonsingular matrix and positive for a singular
  one. -/
  gesv : ∀ (n : Nat) (a : List K) (lda : Nat) (b : List K) (ldb : Nat), 0 < n → n ≤ lda →
    lda * n ≤ a.length → n ≤ ldb → n ≤ b.length →
    ((toMatrix n (entry a lda)).det ≠ 0 → (B.gesv n a lda b ldb).2 = 0 ∧
      (B.gesv n a lda b ldb).1.length = b.length ∧
      Solves n (entry a lda) (vecFun (B.gesv n a lda b ldb).1) (vecFun b)) ∧
    ((toMatrix n (entry a lda)).det = 0 → 0 < (B.gesv n a lda b ldb).2)
  /-- A leading dimension below `max(1, n)` is an illegal argument. -/
  illegal : ∀ (n : Nat) (a : List K) (lda : Nat), lda < max 1 n →
    (B.potrf n a lda).2 < 0 ∧ (B.potrf n a lda).1 = a ∧ (B.getrf n a lda).2.2 < 0 ∧
      ∀ (b : List K) (ldb : Nat), (B.gesv n a lda b ldb).2 < 0

end Rodeo.Spec
