import Verif.Model.Special
import Verif.Props.CorrPD
import Mathlib.Tactic.IntervalCases

set_option linter.unusedSectionVars false

/-! # Special matrices (C103) -/

namespace Rodeo
open Rodeo.Spec Rodeo.Mat Finset

variable {K : Type} [Field K] [LinearOrder K] [IsStrictOrderedRing K]

namespace Mat

/-- A loop over the whole storage that writes `g k` into cell `k`. -/
theorem fillLoop_ok {A : Mat K} {n m : Nat} {F : Nat → Nat → K} (hA : IsMat A n m F) (g : Nat → K) :
    OkP (do
      let d ← forRange (A.nrows * A.ncols) (fun i d => Mem.wr d i (g i)) (A.buf.map some)
      let l ← Mem.freeze d
      (.ok ⟨A.nrows, A.ncols, l⟩ : Res (Mat K))) (fun B => IsMat B n m (fun i j => g (j * n + i))) := by
  obtain ⟨h1, h2, h3, h4⟩ := isMat_iff.1 hA
  rw [h1, h2]
  refine OkP.bind (okP_for (fun k d => Rep1 d (n * m) (fun i => if i < k then some (g i) else
    (A.buf.map some)[i]?.getD none)) ?_ ?_) ?_
  · refine ⟨by simp [h3], fun i hi => ?_⟩
    simp [show i < A.buf.length by omega]
  · intro k d hk hd
    refine (hd.wr (v := g k) hk).mono ?_
    intro d' hd'
    refine hd'.congr (fun i _ => ?_)
    by_cases hik : i = k
    · subst hik
      rw [if_pos rfl, if_pos (by omega)]
    · rw [if_neg hik]
      by_cases hlt : i < k
      · rw [if_pos hlt, if_pos (by omega)]
      · rw [if_neg hlt, if_neg (by omega)]
  · intro d hd
    have h5 : Rep1 d (n * m) (fun i => some (g i)) := hd.congr (fun i hi => by rw [if_pos hi])
    refine bind_okP h5.freeze (okP_ok ?_)
    refine isMat_iff.2 ⟨rfl, rfl, by simp, fun i j hi hj => ?_⟩
    simp [colmajor_lt hi hj]

theorem fillUnit_ok {A : Mat K} {n m : Nat} {F : Nat → Nat → K} (hA : IsMat A n m F) (u : Nat → K) :
    OkP (A.fillUnit u) (fun B => IsMat B n m (fun i j => u (j * n + i))) := fillLoop_ok hA u

theorem isMat_const (n m : Nat) (v : K) : IsMat (const n m v) n m (fun _ _ => v) :=
  isMat_iff.2 ⟨rfl, rfl, by simp [const], fun i j hi hj => by simp [const, colmajor_lt hi hj]⟩

end Mat

/-- Filling with one value or with random values reaches every entry, and the random values stay in
the interval that was asked for. -/
theorem C103_fill {A : Mat K} {n m : Nat} {F : Nat → Nat → K} (hA : IsMat A n m F) :
    (∀ v, ∃ B, A.fill v = .ok B ∧ IsMat B n m (fun _ _ => v)) ∧
    (∀ u : Nat → K, (∀ k, 0 ≤ u k ∧ u k ≤ 1) → ∃ B G, A.fillUnit u = .ok B ∧ IsMat B n m G ∧
      ∀ i j, i < n → j < m → 0 ≤ G i j ∧ G i j ≤ 1) ∧
    (∀ (a b : K) (u : Nat → K), (∀ k, 0 ≤ u k ∧ u k ≤ 1) → a < b →
      ∃ B G, A.fillBetween a b u = .ok B ∧ IsMat B n m G ∧
        ∀ i j, i < n → j < m → a ≤ G i j ∧ G i j ≤ b) ∧
    ∀ (a b : K) (u : Nat → K), b ≤ a → A.fillBetween a b u = .error .invalidArgument := by
  refine ⟨fun v => ?_, fun u hu => ?_, fun a b u hu hab => ?_, fun a b u hab => ?_⟩
  · exact fillLoop_ok hA (fun _ => v)
  · obtain ⟨B, h1, h2⟩ := fillUnit_ok hA u
    exact ⟨B, _, h1, h2, fun i j _ _ => hu _⟩
  · obtain ⟨B, h1, h2⟩ := fillLoop_ok hA (fun k => u k * (b - a) + a)
    refine ⟨B, _, ?_, h2, fun i j _ _ => ?_⟩
    · unfold fillBetween
      rw [if_neg (not_le.2 hab)]
      exact h1
    · have := hu (j * n + i)
      constructor <;> nlinarith
  · unfold fillBetween
    rw [if_pos hab]

/-- What `eye` does: ones on the diagonal, everything else stays. -/
theorem C103_eye {A : Mat K} {n : Nat} {F : Nat → Nat → K} (hA : IsMat A n n F) :
    ∃ B, A.eye = .ok B ∧ IsMat B n n (fun i j => if i = j then 1 else F i j) := by
  obtain ⟨h1, h2, h3, h4⟩ := isMat_iff.1 hA
  unfold eye
  rw [if_neg (by omega), h1, h2]
  refine OkP.bind (okP_for (fun k d => Rep2 d n n (fun i j =>
      if i = j ∧ i < k then some 1 else some (F i j))) ?_ ?_) ?_
  · exact (rep2_map_some h3 h4).start (by omega)
  · intro i d hi hd
    exact hd.wr_next (T := fun _ _ => some 1) i i hi hi rfl rfl (by omega)
  · intro d hd
    refine OkP.bind (okP_freeze (G := fun i j => if i = j then 1 else F i j)
      (hd.congr (fun i j hi hj => ?_))) (fun l hl => okP_ok hl)
    by_cases h : i = j
    · rw [if_pos ⟨h, hi⟩, if_pos h]
    · rw [if_neg (fun c => h c.1), if_neg h]

/-- The symmetry test is exact. -/
theorem C103_isSymmetric {A : Mat K} {n m : Nat} {F : Nat → Nat → K} (hA : IsMat A n m F) (tol : K) :
    (tol < 0 → A.isSymmetric tol = .error .invalidArgument) ∧
    (0 ≤ tol → ∃ b, A.isSymmetric tol = .ok b ∧
      (b = true ↔ n = m ∧ ∀ i j, i < n → j < n → |F i j - F j i| ≤ tol)) := by
  obtain ⟨h1, h2, -, -⟩ := isMat_iff.1 hA
  unfold isSymmetric
  refine ⟨fun h => by rw [if_pos h], fun h => ?_⟩
  rw [if_neg (not_lt.2 h), h1, h2]
  by_cases hnm : n = m
  · subst hnm
    rw [if_neg (by omega)]
    have inner : ∀ i, i < n → ∃ r, allFrom (fun j => do
        let a ← rawAt A.buf (j * n + i)
        let b ← rawAt A.buf (i * n + j)
        .ok (decide (|a - b| > tol))) (i + 1) (n - (i + 1)) = .ok r ∧
        (r = true ↔ ∀ j, i < j → j < n → |F i j - F j i| ≤ tol) := by
      intro i hi
      obtain ⟨r, hr, hr'⟩ := allFrom_ok (test := fun j => do
        let a ← rawAt A.buf (j * n + i)
        let b ← rawAt A.buf (i * n + j)
        .ok (decide (|a - b| > tol))) (b := fun j => decide (|F i j - F j i| > tol)) (n - (i + 1)) (i + 1)
        (fun j h1 h2 => bind_eq (hA.raw hi (by omega) rfl) (bind_eq (hA.raw (by omega) hi rfl) rfl))
      refine ⟨r, hr, hr'.trans ⟨fun h j h1 h2 => ?_, fun h j h1 h2 => ?_⟩⟩
      · simpa using h j (by omega) (by omega)
      · simpa using h j (by omega) (by omega)
    choose! R hR hR' using inner
    obtain ⟨b, hb, hb'⟩ := noneOf_ok (n := n) (b := fun i => !R i) (test := fun i => do
      let same ← allFrom (fun j => do
        let a ← rawAt A.buf (j * n + i)
        let b ← rawAt A.buf (i * n + j)
        .ok (decide (|a - b| > tol))) (i + 1) (n - (i + 1))
      .ok (!same)) (fun i hi => bind_eq (hR i hi) rfl)
    refine ⟨b, hb, hb'.trans ⟨fun h => ⟨rfl, fun i j hi hj => ?_⟩, fun h i hi => ?_⟩⟩
    · rcases lt_trichotomy i j with hlt | heq | hgt
      · exact (hR' i hi).1 (by simpa using h i hi) j hlt hj
      · subst heq
        simpa using ‹0 ≤ tol›
      · rw [abs_sub_comm]
        exact (hR' j hj).1 (by simpa using h j hj) i hgt hi
    · have := (hR' i hi).2 (fun j _ hj => h.2 i j hi hj)
      simp [this]
  · rw [if_pos hnm]
    exact ⟨false, rfl, by simp [hnm]⟩

/-- The comparison of two matrices is exact. -/
theorem C103_isEqual {A B : Mat K} {n m n' m' : Nat} {F G : Nat → Nat → K} (hA : IsMat A n m F)
    (hB : IsMat B n' m' G) (tol : K) : ∃ b, A.isEqual B tol = .ok b ∧
      (b = true ↔ n = n' ∧ m = m' ∧ ∀ i j, i < n → j < m → |F i j - G i j| ≤ tol) := by
  obtain ⟨h1, h2, -, -⟩ := isMat_iff.1 hA
  obtain ⟨h1', h2', -, -⟩ := isMat_iff.1 hB
  unfold isEqual
  rw [h1, h2, h1', h2']
  by_cases hs : n = n' ∧ m = m'
  · obtain ⟨rfl, rfl⟩ := hs
    rw [if_neg (by omega)]
    obtain ⟨b, hb, hb'⟩ := noneOf_ok (n := n * m) (b := fun k => decide (|F (k % n) (k / n) -
        G (k % n) (k / n)| > tol)) (test := fun i => do
      let a ← rawAt A.buf i
      let b ← rawAt B.buf i
      .ok (decide (|a - b| > tol))) (fun k hk => by
        have hn : 0 < n := Nat.pos_of_ne_zero (fun h => by simp [h] at hk)
        have e : k = k / n * n + k % n := by rw [Nat.mul_comm]; exact (Nat.div_add_mod k n).symm
        have hj : k / n < m := Nat.div_lt_of_lt_mul hk
        exact bind_eq (hA.raw (Nat.mod_lt _ hn) hj e) (bind_eq (hB.raw (Nat.mod_lt _ hn) hj e) rfl))
    refine ⟨b, hb, hb'.trans ⟨fun h => ⟨rfl, rfl, fun i j hi hj => ?_⟩, fun h k hk => ?_⟩⟩
    · have h3 := h (j * n + i) (colmajor_lt hi hj)
      have e1 : (j * n + i) / n = j := by
        rw [Nat.mul_comm, Nat.mul_add_div (by omega), Nat.div_eq_of_lt hi]; omega
      have e2 : (j * n + i) % n = i := by
        rw [Nat.add_comm, Nat.add_mul_mod_self_right, Nat.mod_eq_of_lt hi]
      rw [e1, e2] at h3
      simpa using h3
    · have hn : 0 < n := Nat.pos_of_ne_zero (fun h => by simp [h] at hk)
      simpa using h.2.2 (k % n) (k / n) (Nat.mod_lt _ hn) (Nat.div_lt_of_lt_mul hk)
  · rw [if_pos (by omega)]
    exact ⟨false, rfl, by simp; tauto⟩

/-- A random symmetric matrix is symmetric, with entries between zero and one. -/
theorem C103_symmetric {A : Mat K} {n : Nat} {F : Nat → Nat → K} (hA : IsMat A n n F) (hn : 0 < n)
    {u : Nat → K} (hu : ∀ k, 0 ≤ u k ∧ u k ≤ 1) :
    ∃ B G, A.generateRandomSymmetric u = .ok B ∧ IsMat B n n G ∧ Symm n G ∧
      (∀ i j, i < n → j < n → 0 ≤ G i j ∧ G i j ≤ 1) ∧
      ∀ i j, i < n → j < n → j ≤ i → G i j = u (j * n + i) := by
  obtain ⟨h1, h2, -, -⟩ := isMat_iff.1 hA
  have hne : n * n ≠ 0 := by positivity
  obtain ⟨B, hB, hBm⟩ := fillUnit_ok hA u
  obtain ⟨-, -, h3, h4⟩ := isMat_iff.1 hBm
  have key : OkP (A.generateRandomSymmetric u) (fun C => IsMat C n n
      (fun i j => if i < j then u (i * n + j) else u (j * n + i))) := by
    unfold generateRandomSymmetric
    rw [h1, h2, if_neg (by omega), if_neg hne]
    refine bind_okP hB ?_
    refine OkP.bind (okP_for (fun k d => Rep2 d n n (fun i j =>
        if i < j ∧ i < k then some (u (i * n + j)) else some (u (j * n + i)))) ?_ ?_) ?_
    · exact (rep2_map_some h3 h4).start (by omega)
    · intro i d hi hd
      refine (loopFrom_inv' (fun l d => Rep2 d n n (fun a b =>
        if a < b ∧ (a < i ∨ a = i ∧ b < l) then some (u (a * n + b)) else some (u (b * n + a))))
        (by omega) ?_ ?_).mono ?_
      · exact hd.cond (by omega)
      · intro j d hij hj hd
        refine bind_okP (hd.rd (v := u (i * n + j)) hj hi rfl (by rw [if_neg (by omega)])) ?_
        exact hd.wr_next (T := fun a b => some (u (a * n + b))) i j hi hj rfl rfl (by omega)
      · intro d hd
        exact hd.cond (by omega)
    · intro d hd
      refine OkP.bind (okP_freeze (G := fun i j => if i < j then u (i * n + j) else u (j * n + i))
        (hd.congr (fun i j hi hj => ?_))) (fun l hl => okP_ok hl)
      by_cases h : i < j
      · rw [if_pos ⟨h, hi⟩, if_pos h]
      · rw [if_neg (fun c => h c.1), if_neg h]
  obtain ⟨C, hC, hCm⟩ := key
  refine ⟨C, _, hC, hCm, fun i j _ _ => ?_, fun i j _ _ => ?_, fun i j _ _ hij => ?_⟩
  · dsimp only
    rcases lt_trichotomy i j with h | h | h
    · rw [if_pos h, if_neg (by omega)]
    · rw [h]
    · rw [if_neg (by omega), if_pos h]
  · split_ifs <;> exact hu _
  · rw [if_neg (by omega)]

/-- The matrix of scalar products of the rows of `T` (`n x n`). -/
def Spec.gram (n : Nat) (T : Nat → Nat → K) (i j : Nat) : K := ∑ k ∈ range n, T i k * T j k

theorem Mat.generateRandomPositiveDefinite_ok {A : Mat K} {n : Nat} {F : Nat → Nat → K}
    (hA : IsMat A n n F) (hn : 0 < n) (u : Nat → K) :
    OkP (A.generateRandomPositiveDefinite u)
      (fun B => IsMat B n n (gram n (fun i j => u (j * n + i)))) := by
  obtain ⟨h1, h2, h3, h4⟩ := isMat_iff.1 hA
  have hne : n * n ≠ 0 := by positivity
  obtain ⟨T, hT, hTm⟩ := fillUnit_ok (isMat_const n n (0 : K)) u
  unfold generateRandomPositiveDefinite
  rw [h1, h2, if_neg (by omega), if_neg hne]
  refine bind_okP hT ?_
  refine OkP.bind (okP_for (fun c d => Rep2 d n n (fun i j =>
      if i < c then some (gram n (fun i j => u (j * n + i)) i j) else some (F i j))) ?_ ?_) ?_
  · exact (rep2_map_some h3 h4).start (by omega)
  · intro i d hi hd
    refine (okP_for (fun r d => Rep2 d n n (fun a b =>
      if a < i ∨ (a = i ∧ b < r) then some (gram n (fun i j => u (j * n + i)) a b) else some (F a b)))
        ?_ ?_).mono ?_
    · exact hd.cond (by omega)
    · intro j d hj hd
      refine bind_okP (sumLoop_ok (g := fun k => u (k * n + i) * u (k * n + j)) ?_) ?_
      · intro k hk
        exact bind_eq (hTm.raw hi hk rfl) (bind_eq (hTm.raw hj hk rfl) rfl)
      · exact hd.wr_next i j hi hj rfl rfl (by omega)
    · intro d hd
      exact hd.cond (by omega)
  · intro d hd
    exact OkP.bind (okP_freeze (hd.done (by omega))) (fun l hl => okP_ok hl)

/-- A random "positive definite" matrix: it is computed, symmetric and positive semidefinite; it is
positive definite exactly when the rows of the random matrix are linearly independent. -/
theorem C103_gram {A : Mat K} {n : Nat} {F : Nat → Nat → K} (hA : IsMat A n n F) (hn : 0 < n)
    (u : Nat → K) :
    ∃ B G, A.generateRandomPositiveDefinite u = .ok B ∧ IsMat B n n G ∧ Symm n G ∧ PosSemidef n G ∧
      (PosDef n G ↔ ∀ x : Nat → K, (∀ k, k < n → ∑ i ∈ range n, x i * u (k * n + i) = 0) →
        ∀ i, i < n → x i = 0) := by
  obtain ⟨B, h1, h2⟩ := Mat.generateRandomPositiveDefinite_ok hA hn u
  have hq : ∀ x : Nat → K, quadForm n (gram n (fun i j => u (j * n + i))) x =
      ∑ k ∈ range n, (∑ i ∈ range n, x i * u (k * n + i)) ^ 2 := fun x =>
    quadForm_gram (fun i j _ _ => rfl) x
  refine ⟨B, _, h1, h2, fun i j _ _ => ?_, fun x => ?_, ⟨fun h x hx i hi => ?_, fun h x hx => ?_⟩⟩
  · exact sum_congr rfl (fun k _ => mul_comm _ _)
  · rw [hq]
    exact sum_nonneg (fun k _ => sq_nonneg _)
  · by_contra hne
    have := h x ⟨i, hi, hne⟩
    rw [hq, sum_eq_zero] at this
    · exact lt_irrefl _ this
    · intro k hk
      rw [hx k (mem_range.1 hk)]
      ring
  · rw [hq]
    refine lt_of_le_of_ne (sum_nonneg (fun k _ => sq_nonneg _)) (fun h0 => ?_)
    have hz := (sum_eq_zero_iff_of_nonneg (fun k _ => sq_nonneg _)).1 h0.symm
    obtain ⟨i, hi, hne⟩ := hx
    exact hne (h x (fun k hk => by
      have := hz k (mem_range.2 hk)
      exact pow_eq_zero_iff (two_ne_zero) |>.1 this) i hi)

/-- A random correlation matrix is a correlation matrix, and positive semidefinite. -/
theorem C103_correlation {A : Mat ℝ} {n : Nat} {F : Nat → Nat → ℝ} (hA : IsMat A n n F)
    (u : Nat → ℝ) :
    ∃ B G, A.generateRandomCorrelationMatrix Real.exp u = .ok B ∧ IsMat B n n G ∧
      IsCorrelation n G ∧
      ∀ i j, i < n → j < n → G i j = gaussCorr n (fun _ => 1) (fun k => u (k * n + i))
        (fun k => u (k * n + j)) := by
  obtain ⟨h1, h2, h3, h4⟩ := isMat_iff.1 hA
  obtain ⟨X, hX, hXm⟩ := fillUnit_ok (isMat_const n n (0 : ℝ)) u
  obtain ⟨R, G, hR, hG, hC, hv⟩ := C51_gaussian hXm (theta := List.replicate n 1) (by simp)
    (fun t ht => by rw [List.eq_of_mem_replicate ht]; exact zero_le_one)
  refine ⟨R, G, ?_, hG, hC, fun i j hi hj => ?_⟩
  · unfold generateRandomCorrelationMatrix
    rw [h1, h2, if_neg (by omega)]
    refine bind_eq hX ?_
    unfold Corr.corrMatrixGaussian at hR
    rw [if_neg (by rw [hXm.2.1]; simp), hXm.2.1] at hR
    exact hR
  · rw [hv i j hi hj]
    unfold gaussCorr
    congr 2
    refine sum_congr rfl (fun k hk => ?_)
    have : vecFun (List.replicate n (1 : ℝ)) k = 1 := by
      simp [vecFun, List.getD, mem_range.1 hk]
    rw [this]

/-- The wrong shapes are rejected. -/
theorem C103_rejected {A : Mat K} {n m : Nat} {F : Nat → Nat → K} (hA : IsMat A n m F) (u : Nat → K) :
    (n ≠ m → A.eye = .error .invalidArgument ∧
      A.generateRandomSymmetric u = .error .invalidArgument ∧
      A.generateRandomPositiveDefinite u = .error .invalidArgument ∧
      ∀ exp, A.generateRandomCorrelationMatrix exp u = .error .invalidArgument) ∧
    (n = 0 → A.generateRandomSymmetric u = .error .invalidArgument ∧
      A.generateRandomPositiveDefinite u = .error .invalidArgument) := by
  obtain ⟨h1, h2, -, -⟩ := isMat_iff.1 hA
  constructor
  · intro h
    have hne : A.nrows ≠ A.ncols := by rw [h1, h2]; exact h
    simp only [eye, generateRandomSymmetric, generateRandomPositiveDefinite,
      generateRandomCorrelationMatrix, if_pos hne]
    simp
  · rintro rfl
    simp only [generateRandomSymmetric, generateRandomPositiveDefinite, h1, Nat.zero_mul,
      if_true]
    constructor <;> split_ifs <;> rfl

/-- The functions give what their names say: `eye` the identity, the random positive definite matrix
a positive definite one, whatever the matrix held before and whatever is drawn. -/
def C103_full : Prop :=
  ∀ (A : Mat ℚ) (n : Nat) (F : Nat → Nat → ℚ), IsMat A n n F → 0 < n →
    (∃ B, A.eye = .ok B ∧ IsMat B n n (fun i j => if i = j then 1 else 0)) ∧
    ∀ u : Nat → ℚ, (∀ k, 0 ≤ u k ∧ u k ≤ 1) →
      ∃ B G, A.generateRandomPositiveDefinite u = .ok B ∧ IsMat B n n G ∧ Symm n G ∧ PosDef n G

/-- What holds: `eye` gives the identity exactly for matrices without entries off the diagonal, and
the random matrix is symmetric and positive semidefinite, definite exactly for draws with linearly
independent rows.  Missing: nothing else can be had, see `C103_false`. -/
theorem C103_partial {A : Mat K} {n : Nat} {F : Nat → Nat → K} (hA : IsMat A n n F) (hn : 0 < n) :
    ((∃ B, A.eye = .ok B ∧ IsMat B n n (fun i j => if i = j then 1 else 0)) ↔
      ∀ i j, i < n → j < n → i ≠ j → F i j = 0) ∧
    ∀ u : Nat → K, ∃ B G, A.generateRandomPositiveDefinite u = .ok B ∧ IsMat B n n G ∧ Symm n G ∧
      PosSemidef n G ∧ (PosDef n G ↔ ∀ x : Nat → K,
        (∀ k, k < n → ∑ i ∈ range n, x i * u (k * n + i) = 0) → ∀ i, i < n → x i = 0) := by
  refine ⟨⟨fun h i j hi hj hij => ?_, fun h => ?_⟩, fun u => C103_gram hA hn u⟩
  · obtain ⟨B, hB, hBm⟩ := h
    obtain ⟨B', hB', hBm'⟩ := C103_eye hA
    rw [hB] at hB'
    cases hB'
    have := (isMat_unique hBm hBm').2.2 i j hi hj
    rw [if_neg hij, if_neg hij] at this
    exact this.symm
  · obtain ⟨B', hB', hBm'⟩ := C103_eye hA
    refine ⟨B', hB', hBm'.congr (fun i j hi hj => ?_)⟩
    by_cases hij : i = j
    · rw [if_pos hij, if_pos hij]
    · rw [if_neg hij, if_neg hij, h i j hi hj hij]

/-- `eye` on a 2 x 2 matrix of fives leaves the fives off the diagonal, and equal draws give a
singular matrix. -/
theorem C103_false : ¬ C103_full := by
  intro h
  have hA : IsMat (const 2 2 (5 : ℚ)) 2 2 (fun _ _ => 5) := isMat_const 2 2 5
  have h1 := ((C103_partial hA (by omega)).1.1 (h _ 2 _ hA (by omega)).1) 0 1 (by omega) (by omega)
    (by omega)
  norm_num at h1

/-- Equal draws give a matrix that is not positive definite. -/
theorem C103_false_definite : ¬ ∀ (A : Mat ℚ) (n : Nat) (F : Nat → Nat → ℚ), IsMat A n n F → 0 < n →
    ∀ u : Nat → ℚ, (∀ k, 0 ≤ u k ∧ u k ≤ 1) →
      ∃ B G, A.generateRandomPositiveDefinite u = .ok B ∧ IsMat B n n G ∧ PosDef n G := by
  intro h
  have hA : IsMat (const 2 2 (5 : ℚ)) 2 2 (fun _ _ => 5) := isMat_const 2 2 5
  obtain ⟨B, G, h1, h2, h3⟩ := h _ 2 _ hA (by omega) (fun _ => 1 / 2) (fun _ => by norm_num)
  obtain ⟨B', G', h1', h2', -, -, h4⟩ := C103_gram hA (by omega) (fun _ => 1 / 2)
  rw [h1] at h1'
  cases h1'
  have he := (isMat_unique h2 h2').2.2
  have hP : PosDef 2 G' := by
    intro x hx
    have := h3 x hx
    have hq : quadForm 2 G x = quadForm 2 G' x := by
      unfold quadForm
      exact sum_congr rfl (fun i hi => sum_congr rfl (fun j hj => by
        rw [he i j (mem_range.1 hi) (mem_range.1 hj)]))
    rwa [← hq]
  have := h4.1 hP (fun i => if i = 0 then 1 else -1) (fun k _ => by simp [sum_range_succ]) 0 (by omega)
  norm_num at this

/-- The hypotheses can be met: the identity is obtained from a zero matrix, and draws with independent
rows exist. -/
example : IsMat (const 2 2 (0 : ℚ)) 2 2 (fun _ _ => 0) ∧ (∀ i j : Nat, i < 2 → j < 2 → i ≠ j →
      (fun _ _ => (0 : ℚ)) i j = 0) ∧
    (∀ k, 0 ≤ (fun k : Nat => if k = 0 ∨ k = 3 then (1 : ℚ) else 0) k ∧
      (fun k : Nat => if k = 0 ∨ k = 3 then (1 : ℚ) else 0) k ≤ 1) ∧
    ∀ x : Nat → ℚ, (∀ k, k < 2 → ∑ i ∈ range 2, x i *
      (fun k : Nat => if k = 0 ∨ k = 3 then (1 : ℚ) else 0) (k * 2 + i) = 0) → ∀ i, i < 2 → x i = 0 := by
  refine ⟨isMat_const 2 2 0, fun _ _ _ _ _ => rfl, fun k => ?_, fun x hx i hi => ?_⟩
  · dsimp only
    split_ifs <;> norm_num
  · have h0 := hx 0 (by omega)
    have h1 := hx 1 (by omega)
    simp [sum_range_succ] at h0 h1
    interval_cases i
    · exact h0
    · exact h1

example : isSymmetric (⟨2, 2, [1, 2, 2, 3]⟩ : Mat ℚ) 0 = .ok true ∧
    isSymmetric (⟨2, 2, [1, 2, 4, 3]⟩ : Mat ℚ) 1 = .ok false ∧
    isEqual (⟨2, 2, [1, 2, 4, 3]⟩ : Mat ℚ) ⟨2, 2, [1, 2, 3, 3]⟩ 1 = .ok true := by decide +kernel

end Rodeo
