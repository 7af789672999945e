import Verif.Props.Blas
import Verif.Props.KrigingLive

/-! # C124: linear regression and Kriging in builds with OpenBLAS -/

set_option linter.unusedSectionVars false

namespace Rodeo
open Spec Mat Text

section generic
variable {K : Type} [Field K] [LinearOrder K] [IsStrictOrderedRing K]

/-- The regularized normal matrix is nonsingular. -/
theorem ridge_det {n m : Nat} {A : Nat → Nat → K} {lambda : K} (hl : 0 < lambda) :
    (toMatrix m (fun k j => if k = j then (∑ l ∈ Finset.range n, A l k * A l j) + lambda
      else ∑ l ∈ Finset.range n, A l k * A l j)).det ≠ 0 := by
  -- scale the problem so that the bound of `ridge_inverse` holds
  obtain ⟨s, hs⟩ : ∃ s : K, 0 < s ∧ (m : K) ≤ (10 ^ 9 * (s ^ 2 * lambda)) ^ 2 := by
    refine ⟨((m : K) + 1) / lambda + 1, by positivity, ?_⟩
    set q : K := ((m : K) + 1) / lambda with hq
    have hq0 : 0 < q := by positivity
    have h1 : q * lambda = m + 1 := by rw [hq]; field_simp
    have hm0 : (0 : K) ≤ m := by positivity
    have h2 : (m : K) + 1 ≤ 10 ^ 9 * ((q + 1) ^ 2 * lambda) := by
      have : (q + 1) ^ 2 * lambda = q * (q * lambda) + 2 * (q * lambda) + lambda := by ring
      rw [this, h1]
      have := mul_pos hq0 (show (0 : K) < m + 1 by positivity)
      linarith
    nlinarith
  obtain ⟨G, h1, -⟩ := ridge_inverse (n := n) (m := m) (A := fun l k => s * A l k)
    (lambda := s ^ 2 * lambda) (mul_pos (pow_pos hs.1 2) hl) hs.2
  refine det_ne_zero_of_solvable (fun b => ?_)
  have h2 := left_inverse_of_right h1
  refine ⟨fun k => s ^ 2 * ∑ j ∈ Finset.range m, G k j * b j, fun i hi => ?_⟩
  have e : ∀ k, k ∈ Finset.range m → (if i = k then (∑ l ∈ Finset.range n, A l i * A l k) + lambda
      else ∑ l ∈ Finset.range n, A l i * A l k) * (s ^ 2 * ∑ j ∈ Finset.range m, G k j * b j) =
      ∑ j ∈ Finset.range m, ((if i = k then
        (∑ l ∈ Finset.range n, s * A l i * (s * A l k)) + s ^ 2 * lambda
        else ∑ l ∈ Finset.range n, s * A l i * (s * A l k)) * G k j) * b j := by
    intro k _
    have e0 : ∑ l ∈ Finset.range n, s * A l i * (s * A l k) =
        s ^ 2 * ∑ l ∈ Finset.range n, A l i * A l k := by
      rw [Finset.mul_sum]; exact Finset.sum_congr rfl fun _ _ => by ring
    rw [e0, Finset.mul_sum, Finset.mul_sum]
    refine Finset.sum_congr rfl fun j _ => ?_
    split_ifs <;> ring
  show ∑ k ∈ Finset.range m, _ = _
  rw [Finset.sum_congr rfl e, Finset.sum_comm]
  have e2 : ∀ j, j ∈ Finset.range m → ∑ k ∈ Finset.range m, ((if i = k then
        (∑ l ∈ Finset.range n, s * A l i * (s * A l k)) + s ^ 2 * lambda
        else ∑ l ∈ Finset.range n, s * A l i * (s * A l k)) * G k j) * b j =
      (if i = j then 1 else 0) * b j := by
    intro j hj
    rw [← Finset.sum_mul]
    congr 1
    exact h2 i j hi (Finset.mem_range.1 hj)
  rw [Finset.sum_congr rfl e2]
  simp [hi]

/-- Linear regression with the library: training never fails for a positive regularization, its
weights are the ridge regression, and they are those of the build without the library wherever that
one succeeds. -/
theorem C124_linear {B : Blas K} (hB : Documented B) {m : LinearModel K} {n dim : Nat}
    {X : Nat → Nat → K} {lambda : K} (hm : Trainable m n dim X)
    (hlam : m.regularization = some lambda) (hl : 0 < lambda) :
    ∃ w, Lib.ridgeWeights B m = .ok w ∧ w.length = dim + 1 ∧
      IsRidge n dim X (vecFun m.data.y) lambda (vecFun w) ∧
      (m.ridgeWeights = .ok w ∨ m.ridgeWeights = .error .runtimeError) := by
  unfold Lib.ridgeWeights
  have hmr : m.ridgeWeights = m.ridgeWeights := rfl
  conv_rhs at hmr => unfold LinearModel.ridgeWeights
  rw [hm.count, hm.dimension] at hmr ⊢
  obtain ⟨A, eA, hA⟩ := LinearModel.augmented_ok hm.inputs
  rw [bind_eq eA rfl] at hmr ⊢
  obtain ⟨T, eT, hT⟩ := transpose_ok hA
  rw [bind_eq eT rfl] at hmr ⊢
  obtain ⟨P, eP, hP⟩ := Mat.matMatProduct_ok hT hA
  have eP' : Lib.matMatProduct B T A = .ok P := by
    rw [Lib.matMatProduct_eq hB hT hA (by omega) hm.countPos (by omega)]; exact eP
  rw [bind_eq eP' rfl, hlam]
  rw [bind_eq eP rfl, hlam] at hmr
  obtain ⟨M, eM, hM⟩ := Corr.addEpsilonToDiagonal_ok hP lambda
  have eV := Mat.matVecProduct_ok hT hm.outputs
  have eV' : Lib.matVecProduct B T m.data.y = .ok ((List.range (dim + 1)).map fun i =>
      ∑ j ∈ Finset.range n, augFun X j i * vecFun m.data.y j) := by
    rw [Lib.matVecProduct_eq hB hT (by omega) hm.countPos]; exact eV
  simp only at hmr ⊢
  rw [bind_eq eM rfl] at hmr ⊢
  have hI := C123_inverse hB hM (by omega)
  rw [if_neg (ridge_det hl)] at hI
  obtain ⟨C, G, eC, hC, hR, hG⟩ := hI
  have e2 := Lib.matVecProduct_eq hB hC (by omega) (by omega)
    ((List.range (dim + 1)).map fun i => ∑ j ∈ Finset.range n, augFun X j i * vecFun m.data.y j)
  refine ⟨_, bind_eq eC (bind_eq eV' (e2.trans (Mat.matVecProduct_ok hC (by simp)))), by simp, ?_, ?_⟩
  · refine isRidge_of_normal hl ?_
    intro i hi
    have e1 : ∀ j, j ∈ Finset.range (dim + 1) → vecFun ((List.range (dim + 1)).map fun i =>
        ∑ j ∈ Finset.range (dim + 1), G i j * vecFun ((List.range (dim + 1)).map fun i =>
          ∑ j ∈ Finset.range n, augFun X j i * vecFun m.data.y j) j) j =
        ∑ l ∈ Finset.range (dim + 1), G j l * ∑ k ∈ Finset.range n, augFun X k l * vecFun m.data.y k := by
      intro j hj
      rw [Corr.vecFun_map _ (Finset.mem_range.1 hj)]
      refine Finset.sum_congr rfl fun l hl => ?_
      rw [Corr.vecFun_map _ (Finset.mem_range.1 hl)]
    rw [Finset.sum_congr rfl fun j hj => by rw [e1 j hj]]
    simp only [Finset.mul_sum (s := Finset.range (dim + 1))]
    rw [Finset.sum_comm]
    have e2 : ∀ l, l ∈ Finset.range (dim + 1) → ∑ j ∈ Finset.range (dim + 1),
        (if i = j then (∑ k ∈ Finset.range n, augFun X k i * augFun X k j) + lambda
          else ∑ k ∈ Finset.range n, augFun X k i * augFun X k j) *
        (G j l * ∑ k ∈ Finset.range n, augFun X k l * vecFun m.data.y k) =
        (if i = l then 1 else 0) * ∑ k ∈ Finset.range n, augFun X k l * vecFun m.data.y k := by
      intro l hl
      rw [← hR i l hi (Finset.mem_range.1 hl), Finset.sum_mul]
      refine Finset.sum_congr rfl fun j _ => by ring
    rw [Finset.sum_congr rfl e2]
    simp [hi]
  · rcases C46_inverse hM with ⟨LU, p, C', H, -, eC', -⟩ | ⟨-, eC'⟩
    · left
      have := (C122_partial hB hM (by omega)).2.1 C' eC'
      rw [eC] at this
      cases this
      rw [hmr]
      exact bind_eq eC' (bind_eq eV (Mat.matVecProduct_ok hC (by simp)))
    · right
      rw [hmr]
      exact bind_err eC'

/-- The two builds agree on a matrix: same factor, same solutions. -/
def Lib.SameFactor (B : Blas K) (sqrt : K → K) (A : Mat K) : Prop :=
  ∃ L, Lib.cholesky B A = .ok (L, 1) ∧ Mat.cholesky sqrt A = .ok (L, 1) ∧
    ∀ b : List K, Lib.solveCholesky B L b = Mat.solveCholesky L b

theorem Lib.solveAll_eq {B : Blas K} (hB : Documented B) {k : Kriging K}
    (h : ∀ b, Lib.cholSolveLinearSystem B k.chol b = k.chol.solveLinearSystem b) :
    Lib.solveAll B k = k.solveAll := by
  unfold Lib.solveAll Kriging.solveAll
  simp only [h, Lib.dot_eq hB]

theorem Lib.factorize_eq {B : Blas K} {sqrt : K → K} {s : CholeskySystem K}
    (h : Lib.SameFactor B sqrt s.A) :
    ∃ s', Lib.cholFactorize B s = .ok s' ∧ s.factorize sqrt = .ok s' ∧
      ∀ b, Lib.cholSolveLinearSystem B s' b = s'.solveLinearSystem b := by
  obtain ⟨L, h1, h2, h3⟩ := h
  refine ⟨{ s with fact := L, done := true }, ?_, ?_, ?_⟩
  · exact bind_eq h1 (if_neg (show ¬ (1 : Int) = -1 by decide))
  · exact bind_eq h2 (if_neg (show ¬ (1 : Int) = -1 by decide))
  · intro b
    unfold Lib.cholSolveLinearSystem CholeskySystem.solveLinearSystem
    rw [if_neg (by simp), if_neg (by simp)]
    exact h3 b

theorem Lib.update_eq {B : Blas K} (hB : Documented B) {F : Fns K} {k : Kriging K}
    (h : ∀ c, k.corr.computeCorrelationMatrix F.exp F.pow = .ok c →
      Lib.SameFactor B F.sqrt c.base.matrix) :
    Lib.updateAuxilliaryFields B F k = k.updateAuxilliaryFields F := by
  unfold Lib.updateAuxilliaryFields Kriging.updateAuxilliaryFields
  split_ifs
  all_goals try rfl
  cases hc : k.corr.computeCorrelationMatrix F.exp F.pow with
  | error e => rfl
  | ok c =>
    obtain ⟨s', e1, e2, e3⟩ := Lib.factorize_eq (s := k.chol.setMatrix c.base.matrix) (h c hc)
    refine (andThen_commit (s' := { k with corr := c }) rfl rfl).trans
      (Eq.trans ?_ (andThen_commit (s' := { k with corr := c }) rfl rfl).symm)
    refine (andThen_commit (s' := { k with corr := c, chol := s' }) (bind_eq e1 rfl) rfl).trans
      (Eq.trans ?_ (andThen_commit (s' := { k with corr := c, chol := s' }) (bind_eq e2 rfl) rfl).symm)
    unfold Kriging.resizeDataObjects
    split_ifs
    · rfl
    · refine if_congr Iff.rfl ?_ rfl
      exact congrArg _ (Lib.solveAll_eq hB e3)

theorem Spec.LinearConfig.trainable [FloorRing K] {m : LinearModel K} {dim n : Nat} {b : Bounds K}
    (h : LinearConfig m dim b) (hb : ProperBox b dim) (hdim : 0 < dim)
    {file : Option Text.Str} {A : Mat K} {F : Nat → Nat → K}
    (hread : readFromCSV file false = .ok A) (hA : IsMat A n (dim + 1) F) {perm : List Nat}
    (hp : perm.Perm (List.range n)) :
    ∃ m1 m2, m.readData file perm = (m1, .ok ()) ∧ m1.normalizeData = (m2, .ok ()) ∧
      Trainable m2 n dim (normalized b dim F) := by
  have hn := readFromCSV_pos hread hA
  obtain ⟨tr, va, hs, hord, hload⟩ := h.data.load hb hdim hread hA hp
  obtain rfl := hord h.ratio
  obtain ⟨d1, d2, e1, e2, c2, b2, n1, n2, r2, i2, -, -, x2, y2⟩ := hload (by simp; omega)
  set m1 : LinearModel K := { m with data := d1, numberOfSamples := d1.numberOfSamples, isRead := true }
    with hm1
  set m2 : LinearModel K := { m1 with data := d2, isNormalized := true } with hm2
  have t1 : m.readData file perm = (m1, .ok ()) := by
    unfold LinearModel.readData
    rw [e1]
  have t2 : m1.normalizeData = (m2, .ok ()) := by
    unfold LinearModel.normalizeData
    have : m1.data = d1 := rfl
    rw [if_neg (by simp [hm1]), this, e2]
  have x2' : IsMat d2.X n dim (normalized b dim F) := by
    rw [List.length_range] at x2
    refine x2.congr fun i j hi _ => ?_
    simp [List.getD, hi]
  exact ⟨m1, m2, t1, t2, rfl, rfl, h.size, hdim, by show d1.numberOfSamples = n; simpa using n1, hn, x2', by
      show d2.y.length = n
      rw [y2]; simp⟩

end generic

theorem Lib.update_solver {B : Blas ℝ} {F : Fns ℝ} {k k' : Kriging ℝ}
    (h : ∀ c, k.corr.computeCorrelationMatrix F.exp F.pow = .ok c →
      Lib.SameFactor B F.sqrt c.base.matrix)
    (e : k.updateAuxilliaryFields F = (k', .ok ())) (b : List ℝ) :
    Lib.cholSolveLinearSystem B k'.chol b = k'.chol.solveLinearSystem b := by
  obtain ⟨c, hc, hf⟩ := Kriging.update_chol e
  obtain ⟨s', -, e2, e3⟩ := Lib.factorize_eq (s := k.chol.setMatrix c.base.matrix) (h c hc)
  rw [e2] at hf
  cases hf
  exact e3 b

namespace Kriging

theorem load_steps {k : Kriging ℝ} {dim n : Nat} {b : Bounds ℝ} (h : KrigingConfig k dim b)
    (hb : ProperBox b dim) (hdim : 0 < dim) (h99 : k.usesLinear = true → dim ≤ 99)
    {file : Option Str} {A : Mat ℝ} {F : Nat → Nat → ℝ} (hread : readFromCSV file false = .ok A)
    (hA : IsMat A n (dim + 1) F) {perm permL : List Nat} (hp : perm.Perm (List.range n))
    (hpL : permL.Perm (List.range n)) {th ga : List ℝ} (hst : startParameters k dim th ga) :
    ∃ tr va, IsSplit n (SMData.validationCount n k.data.ratio) tr va ∧
      (k.data.ratio = 0 → tr = List.range n) ∧
      (tr ≠ [] →
        ∃ k1 k2 T, k.readData file perm permL = (k1, .ok ()) ∧ k1.normalizeData = (k2, .ok ()) ∧
          Loaded k2 tr.length dim (fun i => normalized b dim F (tr.getD i 0)) T th ga ∧
          k2.corr.base.epsilon = k.corr.base.epsilon ∧
          (k2.usesLinear = true → Trainable k2.linear n dim (normalized b dim F))) := by
  obtain ⟨tr, va, hs, hord, hload⟩ := h.data.load hb hdim hread hA hp
  refine ⟨tr, va, hs, hord, fun htr => ?_⟩
  obtain ⟨d1, d2, e1, e2, c2, b2, n1, n2, r2, i2, raw2, v2, x2, y2⟩ := hload htr
  have hgood := startParameters_good h hst
  -- the linear model
  obtain ⟨L1, L2, T, l1, l2, l3, hT⟩ : ∃ (L1 L2 : LinearModel ℝ) (T : List ℝ → ℝ),
      (k.usesLinear = true → k.linear.readData file permL = (L1, .ok ())) ∧
      (k.usesLinear = true → L1.normalizeData = (L2, .ok ())) ∧
      (if k.usesLinear then ∃ L, L2.init = (L, .ok ()) ∧ LinearConfig L dim b ∧
        ∀ x : List ℝ, x.length = dim → L.interpolate x = .ok (T x) else ∀ x, T x = 0) ∧
      (k.usesLinear = true → Trainable L2 n dim (normalized b dim F)) := by
    by_cases hu : k.usesLinear = true
    · obtain ⟨m1, m2, m3, f1, f2, f3, f4, -, w, f5, f6⟩ := (h.linear hu).load hb hdim (h99 hu) hread hA hpL
      refine ⟨m1, m2, fun x => affine dim w (vecFun x), fun _ => f1, fun _ => f2, ?_, fun _ => ?_⟩
      · rw [if_pos hu]; exact ⟨m3, f3, f4, f6⟩
      · obtain ⟨q1, q2, g1, g2, g3⟩ := (h.linear hu).trainable hb hdim hread hA hpL
        rw [g1] at f1; cases f1
        rw [g2] at f2; cases f2
        exact g3
    · refine ⟨k.linear, k.linear, fun _ => 0, fun h => absurd h hu, fun h => absurd h hu, ?_,
        fun h => absurd h hu⟩
      rw [if_neg hu]; exact fun _ => rfl
  -- readData
  set k1 : Kriging ℝ := { k with data := d1, linear := if k.usesLinear then L1 else k.linear,
                                 numberOfSamples := d1.numberOfSamples, isRead := true } with hk1
  have t1 : k.readData file perm permL = (k1, .ok ()) := by
    unfold readData
    rw [if_neg (by rw [h.size]; omega)]
    refine andThen_ok (s := { k with data := d1 }) (rethrow_ok ?_) ?_
    · unfold onData; rw [e1]
    · by_cases hu : k.usesLinear = true
      · refine andThen_ok (s := { k with data := d1, linear := L1 }) ?_ ?_
        · rw [if_pos (show ({ k with data := d1 } : Kriging ℝ).usesLinear = true from hu)]
          refine rethrow_ok ?_
          unfold onLinear
          rw [show ({ k with data := d1 } : Kriging ℝ).linear = k.linear from rfl, l1 hu]
        · rw [hk1, if_pos hu]
      · refine andThen_ok (s := { k with data := d1 }) ?_ ?_
        · rw [if_neg (show ¬ ({ k with data := d1 } : Kriging ℝ).usesLinear = true from hu)]
        · rw [hk1, if_neg hu]
  set k2 : Kriging ℝ := { k1 with data := d2, linear := if k.usesLinear then L2 else k.linear,
                                  isNormalized := true } with hk2
  have t2 : k1.normalizeData = (k2, .ok ()) := by
    unfold normalizeData
    rw [if_neg (by simp [hk1])]
    refine andThen_ok (s := { k1 with data := d2 }) ?_ ?_
    · unfold onData; rw [show k1.data = d1 from rfl, e2]
    · by_cases hu : k.usesLinear = true
      · refine andThen_ok (s := { k1 with data := d2, linear := L2 }) ?_ ?_
        · rw [if_pos (show ({ k1 with data := d2 } : Kriging ℝ).usesLinear = true from hu)]
          unfold onLinear
          rw [show ({ k1 with data := d2 } : Kriging ℝ).linear = L1 from if_pos hu, l2 hu]
        · rw [hk2, if_pos hu]
      · refine andThen_ok (s := { k1 with data := d2 }) ?_ ?_
        · rw [if_neg (show ¬ ({ k1 with data := d2 } : Kriging ℝ).usesLinear = true from hu)]
        · simp only [hk2, hk1, if_neg hu]
  have hL : Loaded k2 tr.length dim (fun i => normalized b dim F (tr.getD i 0)) T th ga :=
    ⟨rfl, rfl, h.size, hdim, n1, List.length_pos_of_ne_nil htr, b2, n2, x2, by
      show d2.y.length = _
      rw [y2]; simp, h.epsilon, hst, hgood.thLen, hgood.gaLen, hgood.thNonneg, hgood.gaRange, by
      show if k.usesLinear then _ else _
      by_cases hu : k.usesLinear = true
      · rw [if_pos hu] at l3 ⊢
        obtain ⟨L, q1, q2, q3⟩ := l3
        refine ⟨L, ?_, q2.size, q3⟩
        rw [show k2.linear = L2 from if_pos hu]
        exact q1
      · rw [if_neg hu] at l3 ⊢
        exact l3⟩
  refine ⟨k1, k2, T, t1, t2, hL, rfl, fun hu => ?_⟩
  have hu' : k.usesLinear = true := hu
  rw [show k2.linear = L2 from if_pos hu']
  exact hT hu'

end Kriging

/-! ## The correlation vector and the predictor -/

theorem Lib.correlationVector_eq {B : Blas ℝ} (hB : Documented B) {s : Corr.ExpCorr ℝ} {n m : Nat}
    {X : Nat → Nat → ℝ} (h : Ready s n m X) {x : List ℝ} (hx : x.length = m) :
    Lib.correlationVector B Real.exp Corr.realPow s x =
      s.computeCorrelationVector Real.exp Corr.realPow x := by
  unfold Lib.correlationVector Corr.ExpCorr.computeCorrelationVector
  rw [if_neg (by simp [h.set]), if_neg (by simp [h.set])]
  congr 1
  funext i
  cases hg : Mat.getRow s.base.X (i : Nat) with
  | error e => rfl
  | ok y =>
    have hc := h.samples.2.1
    have hy : y.length = m := by
      unfold Mat.getRow at hg
      split at hg
      · cases hg
      · obtain ⟨t1, -⟩ := tab_inv hg
        omega
    exact Lib.exponential_eq hB (by omega) (by omega) (by rw [h.theta_len]; omega)
      (by rw [h.gamma_len]; omega)

/-- Estimates of a fitted model in both builds. -/
structure Spec.SameEstimates (B : Blas ℝ) (k : Kriging ℝ) (m : Nat) : Prop where
  value : ∀ x : List ℝ, x.length = m → Lib.interpolate B realFns k x = k.interpolate realFns x
  variance : ∀ x : List ℝ, x.length = m →
    Lib.interpolateWithVariance B realFns k x = k.interpolateWithVariance realFns x

theorem Lib.sameEstimates {B : Blas ℝ} (hB : Documented B) {k : Kriging ℝ} {n m : Nat}
    {X : Nat → Nat → ℝ} (h : Ready k.corr n m X)
    (hs : ∀ b, Lib.cholSolveLinearSystem B k.chol b = k.chol.solveLinearSystem b) :
    SameEstimates B k m := by
  have h1 : ∀ x : List ℝ, x.length = m →
      Lib.interpolate B realFns k x = k.interpolate realFns x := by
    intro x hx
    unfold Lib.interpolate Kriging.interpolate
    have : Lib.correlationVector B realFns.exp realFns.pow k.corr x =
      k.corr.computeCorrelationVector realFns.exp realFns.pow x := Lib.correlationVector_eq hB h hx
    simp only [this, Lib.dot_eq hB]
  refine ⟨h1, fun x hx => ?_⟩
  unfold Lib.interpolateWithVariance Kriging.interpolateWithVariance
  have : Lib.correlationVector B realFns.exp realFns.pow k.corr x =
    k.corr.computeCorrelationVector realFns.exp realFns.pow x := Lib.correlationVector_eq hB h hx
  simp only [h1 x hx, this, Lib.dot_eq hB, hs]

theorem Lib.sameFactor {B : Blas ℝ} (hB : Documented B) {s : Corr.ExpCorr ℝ} {n m : Nat}
    {X : Nat → Nat → ℝ} (hR : Ready s n m X) (hn : 0 < n)
    (hP : PosDef n (krigingMatrix m (vecFun s.theta) (vecFun s.gamma) s.base.epsilon X)) :
    ∀ c, s.computeCorrelationMatrix realFns.exp realFns.pow = .ok c →
      Lib.SameFactor B realFns.sqrt c.base.matrix := by
  intro c hc
  obtain ⟨M, G, c1, c2, c3, -, c5⟩ := Corr.computeCorrelationMatrix_ok hR
  have : s.computeCorrelationMatrix realFns.exp realFns.pow = _ := c1
  rw [this] at hc
  cases hc
  have hM : IsMat M n n (krigingMatrix m (vecFun s.theta) (vecFun s.gamma) s.base.epsilon X) := by
    refine c2.congr fun i j hi hj => ?_
    unfold krigingMatrix
    by_cases hij : i = j
    · subst hij; rw [if_pos rfl, if_pos rfl, c3.2.1 i hi]
    · rw [if_neg hij, if_neg hij, c5 i j hi hj hij]
  exact Lib.cholesky_eq hB isSqrt_real hM (krigingMatrix_symm _ _ _ _ _ _) hn hP

/-! ## Initialization -/

theorem Lib.linearInit_eq {B : Blas ℝ} (hB : Documented B) {m : LinearModel ℝ} {n dim : Nat}
    {X : Nat → Nat → ℝ} (hm : Trainable m n dim X) {L : LinearModel ℝ}
    (h : m.init = (L, .ok ())) : Lib.linearInit B m = m.init := by
  have hd := hm.dimension
  have hdp := hm.dimPos
  have hc := hm.count
  have hcp := hm.countPos
  unfold Lib.linearInit
  unfold LinearModel.init at h ⊢
  rw [if_neg (by simp [hm.read]), if_neg (by omega)] at h ⊢
  rw [if_neg (by simp [hm.read]), if_neg (by omega)]
  set m1 : LinearModel ℝ := { m with weights := Vec.resize m.weights (m.dimension + 1)
                                     regularization := some (1 / 10 ^ 8) } with hm1
  have ht : Trainable m1 n dim X :=
    ⟨hm.read, hm.normalized, hm.dimension, hm.dimPos, hm.count, hm.countPos, hm.inputs, hm.outputs⟩
  obtain ⟨w, e1, -, -, e2⟩ := C124_linear hB ht (lambda := 1 / 10 ^ 8) rfl (by positivity)
  obtain ⟨m4, e4⟩ : ∃ m4, m1.train = .ok m4 := by
    cases e : m1.train with
    | error e' => simp only [e] at h; exact absurd (congrArg Prod.snd h) (by simp)
    | ok m4 => exact ⟨m4, rfl⟩
  have htr : Lib.linearTrain B m1 = m1.train := by
    have a1 : ¬ m1.isNormalized = false := by simp [ht.normalized]
    have a2 : ¬ m1.isRead = false := by simp [ht.read]
    have a3 : ¬ m1.dimension = 0 := by rw [ht.dimension]; omega
    have a4 : ¬ m1.numberOfSamples = 0 := by rw [ht.count]; omega
    unfold Lib.linearTrain
    unfold LinearModel.train at e4 ⊢
    rw [if_neg a1, if_neg a2, if_neg a3, if_neg a4] at e4 ⊢
    rw [if_neg a1, if_neg a2, if_neg a3, if_neg a4, e1]
    rcases e2 with e2 | e2
    · rw [e2]
    · rw [e2] at e4; cases e4
  simp only [htr]
  rfl

theorem andThen_congr {σ : Type} {p : σ × Res Unit} {f g : σ → σ × Res Unit}
    (h : ∀ s, p = (s, .ok ()) → f s = g s) : andThen p f = andThen p g := by
  rcases p with ⟨s, _ | _⟩
  · rfl
  · exact h s rfl

/-- The correlation function after the linear part of the initialization. -/
theorem Kriging.linearStep_corr {k1 k2 : Kriging ℝ}
    (h2 : (if k1.usesLinear = true then
        andThen (k1.onLinear k1.linear.init) fun k => commit k k.subtractLinear
      else (k1, .ok ())) = (k2, .ok ())) : k2.corr = k1.corr := by
  by_cases hu : k1.usesLinear = true
  · rw [if_pos hu] at h2
    obtain ⟨k3, e1, e2⟩ := andThen_inv h2
    have e3 := commit_inv e2
    unfold Kriging.subtractLinear at e3
    obtain ⟨l, -, e3⟩ := bind_ok_inv e3
    obtain ⟨ys, -, e3⟩ := bind_ok_inv e3
    obtain ⟨d, -, e3⟩ := bind_ok_inv e3
    cases e3
    have := congrArg Prod.fst e1
    rw [← show _ = k3 from this]
    rfl
  · rw [if_neg hu] at h2
    cases h2; rfl

theorem Lib.init_eq {B : Blas ℝ} (hB : Documented B) {F : Fns ℝ} {k : Kriging ℝ}
    (hl : k.usesLinear = true → Lib.linearInit B k.linear = k.linear.init)
    (h : ∀ k1, k.setupCorr = (k1, .ok ()) → k1.linear = k.linear ∧ k1.usesLinear = k.usesLinear ∧
      ∀ c, k1.corr.computeCorrelationMatrix F.exp F.pow = .ok c →
        Lib.SameFactor B F.sqrt c.base.matrix) :
    Lib.init B F k = k.init F := by
  unfold Lib.init Kriging.init
  split_ifs
  all_goals try rfl
  refine andThen_congr fun k1 hs => ?_
  obtain ⟨q1, q2, q3⟩ := h k1 hs
  have hlin : (if k1.usesLinear = true then
      andThen (({ k1 with numberOfHyperParameters := 2 * k1.dimension } : Kriging ℝ).onLinear
        (Lib.linearInit B k1.linear)) fun k => commit k k.subtractLinear
    else (({ k1 with numberOfHyperParameters := 2 * k1.dimension } : Kriging ℝ), .ok ())) =
    (if k1.usesLinear = true then
      andThen (({ k1 with numberOfHyperParameters := 2 * k1.dimension } : Kriging ℝ).onLinear
        k1.linear.init) fun k => commit k k.subtractLinear
    else (({ k1 with numberOfHyperParameters := 2 * k1.dimension } : Kriging ℝ), .ok ())) := by
    by_cases hu : k1.usesLinear = true
    · rw [if_pos hu, if_pos hu, q1, hl (by rw [← q2]; exact hu)]
    · rw [if_neg hu, if_neg hu]
  refine (congrArg (fun p => andThen p _) hlin).trans (andThen_congr fun k2 h2 => ?_)
  have hcorr : k2.corr = k1.corr := Kriging.linearStep_corr
    (k1 := { k1 with numberOfHyperParameters := 2 * k1.dimension }) h2
  rw [Lib.update_eq hB (by rw [hcorr]; exact q3)]

theorem Lib.init_solver {B : Blas ℝ} {F : Fns ℝ} {k k' : Kriging ℝ} (e : k.init F = (k', .ok ()))
    (h : ∀ k1, k.setupCorr = (k1, .ok ()) →
      ∀ c, k1.corr.computeCorrelationMatrix F.exp F.pow = .ok c →
        Lib.SameFactor B F.sqrt c.base.matrix) (b : List ℝ) :
    Lib.cholSolveLinearSystem B k'.chol b = k'.chol.solveLinearSystem b := by
  unfold Kriging.init at e
  split at e; · cases e
  split at e; · cases e
  split at e; · cases e
  split at e; · cases e
  obtain ⟨k1, e1, e⟩ := andThen_inv e
  obtain ⟨k2, e2, e⟩ := andThen_inv e
  obtain ⟨k3, e3, e⟩ := andThen_inv e
  have hcorr : k2.corr = k1.corr := Kriging.linearStep_corr
    (k1 := { k1 with numberOfHyperParameters := 2 * k1.dimension }) e2
  cases e
  exact Lib.update_solver (by rw [hcorr]; exact h k1 e1) e3 b

/-- `readData`, `normalizeData` and `initializeSurrogateModel` of a model with a nugget give the same
object in both builds, and the estimates and variances of this object are the same at every
point. -/
theorem C124_init {B : Blas ℝ} (hB : Documented B) {k : Kriging ℝ} {dim n : Nat} {b : Bounds ℝ}
    (h : KrigingConfig k dim b) (hb : ProperBox b dim) (hdim : 0 < dim)
    (h99 : k.usesLinear = true → dim ≤ 99) (he : 0 < k.corr.base.epsilon)
    {file : Option Str} {A : Mat ℝ} {F : Nat → Nat → ℝ} (hread : readFromCSV file false = .ok A)
    (hA : IsMat A n (dim + 1) F) (hlt : SMData.validationCount n k.data.ratio < n)
    {perm permL : List Nat} (hp : perm.Perm (List.range n))
    (hpL : permL.Perm (List.range n)) :
    ∃ k', k.load file perm permL = (k', .ok ()) ∧
      Lib.load B realFns k file perm permL = (k', .ok ()) ∧ SameEstimates B k' dim := by
  obtain ⟨th, ga, hst⟩ : ∃ th ga, Kriging.startParameters k dim th ga := by
    unfold Kriging.startParameters
    by_cases hc : k.corrInitialized = true
    · simp only [hc, if_true]; exact ⟨_, _, rfl, rfl⟩
    · simp only [hc]; exact ⟨_, _, rfl, rfl⟩
  have hgood := Kriging.startParameters_good h hst
  obtain ⟨tr, va, hs, -, hl⟩ := Kriging.load_steps h hb hdim h99 hread hA hp hpL hst
  have htr : tr ≠ [] := by
    rintro rfl
    have h1 := hs.1.length_eq
    have h2 := hs.2
    simp at h1
    omega
  obtain ⟨k1, k2, T, e1, e2, hL, heps, hlin⟩ := hl htr
  have hpos : 0 < tr.length := List.length_pos_of_ne_nil htr
  have hPD : PosDef tr.length (krigingMatrix dim (vecFun th) (vecFun ga) k2.corr.base.epsilon
      (fun i => normalized b dim F (tr.getD i 0))) := by
    rw [heps]
    exact PosDef.of_good hgood he _
  obtain ⟨k', e3, hmod, -⟩ := Kriging.init_ok hL hPD
  have e0 := Kriging.setupCorr_ok hL.inputs hL.countPos hL.dimPos hL.start
  have hready : Ready (Kriging.corrState k2 tr.length dim th ga).corr tr.length dim
      (fun i => normalized b dim F (tr.getD i 0)) :=
    ⟨rfl, hL.inputs, rfl, hL.thLen, hL.gaLen, hL.thNonneg, hL.gaRange⟩
  have hF := Lib.sameFactor hB hready hpos hPD
  have e4 : Lib.init B realFns k2 = k2.init realFns := by
    refine Lib.init_eq hB (fun hu => ?_) (fun k3 h3 => ?_)
    · have := hL.linear
      rw [if_pos hu] at this
      obtain ⟨L, l1, -⟩ := this
      exact Lib.linearInit_eq hB (hlin hu) l1
    · rw [e0] at h3
      cases h3
      exact ⟨rfl, rfl, hF⟩
  refine ⟨k', andThen_ok e1 (andThen_ok e2 e3), andThen_ok e1 (andThen_ok e2 (e4.trans e3)), ?_⟩
  refine Lib.sameEstimates hB hmod.fitted.ready (Lib.init_solver e3 fun k3 h3 => ?_)
  rw [e0] at h3
  cases h3
  exact hF

/-- A copy of the model during the training: for hyperparameters in the box of the search, the update
and the likelihood are the same in both builds, and so are the estimates of the updated model. -/
theorem C124_training {B : Blas ℝ} (hB : Documented B) {k : Kriging ℝ} {file : Option Str} {n dim : Nat}
    {F : Nat → Nat → ℝ} {b : Bounds ℝ} {T : List ℝ → ℝ} (h : CurrentModel k file n dim F b T)
    (he : 0 < k.corr.base.epsilon) {x : List ℝ}
    (hx : InBox (Kriging.hyperLb dim) (Kriging.hyperUb dim) x) :
    Lib.evaluateAt B realFns k x = k.evaluateAt realFns x ∧
    Lib.likelihoodAt B realFns k x = k.likelihoodAt realFns x ∧
    ∃ k', k.evaluateAt realFns x = (k', .ok ()) ∧ SameEstimates B k' dim := by
  have hp := h.prepared
  have hgood := Kriging.good_of_box hx
  have hlen : x.length = 2 * dim := by
    rw [hx.1]; simp [Kriging.hyperLb]; omega
  have hp1 := hp.withParameters hgood
  set k0 : Kriging ℝ := { k with corr := ⟨k.corr.base, x.take dim, x.drop dim⟩ } with hk0
  have hpd : PosDef n (corrOf k0 dim (normalized b dim F)) := PosDef.of_good hgood he _
  have hset : k.corr.setHyperParameters x = .ok ⟨k.corr.base, x.take dim, x.drop dim⟩ := by
    have := Kriging.setHyperParameters_ok (s := k.corr) (h := x) (by rw [hp.corrDim]; exact hp.dimPos)
      (by rw [hp.corrDim]; exact hlen)
    rw [hp.corrDim] at this
    exact this
  have hF := Lib.sameFactor hB hp1.ready hp.countPos hpd
  have e1 : Lib.evaluateAt B realFns k x = k.evaluateAt realFns x := by
    unfold Lib.evaluateAt Kriging.evaluateAt
    refine (andThen_commit (s' := k0) (bind_eq hset rfl) ?_)
    exact (Lib.update_eq hB hF).trans (andThen_commit (s' := k0) (bind_eq hset rfl) rfl).symm
  refine ⟨e1, ?_, ?_⟩
  · unfold Lib.likelihoodAt Kriging.likelihoodAt
    rw [e1]
    split_ifs <;> rfl
  · obtain ⟨M, L, a, b', beta, c, s, e, hdone, hm, hp'⟩ := hp1.update hpd
    refine ⟨_, andThen_commit (s' := k0) (bind_eq hset rfl) e, ?_⟩
    exact Lib.sameEstimates hB hm.fitted.ready (Lib.update_solver hF e)

/-! ## Concrete cases -/

/-- Two samples, with and without a linear trend, nugget `1e-12`, the library of BlasReal.lean. -/
example (lin : Bool) : ∃ file k k', configure 1 lin ⟨[(0 : ℝ)], [2], 1, true⟩ (1 / 10 ^ 12) none = .ok k ∧
    k.load file [1, 0] [0, 1] = (k', .ok ()) ∧
    Lib.load realBlas realFns k file [1, 0] [0, 1] = (k', .ok ()) ∧ SameEstimates realBlas k' 1 := by
  obtain ⟨file, A, h1, h2⟩ := exampleFile
  obtain ⟨k, e, hc, -⟩ := configure_ok (dim := 1) (lin := lin) (b := ⟨[(0 : ℝ)], [2], 1, true⟩)
    (eps := 1 / 10 ^ 12) (ratio := none) exampleBox (by norm_num) (by norm_num) (by norm_num)
    (by simp)
  obtain ⟨k', h⟩ := C124_init realBlas_documented hc.config exampleBox (by norm_num) (by simp)
    (by rw [hc.epsilon]; norm_num) h1 h2 (by rw [hc.ratio]; simp [SMData.validationCount])
    (perm := [1, 0]) (permL := [0, 1]) (by decide) (by decide)
  exact ⟨file, k, k', e, h⟩

/-- A model in training. -/
example : ∃ k : Kriging ℝ, Lib.likelihoodAt realBlas realFns k [1, 3 / 2] = k.likelihoodAt realFns [1, 3 / 2] := by
  obtain ⟨k, file, T, h, he, hN, hT⟩ := exists_readyToTrain (v := 1 / 10 ^ 6) (p := 6) ⟨1, by norm_num⟩
  refine ⟨k, (C124_training realBlas_documented h.current h.likelihood.nugget (x := [1, 3 / 2]) ?_).2.1⟩
  refine ⟨rfl, rfl, fun i l u v h1 h2 h3 => ?_⟩
  rcases (by
    have : i < 2 := by
      by_contra hi
      rw [List.getElem?_eq_none (by simp; omega)] at h3
      cases h3
    omega : i = 0 ∨ i = 1) with rfl | rfl <;>
  · simp [Kriging.hyperLb, Kriging.hyperUb] at h1 h2 h3
    subst h1 h2 h3
    norm_num

/-- Two samples on a line. -/
example : ∃ w, Lib.ridgeWeights realBlas ({ (LinearModel.new : LinearModel ℝ) with
    dimension := 1, numberOfSamples := 2, data := { (SMData.new : SMData ℝ) with
      X := ⟨2, 1, [0, 1]⟩, y := [1, 3] },
    regularization := some (1 / 10 ^ 20), isRead := true, isNormalized := true }) = .ok w := by
  obtain ⟨w, h, -⟩ := C124_linear realBlas_documented (m := { (LinearModel.new : LinearModel ℝ) with
      dimension := 1, numberOfSamples := 2, data := { (SMData.new : SMData ℝ) with
        X := ⟨2, 1, [0, 1]⟩, y := [1, 3] },
      regularization := some (1 / 10 ^ 20), isRead := true, isNormalized := true })
    (n := 2) (dim := 1) (X := fun i _ => i) (lambda := 1 / 10 ^ 20)
    ⟨rfl, rfl, rfl, by norm_num, rfl, by norm_num, isMat_iff.2 ⟨rfl, rfl, rfl, fun i j hi hj => by
      rcases (by omega : i = 0 ∨ i = 1) with rfl | rfl <;>
        (obtain rfl : j = 0 := by omega) <;> simp⟩, rfl⟩ rfl (by norm_num)
  exact ⟨w, h⟩

end Rodeo
