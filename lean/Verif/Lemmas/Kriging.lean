import Verif.Model.Kriging
import Verif.Spec.Kriging
import Verif.Lemmas.Linear
import Verif.Lemmas.SurrogateData
import Verif.Props.CorrPD

set_option linter.unusedSectionVars false

namespace Rodeo
open Spec Mat Finset

section generic
variable {K : Type} [Field K] [LinearOrder K] [IsStrictOrderedRing K]

theorem Vec.dot_ok {a b : List K} {n : Nat} (ha : a.length = n) (hb : b.length = n) :
    Vec.dot a b = .ok (∑ i ∈ range n, vecFun a i * vecFun b i) := by
  unfold Vec.dot
  rw [if_neg (by rw [ha, hb]; simp), ha]
  exact sumLoop_ok fun k hk => bind_eq (Corr.rawAt_vecFun (by omega))
    (bind_eq (Corr.rawAt_vecFun (by omega)) rfl)

theorem Vec.subScalar_vecFun {v : List K} {a : K} {i : Nat} (h : i < v.length) :
    vecFun (Vec.subScalar v a) i = vecFun v i - a := by
  simp [Vec.subScalar, vecFun, List.getD, h]

theorem vecFun_replicate {n i : Nat} (a : K) (h : i < n) : vecFun (List.replicate n a) i = a := by
  simp [vecFun, List.getD, h]

theorem Vec.mean_ok {a : List K} (ha : 0 < a.length) :
    Vec.mean a = .ok ((∑ i ∈ range a.length, vecFun a i) / (a.length : K)) := by
  unfold Vec.mean
  rw [if_neg (by omega)]
  exact bind_eq (sumLoop_ok fun k hk => Corr.rawAt_vecFun hk) rfl

end generic

/-! ## Linear algebra on index functions -/

theorem dotp_comm (n : Nat) (a b : Nat → ℝ) : dotp n a b = dotp n b a :=
  sum_congr rfl fun _ _ => mul_comm _ _

theorem dotp_congr {n : Nat} {a a' b b' : Nat → ℝ} (h1 : ∀ i, i < n → a i = a' i)
    (h2 : ∀ i, i < n → b i = b' i) : dotp n a b = dotp n a' b' :=
  sum_congr rfl fun i hi => by rw [h1 i (mem_range.1 hi), h2 i (mem_range.1 hi)]

/-- `x^T R z` for two solutions. -/
theorem dotp_solves {n : Nat} {R : Nat → Nat → ℝ} {x z b c : Nat → ℝ} (hS : Symm n R)
    (hx : Solves n R x b) (hz : Solves n R z c) : dotp n x c = dotp n z b := by
  have e1 : dotp n x c = ∑ i ∈ range n, ∑ j ∈ range n, x i * (R i j * z j) := by
    refine sum_congr rfl fun i hi => ?_
    rw [← hz i (mem_range.1 hi), mul_sum]
  have e2 : dotp n z b = ∑ i ∈ range n, ∑ j ∈ range n, z i * (R i j * x j) := by
    refine sum_congr rfl fun i hi => ?_
    rw [← hx i (mem_range.1 hi), mul_sum]
  rw [e1, e2, sum_comm]
  refine sum_congr rfl fun i hi => sum_congr rfl fun j hj => ?_
  rw [hS j i (mem_range.1 hj) (mem_range.1 hi)]; ring

theorem dotp_solves_self {n : Nat} {R : Nat → Nat → ℝ} {x b : Nat → ℝ} (hx : Solves n R x b) :
    dotp n x b = quadForm n R x := by
  refine sum_congr rfl fun i hi => ?_
  rw [← hx i (mem_range.1 hi), mul_sum]
  exact sum_congr rfl fun j _ => by ring

theorem Spec.PosDef.semi {n : Nat} {R : Nat → Nat → ℝ} (h : PosDef n R) : PosSemidef n R := by
  intro x
  by_cases hx : ∃ i, i < n ∧ x i ≠ 0
  · exact (h x hx).le
  · push Not at hx
    refine le_of_eq (Eq.symm ?_)
    refine sum_eq_zero fun i hi => sum_eq_zero fun j _ => ?_
    rw [hx i (mem_range.1 hi)]; ring

theorem Spec.PosDef.unique {n : Nat} {R : Nat → Nat → ℝ} (h : PosDef n R) {x z b : Nat → ℝ}
    (hx : Solves n R x b) (hz : Solves n R z b) : ∀ i, i < n → x i = z i := by
  by_contra hne
  push Not at hne
  obtain ⟨i, hi, hne⟩ := hne
  have h0 : Solves n R (fun j => x j - z j) (fun _ => 0) := by
    intro a ha
    simp only [mul_sub, sum_sub_distrib]
    rw [hx a ha, hz a ha, sub_self]
  have h1 := dotp_solves_self h0
  have h2 := h (fun j => x j - z j) ⟨i, hi, sub_ne_zero.2 hne⟩
  rw [← h1] at h2
  simp [dotp] at h2

theorem Spec.PosDef.one_pos {n : Nat} {R : Nat → Nat → ℝ} (h : PosDef n R) (hn : 0 < n) {u : Nat → ℝ}
    (hu : Solves n R u (fun _ => 1)) : 0 < ∑ i ∈ range n, u i := by
  have e : ∑ i ∈ range n, u i = dotp n u (fun _ => 1) := by simp [dotp]
  rw [e, dotp_solves_self hu]
  refine h u ?_
  by_contra hz
  push Not at hz
  have := hu 0 hn
  rw [sum_eq_zero fun j hj => by rw [hz j (mem_range.1 hj), mul_zero]] at this
  exact zero_ne_one this

theorem Spec.Solves.congr {n : Nat} {R : Nat → Nat → ℝ} {x b b' : Nat → ℝ} (h : Solves n R x b)
    (hb : ∀ i, i < n → b i = b' i) : Solves n R x b' := fun i hi => by rw [h i hi, hb i hi]

theorem Spec.Solves.congr_mat {n : Nat} {R R' : Nat → Nat → ℝ} {x b : Nat → ℝ} (h : Solves n R x b)
    (hR : ∀ i j, i < n → j < n → R i j = R' i j) : Solves n R' x b := fun i hi => by
  rw [← h i hi]
  exact sum_congr rfl fun j hj => by rw [hR i j hi (mem_range.1 hj)]

theorem Spec.PosDef.congr {n : Nat} {R R' : Nat → Nat → ℝ} (h : PosDef n R)
    (hR : ∀ i j, i < n → j < n → R i j = R' i j) : PosDef n R' := by
  intro x hx
  have : quadForm n R' x = quadForm n R x :=
    sum_congr rfl fun i hi => sum_congr rfl fun j hj => by
      rw [hR i j (mem_range.1 hi) (mem_range.1 hj)]
  rw [this]; exact h x hx

theorem krigingMatrix_symm (n m : Nat) (t g : Nat → ℝ) (e : ℝ) (X : Nat → Nat → ℝ) :
    Symm n (krigingMatrix m t g e X) := by
  intro i j _ _
  unfold krigingMatrix
  by_cases h : i = j
  · rw [if_pos h, if_pos h.symm]
  · rw [if_neg h, if_neg (Ne.symm h), Corr.expCorr_comm]

/-- With a positive number on the diagonal the matrix is positive definite. -/
theorem krigingMatrix_posDef {n m : Nat} {t g : Nat → ℝ} {e : ℝ} {X : Nat → Nat → ℝ}
    (ht : ∀ k, k < m → 0 ≤ t k) (hg : ∀ k, k < m → 0 ≤ g k ∧ g k ≤ 2) (he : 0 < e) :
    PosDef n (krigingMatrix m t g e X) := by
  have h1 : PosSemidef n (krigingMatrix m t g 0 X) :=
    Corr.expCorr_psd (F := X) ht hg (fun i _ => by simp [krigingMatrix])
      (fun i j _ _ hij => by simp [krigingMatrix, hij])
  refine PosDef.congr (Corr.posDef_add_eps h1 he) ?_
  intro i j _ _
  unfold krigingMatrix
  split_ifs <;> ring

/-! ## The fitted model -/

/-- The state of a model whose correlation matrix has been factorized: `n` samples with inputs `X` and
outputs `y`. -/
structure Spec.Fitted (k : Kriging ℝ) (n m : Nat) (X : Nat → Nat → ℝ) (y : Nat → ℝ) : Prop where
  countPos : 0 < n
  ready : Ready k.corr n m X
  posDef : PosDef n (krigingMatrix m (vecFun k.corr.theta) (vecFun k.corr.gamma)
    k.corr.base.epsilon X)
  solver : ∀ b : List ℝ, b.length = n → ∃ x, k.chol.solveLinearSystem b = .ok x ∧ x.length = n ∧
    Solves n (krigingMatrix m (vecFun k.corr.theta) (vecFun k.corr.gamma) k.corr.base.epsilon X)
      (vecFun x) (vecFun b)
  ones : k.ones = List.replicate n 1
  RinvI_len : k.RinvI.length = n
  RinvI : Solves n (krigingMatrix m (vecFun k.corr.theta) (vecFun k.corr.gamma)
    k.corr.base.epsilon X) (vecFun k.RinvI) (fun _ => 1)
  weights_len : k.RinvYsMinBeta.length = n
  weights : Solves n (krigingMatrix m (vecFun k.corr.theta) (vecFun k.corr.gamma)
    k.corr.base.epsilon X) (vecFun k.RinvYsMinBeta) (fun i => y i - k.beta0)
  mean : k.averageBeta0 = false → ∑ i ∈ range n, vecFun k.RinvYsMinBeta i = 0
  variance : k.sigmaSquared = 1 / (n : ℝ) * dotp n (fun i => y i - k.beta0) (vecFun k.RinvYsMinBeta)

namespace Kriging

/-- The object with the results of the linear systems. -/
def withSolution (k : Kriging ℝ) (a b : List ℝ) (beta : ℝ) (c : List ℝ) (s : ℝ) : Kriging ℝ :=
  { k with RinvYs := a, RinvI := b, beta0 := beta, RinvYsMinBeta := c, sigmaSquared := s }

/-- The object after `updateAuxilliaryFields`. -/
def fitState (k : Kriging ℝ) (M : Mat ℝ) (L : CholeskySystem ℝ) (a b : List ℝ) (beta : ℝ)
    (c : List ℝ) (s : ℝ) (n : Nat) : Kriging ℝ :=
  { k with
      corr := { k.corr with base := { k.corr.base with matrix := M } }, chol := L, RinvYs := a,
      RinvI := b, RinvYsMinBeta := c, ones := List.replicate n 1, beta0 := beta,
      sigmaSquared := s }

theorem solveAll_ok {k : Kriging ℝ} {n : Nat} {R : Nat → Nat → ℝ} (hn : 0 < n)
    (hN : k.numberOfSamples = n) (hS : Symm n R) (hP : PosDef n R)
    (hsolve : ∀ b : List ℝ, b.length = n → ∃ x, k.chol.solveLinearSystem b = .ok x ∧
      x.length = n ∧ Solves n R (vecFun x) (vecFun b))
    (hones : k.ones = List.replicate n 1) (hy : k.data.y.length = n) :
    ∃ a b beta c s, k.solveAll = .ok (withSolution k a b beta c s) ∧
      a.length = n ∧ Solves n R (vecFun a) (vecFun k.data.y) ∧
      b.length = n ∧ Solves n R (vecFun b) (fun _ => 1) ∧
      c.length = n ∧ Solves n R (vecFun c) (fun i => vecFun k.data.y i - beta) ∧
      (k.averageBeta0 = false → ∑ i ∈ range n, vecFun c i = 0) ∧
      (k.averageBeta0 = true → beta = (∑ i ∈ range n, vecFun k.data.y i) / (n : ℝ)) ∧
      s = 1 / (n : ℝ) * dotp n (fun i => vecFun k.data.y i - beta) (vecFun c) := by
  have hol : k.ones.length = n := by rw [hones]; simp
  obtain ⟨a, e1, la, ha⟩ := hsolve k.data.y hy
  obtain ⟨b, e2, lb, hb⟩ := hsolve k.ones hol
  have hb' : Solves n R (vecFun b) (fun _ => 1) := by
    refine hb.congr fun i hi => ?_
    rw [hones]; exact vecFun_replicate 1 hi
  have hpos := hP.one_pos hn hb'
  have hdot : ∀ v : List ℝ, v.length = n → Vec.dot k.ones v = .ok (∑ i ∈ range n, vecFun v i) := by
    intro v hv
    rw [Vec.dot_ok hol hv]
    congr 1
    refine sum_congr rfl fun i hi => ?_
    rw [hones, vecFun_replicate 1 (mem_range.1 hi), one_mul]
  set beta : ℝ := if k.averageBeta0 then (∑ i ∈ range n, vecFun k.data.y i) / (n : ℝ)
    else 1 / (∑ i ∈ range n, vecFun b i) * ∑ i ∈ range n, vecFun a i with hbeta
  have hsl : (Vec.subScalar k.data.y beta).length = n := by simp [Vec.subScalar, hy]
  obtain ⟨c, e3, lc, hc⟩ := hsolve (Vec.subScalar k.data.y beta) hsl
  have hc' : Solves n R (vecFun c) (fun i => vecFun k.data.y i - beta) :=
    hc.congr fun i hi => Vec.subScalar_vecFun (by omega)
  refine ⟨a, b, beta, c, _, ?_, la, ha, lb, hb', lc, hc', ?_, ?_, rfl⟩
  · unfold solveAll
    refine bind_eq e1 (bind_eq e2 (bind_eq (hdot b lb) (bind_eq (a := 1 / ∑ i ∈ range n, vecFun b i) ?_
      (bind_eq (hdot a la) (bind_eq (a := beta) ?_ (bind_eq e3 (bind_eq (Vec.dot_ok hsl lc) ?_)))))))
    · unfold fdiv
      rw [if_neg hpos.ne']
    · unfold chooseBeta
      rw [hbeta]
      cases k.averageBeta0
      · rfl
      · simp only [if_true]
        rw [Vec.mean_ok (by omega), hy]
    · have e5 : ∑ i ∈ range n, vecFun (Vec.subScalar k.data.y beta) i * vecFun c i =
          dotp n (fun i => vecFun k.data.y i - beta) (vecFun c) := by
        refine sum_congr rfl fun i hi => ?_
        rw [Vec.subScalar_vecFun (by rw [hy]; exact mem_range.1 hi)]
      unfold withSolution
      rw [hN, e5]
  · intro h
    have e : ∑ i ∈ range n, vecFun c i = dotp n (vecFun c) (fun _ => 1) := by simp [dotp]
    have e' : ∑ i ∈ range n, vecFun a i = dotp n (vecFun a) (fun _ => 1) := by simp [dotp]
    rw [e, dotp_solves hS hc' hb']
    have : dotp n (vecFun b) (fun i => vecFun k.data.y i - beta) =
        dotp n (vecFun b) (vecFun k.data.y) - beta * ∑ i ∈ range n, vecFun b i := by
      unfold dotp
      rw [mul_sum, ← sum_sub_distrib]
      exact sum_congr rfl fun i _ => by ring
    rw [this, ← dotp_solves hS ha hb', ← e', hbeta, if_neg (by rw [h]; simp)]
    field_simp
    ring
  · intro h
    rw [hbeta, if_pos h]

/-- `updateAuxilliaryFields` on a positive definite correlation matrix. -/
theorem update_ok {k : Kriging ℝ} {n m : Nat} {X : Nat → Nat → ℝ} (hread : k.isRead = true)
    (hnorm : k.isNormalized = true) (hci : k.corrInitialized = true) (hN : k.numberOfSamples = n)
    (hn : 0 < n) (hd : 0 < k.dimension) (hR : Ready k.corr n m X) (hy : k.data.y.length = n)
    (hP : PosDef n (krigingMatrix m (vecFun k.corr.theta) (vecFun k.corr.gamma)
      k.corr.base.epsilon X)) :
    ∃ M L a b beta c s,
      k.updateAuxilliaryFields realFns = (fitState k M L a b beta c s n, .ok ()) ∧ L.done = true ∧
      Fitted (fitState k M L a b beta c s n) n m X (vecFun k.data.y) := by
  set Rm := krigingMatrix m (vecFun k.corr.theta) (vecFun k.corr.gamma) k.corr.base.epsilon X with hRm
  have hS : Symm n Rm := krigingMatrix_symm _ _ _ _ _ _
  obtain ⟨M, G, c1, c2, c3, -, c5⟩ := Corr.computeCorrelationMatrix_ok hR
  have hM : IsMat M n n Rm := by
    refine c2.congr fun i j hi hj => ?_
    rw [hRm]; unfold krigingMatrix
    by_cases hij : i = j
    · subst hij; rw [if_pos rfl, if_pos rfl, c3.2.1 i hi]
    · rw [if_neg hij, if_neg hij, c5 i j hi hj hij]
  obtain ⟨L, H, f1, f2, f3, f4⟩ := (C48_partial isSqrt_real hM hS).1 hP
  set k1 : Kriging ℝ := { k with corr := { k.corr with base := { k.corr.base with matrix := M } } }
    with hk1
  set LS : CholeskySystem ℝ := { (k1.chol.setMatrix M) with fact := L, done := true } with hLS
  set k2 : Kriging ℝ := { k1 with chol := LS } with hk2
  set k3 : Kriging ℝ := { k2 with
      RinvYs := Vec.resize [] n, RinvI := Vec.resize [] n, RinvYsMinBeta := Vec.resize [] n,
      ones := List.replicate n 1, beta0 := 0, sigmaSquared := 0 } with hk3
  have hsolve : ∀ b : List ℝ, b.length = n → ∃ x, k3.chol.solveLinearSystem b = .ok x ∧
      x.length = n ∧ Solves n Rm (vecFun x) (vecFun b) := by
    intro b hb
    obtain ⟨x, x1, x2, x3⟩ := f4 b hb
    refine ⟨x, ?_, x2, x3⟩
    unfold CholeskySystem.solveLinearSystem
    rw [if_neg (by simp [hk3, hk2, hLS])]
    exact x1
  obtain ⟨a, b, beta, c, s, e, la, ha, lb, hb, lc, hc, hmean, -, hs⟩ :=
    solveAll_ok (k := k3) hn hN hS hP hsolve rfl hy
  refine ⟨M, LS, a, b, beta, c, s, ?_, rfl, ?_⟩
  · unfold updateAuxilliaryFields
    rw [if_neg (by simp [hread]), if_neg (by simp [hnorm]), if_neg (by simp [hci]),
      if_neg (by omega), if_neg (by omega)]
    refine andThen_commit (s' := k1) (bind_eq c1 rfl) ?_
    refine andThen_commit (s' := k2) (bind_eq (a := LS) ?_ rfl) ?_
    · unfold CholeskySystem.factorize
      exact bind_eq (a := (L, 1)) f1 (if_neg (show ¬ (1 : Int) = -1 by decide))
    · refine andThen_commit (s' := k3) ?_ ?_
      · unfold resizeDataObjects
        rw [if_neg (show ¬ k2.resetDataObjects.numberOfSamples = 0 from by
          show ¬ k.numberOfSamples = 0
          omega)]
        show Except.ok _ = Except.ok _
        rw [hk3, ← hN]
        rfl
      · rw [if_pos (show k3.chol.done = true from rfl)]
        exact commit_ok e
  · exact ⟨hn, ⟨hR.set, hR.samples, hR.count, hR.theta_len, hR.gamma_len, hR.theta_nonneg,
      hR.gamma_range⟩, hP, hsolve, rfl, lb, hb, lc, hc, hmean, hs⟩

end Kriging

/-! ## The predictor -/

theorem Corr.computeCorrelationVector_ok {s : Corr.ExpCorr ℝ} {n m : Nat} {X : Nat → Nat → ℝ}
    (h : Ready s n m X) {x : List ℝ} (hx : x.length = m) :
    ∃ r, s.computeCorrelationVector Real.exp Corr.realPow x = .ok r ∧ r.length = n ∧
      ∀ i, i < n → vecFun r i = expCorr m (vecFun s.theta) (vecFun s.gamma) (vecFun x) (X i) := by
  refine ⟨(List.range n).map fun i =>
    expCorr m (vecFun s.theta) (vecFun s.gamma) (vecFun x) (X i), ?_, by simp, ?_⟩
  · unfold Corr.ExpCorr.computeCorrelationVector
    rw [if_neg (by simp [h.set]), h.count]
    refine tab_ok fun i hi => bind_eq (getRow_ok h.samples hi (Or.inl rfl)) ?_
    rw [h.samples.2.1, Corr.exponential_real (by omega) (by simp) (by rw [h.theta_len])
      (by rw [h.gamma_len]) (fun g hg => (h.gamma_range g hg).1)]
    congr 1
    exact Corr.expCorr_congr (fun _ _ => rfl) (fun k hk => Corr.vecFun_map _ hk)
  · intro i hi
    exact Corr.vecFun_map _ hi

/-- Correlation of a point with itself. -/
theorem Corr.expCorr_self {m : Nat} {t g : Nat → ℝ} (hg : ∀ k, k < m → g k ≠ 0) (x : Nat → ℝ) :
    expCorr m t g x x = 1 := by
  unfold expCorr
  rw [sum_eq_zero, neg_zero, Real.exp_zero]
  intro k hk
  rw [sub_self, abs_zero, Real.zero_rpow (hg k (mem_range.1 hk)), mul_zero]

/-- The linear part of the model is the function `T` of the point. -/
def Spec.HasTrend (k : Kriging ℝ) (m : Nat) (T : List ℝ → ℝ) : Prop :=
  ∀ x : List ℝ, x.length = m → k.linearPart x = .ok (T x)

namespace Kriging

theorem interpolate_ok {k : Kriging ℝ} {n m : Nat} {X : Nat → Nat → ℝ} {y : Nat → ℝ}
    {T : List ℝ → ℝ} (h : Fitted k n m X y) (ht : HasTrend k m T) {x : List ℝ} (hx : x.length = m) :
    k.interpolate realFns x = .ok (T x + (k.beta0 +
      dotp n (fun i => expCorr m (vecFun k.corr.theta) (vecFun k.corr.gamma) (vecFun x) (X i))
        (vecFun k.RinvYsMinBeta))) := by
  obtain ⟨r, e1, l1, h1⟩ := Corr.computeCorrelationVector_ok h.ready hx
  unfold interpolate
  refine bind_eq (ht x hx) (bind_eq e1 (bind_eq (Vec.dot_ok l1 h.weights_len) ?_))
  congr 3
  exact sum_congr rfl fun i hi => by rw [h1 i (mem_range.1 hi)]

/-- The weights of the ordinary Kriging predictor. -/
theorem blup {n : Nat} {R : Nat → Nat → ℝ} {r z u : Nat → ℝ} (hn : 0 < n) (hS : Symm n R)
    (hP : PosDef n R) (hz : Solves n R z r) (hu : Solves n R u (fun _ => 1)) :
    IsBLUP n R r (fun i => z i + (1 - ∑ j ∈ range n, z j) / (∑ j ∈ range n, u j) * u i) ∧
    predictorError n R r (fun i => z i + (1 - ∑ j ∈ range n, z j) / (∑ j ∈ range n, u j) * u i) =
      1 - dotp n r z + (dotp n r u - 1) * (dotp n r u - 1) / ∑ j ∈ range n, u j ∧
    dotp n r u = ∑ j ∈ range n, z j := by
  have hpos := hP.one_pos hn hu
  set s := ∑ j ∈ range n, u j with hs
  set mu := (1 - ∑ j ∈ range n, z j) / s with hmu
  have hzu : dotp n r u = ∑ j ∈ range n, z j := by
    rw [dotp_comm, ← dotp_solves hS hz hu]; simp [dotp]
  have hl : Solves n R (fun i => z i + mu * u i) (fun i => r i + mu) := by
    intro i hi
    have : ∀ j, R i j * (z j + mu * u j) = R i j * z j + mu * (R i j * u j) := fun j => by ring
    simp only [this, sum_add_distrib, ← mul_sum]
    rw [hz i hi, hu i hi, mul_one]
  have hun : Unbiased n (fun i => z i + mu * u i) := by
    show ∑ i ∈ range n, (z i + mu * u i) = 1
    rw [sum_add_distrib, ← mul_sum, ← hs, hmu, div_mul_cancel₀ _ hpos.ne']
    ring
  have hmul : ∀ nu : Nat → ℝ, Unbiased n nu →
      dotp n nu (fun i => r i + mu) = dotp n nu r + mu := by
    intro nu hnu
    have : dotp n nu (fun i => r i + mu) = dotp n nu r + (∑ i ∈ range n, nu i) * mu := by
      unfold dotp
      rw [sum_mul, ← sum_add_distrib]
      exact sum_congr rfl fun i _ => by ring
    rw [this, show ∑ i ∈ range n, nu i = 1 from hnu, one_mul]
  have hexp : ∀ nu : Nat → ℝ, Unbiased n nu → predictorError n R r nu =
      predictorError n R r (fun i => z i + mu * u i) +
        quadForm n R (fun i => nu i - (z i + mu * u i)) := by
    intro nu hnu
    have e1 : quadForm n R nu = quadForm n R (fun i => nu i - (z i + mu * u i)) +
        2 * dotp n nu (fun i => r i + mu) - dotp n (fun i => z i + mu * u i) (fun i => r i + mu) := by
      have a1 : dotp n nu (fun i => r i + mu) =
          ∑ i ∈ range n, ∑ j ∈ range n, nu i * R i j * (z j + mu * u j) := by
        refine sum_congr rfl fun i hi => ?_
        rw [← hl i (mem_range.1 hi), mul_sum]
        exact sum_congr rfl fun j _ => by ring
      have a2 : dotp n nu (fun i => r i + mu) =
          ∑ i ∈ range n, ∑ j ∈ range n, (z i + mu * u i) * R i j * nu j := by
        rw [a1, sum_comm]
        refine sum_congr rfl fun i hi => sum_congr rfl fun j hj => ?_
        rw [hS j i (mem_range.1 hj) (mem_range.1 hi)]; ring
      rw [dotp_solves_self hl]
      have a3 : 2 * dotp n nu (fun i => r i + mu) =
          ∑ i ∈ range n, ∑ j ∈ range n, (nu i * R i j * (z j + mu * u j) +
            (z i + mu * u i) * R i j * nu j) := by
        simp only [sum_add_distrib]
        rw [← a1, ← a2]; ring
      rw [a3]
      unfold quadForm
      rw [← sum_add_distrib, ← sum_sub_distrib]
      refine sum_congr rfl fun i _ => ?_
      rw [← sum_add_distrib, ← sum_sub_distrib]
      exact sum_congr rfl fun j _ => by ring
    unfold predictorError
    rw [e1, hmul nu hnu, ← dotp_solves_self hl, hmul _ hun]
    ring
  refine ⟨⟨hun, fun nu hnu => ?_⟩, ?_, hzu⟩
  · rw [hexp nu hnu]
    have := hP.semi (fun i => nu i - (z i + mu * u i))
    linarith
  · unfold predictorError
    rw [← dotp_solves_self hl]
    have e1 := hmul _ hun
    have e2 : dotp n (fun i => z i + mu * u i) r = dotp n r z + mu * dotp n r u := by
      unfold dotp
      rw [mul_sum, ← sum_add_distrib]
      exact sum_congr rfl fun i _ => by ring
    rw [e1, e2, hzu, hmu]
    field_simp
    ring

/-- The correlation between a point and its prediction is at most one. -/
theorem rRr_le_one {n m : Nat} {t g : Nat → ℝ} {e : ℝ} {X : Nat → Nat → ℝ} {x z : Nat → ℝ}
    (ht : ∀ k, k < m → 0 ≤ t k) (hg : ∀ k, k < m → 0 ≤ g k ∧ g k ≤ 2) (he : 0 ≤ e)
    (hz : Solves n (krigingMatrix m t g e X) z (fun i => expCorr m t g x (X i))) :
    dotp n (fun i => expCorr m t g x (X i)) z ≤ 1 := by
  set r : Nat → ℝ := fun i => expCorr m t g x (X i) with hr
  set X' : Nat → Nat → ℝ := fun i => if i = n then x else X i with hX'
  have h1 : PosSemidef (n + 1) (krigingMatrix m t g 0 X') :=
    Corr.expCorr_psd (F := X') ht hg (fun i _ => by simp [krigingMatrix])
      (fun i j _ _ hij => by simp [krigingMatrix, hij])
  have h2 := h1 (fun i => if i = n then -1 else z i)
  have e1 : quadForm (n + 1) (krigingMatrix m t g 0 X') (fun i => if i = n then -1 else z i) =
      quadForm n (krigingMatrix m t g 0 X) z - 2 * dotp n r z + 1 := by
    unfold quadForm
    rw [sum_range_succ]
    have a1 : ∀ i ∈ range n, ∑ j ∈ range (n + 1), (if i = n then -1 else z i) *
        krigingMatrix m t g 0 X' i j * (if j = n then -1 else z j) =
        (∑ j ∈ range n, z i * krigingMatrix m t g 0 X i j * z j) - r i * z i := by
      intro i hi
      have hi' := mem_range.1 hi
      rw [sum_range_succ, if_pos rfl, if_neg (by omega)]
      have : krigingMatrix m t g 0 X' i n = r i := by
        unfold krigingMatrix
        rw [if_neg (by omega), Corr.expCorr_comm]
        simp [hX', hr, show i ≠ n by omega]
      rw [this, sum_congr rfl (fun j hj => ?_)]
      · ring
      · have hj' := mem_range.1 hj
        rw [if_neg (by omega)]
        congr 2
        unfold krigingMatrix
        simp [hX', show i ≠ n by omega, show j ≠ n by omega]
    have a2 : ∑ j ∈ range (n + 1), (if n = n then -1 else z n) *
        krigingMatrix m t g 0 X' n j * (if j = n then -1 else z j) = 1 - dotp n r z := by
      rw [sum_range_succ, if_pos rfl]
      have : krigingMatrix m t g 0 X' n n = 1 := by simp [krigingMatrix]
      rw [this, sum_congr rfl (fun j hj => show _ = -(r j * z j) from ?_), sum_neg_distrib]
      · unfold dotp; ring
      · have hj' := mem_range.1 hj
        rw [if_neg (by omega)]
        have : krigingMatrix m t g 0 X' n j = r j := by
          unfold krigingMatrix
          rw [if_neg (by omega)]
          simp [hX', hr, show j ≠ n by omega]
        rw [this]; ring
    rw [sum_congr rfl a1, a2, sum_sub_distrib]
    unfold dotp
    ring
  rw [e1] at h2
  have h3 : quadForm n (krigingMatrix m t g e X) z =
      quadForm n (krigingMatrix m t g 0 X) z + e * ∑ i ∈ range n, z i ^ 2 := by
    unfold quadForm
    rw [mul_sum, ← sum_add_distrib]
    refine sum_congr rfl fun i hi => ?_
    have : ∀ j, z i * krigingMatrix m t g e X i j * z j =
        z i * krigingMatrix m t g 0 X i j * z j + if i = j then e * (z i * z j) else 0 := by
      intro j
      unfold krigingMatrix
      split_ifs <;> ring
    rw [sum_congr rfl (fun j _ => this j), sum_add_distrib, sum_ite_eq, if_pos hi]
    ring
  have h4 := dotp_solves_self hz
  rw [dotp_comm] at h4
  have h5 : 0 ≤ e * ∑ i ∈ range n, z i ^ 2 :=
    mul_nonneg he (sum_nonneg fun i _ => sq_nonneg _)
  have h6 : dotp n (fun i => expCorr m t g x (X i)) z = dotp n r z := rfl
  linarith

/-- What `interpolateWithVariance` computes. -/
theorem interpolateWithVariance_ok {k : Kriging ℝ} {n m : Nat} {X : Nat → Nat → ℝ} {y : Nat → ℝ}
    {T : List ℝ → ℝ} (h : Fitted k n m X y) (ht : HasTrend k m T) {x : List ℝ} (hx : x.length = m) :
    ∃ z : Nat → ℝ,
      Solves n (krigingMatrix m (vecFun k.corr.theta) (vecFun k.corr.gamma) k.corr.base.epsilon X) z
        (fun i => expCorr m (vecFun k.corr.theta) (vecFun k.corr.gamma) (vecFun x) (X i)) ∧
      k.interpolateWithVariance realFns x = .ok (T x + (k.beta0 +
          dotp n (fun i => expCorr m (vecFun k.corr.theta) (vecFun k.corr.gamma) (vecFun x) (X i))
            (vecFun k.RinvYsMinBeta)),
        k.sigmaSquared * ((if |dotp n (fun i => expCorr m (vecFun k.corr.theta)
            (vecFun k.corr.gamma) (vecFun x) (X i)) z - 1| < 1 / 10 ^ 9 then 0
          else 1 - dotp n (fun i => expCorr m (vecFun k.corr.theta) (vecFun k.corr.gamma) (vecFun x)
            (X i)) z) +
          (if |dotp n (fun i => expCorr m (vecFun k.corr.theta)
            (vecFun k.corr.gamma) (vecFun x) (X i)) (vecFun k.RinvI) - 1| < 1 / 10 ^ 9 then 0
          else (dotp n (fun i => expCorr m (vecFun k.corr.theta) (vecFun k.corr.gamma) (vecFun x)
              (X i)) (vecFun k.RinvI) - 1) * (dotp n (fun i => expCorr m (vecFun k.corr.theta)
              (vecFun k.corr.gamma) (vecFun x) (X i)) (vecFun k.RinvI) - 1) /
            ∑ i ∈ range n, vecFun k.RinvI i))) := by
  obtain ⟨r, e1, l1, h1⟩ := Corr.computeCorrelationVector_ok h.ready hx
  obtain ⟨z, e2, l2, h2⟩ := h.solver r l1
  have hr : ∀ v : List ℝ, v.length = n → Vec.dot r v = .ok (dotp n (fun i =>
      expCorr m (vecFun k.corr.theta) (vecFun k.corr.gamma) (vecFun x) (X i)) (vecFun v)) := by
    intro v hv
    rw [Vec.dot_ok l1 hv]
    congr 1
    exact sum_congr rfl fun i hi => by rw [h1 i (mem_range.1 hi)]
  have hol : k.ones.length = n := by rw [h.ones]; simp
  have hone : Vec.dot k.ones k.RinvI = .ok (∑ i ∈ range n, vecFun k.RinvI i) := by
    rw [Vec.dot_ok hol h.RinvI_len]
    congr 1
    refine sum_congr rfl fun i hi => ?_
    rw [h.ones, vecFun_replicate 1 (mem_range.1 hi), one_mul]
  have hpos := h.posDef.one_pos h.countPos h.RinvI
  refine ⟨vecFun z, h2.congr h1, ?_⟩
  unfold interpolateWithVariance
  refine bind_eq (interpolate_ok h ht hx) (bind_eq e1 (bind_eq e2 (bind_eq (hr z l2)
    (bind_eq (hr _ h.RinvI_len) (bind_eq hone ?_)))))
  unfold fdiv
  rw [if_neg hpos.ne']
  rfl

end Kriging
end Rodeo
