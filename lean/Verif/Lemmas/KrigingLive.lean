import Verif.Spec.KrigingLive
import Verif.Lemmas.EALive
import Verif.Props.EALive
import Verif.Lemmas.KrigingTrain
import Verif.Lemmas.KrigingHistory
import Verif.Props.Solve

set_option linter.unusedSectionVars false

namespace Rodeo
open Spec Mat Finset Text

/-! ## Bounds for the likelihood -/

theorem exists_isMat {K : Type} [Field K] [LinearOrder K] [IsStrictOrderedRing K] (n m : Nat)
    (F : Nat → Nat → K) : ∃ A : Mat K, IsMat A n m F := by
  refine ⟨⟨n, m, (List.range (n * m)).map fun k => F (k % n) (k / n)⟩, isMat_iff.2 ⟨rfl, rfl, by simp, ?_⟩⟩
  intro i j hi hj
  have h1 : j * n + i < n * m := by
    have : (j + 1) * n ≤ m * n := Nat.mul_le_mul_right _ hj
    rw [Nat.add_mul] at this
    rw [Nat.mul_comm n m]
    omega
  have h2 : (j * n + i) % n = i := by
    rw [Nat.mul_comm, Nat.mul_add_mod, Nat.mod_eq_of_lt hi]
  have h3 : (j * n + i) / n = j := by
    rw [Nat.mul_comm, Nat.mul_add_div (by omega), Nat.div_eq_of_lt hi, Nat.add_zero]
  simp [h1, h2, h3]

/-- Hadamard's inequality. -/
theorem det_le_diag {n : Nat} {F : Nat → Nat → ℝ} (hS : Symm n F) (hP : PosDef n F) :
    0 < (toMatrix n F).det ∧ (toMatrix n F).det ≤ ∏ i ∈ range n, F i i := by
  obtain ⟨A, hA⟩ := exists_isMat n n F
  rcases cholesky_ok isSqrt_real hA hS with ⟨-, x, a, ha, hx1, hx2⟩ | ⟨⟨L, ret⟩, h1, h2⟩
  · have := hP x ⟨a, ha, by rw [hx1]; exact one_ne_zero⟩
    rw [hx2] at this
    exact absurd this (lt_irrefl _)
  rcases h2 with ⟨-, G, h3, h4⟩ | ⟨-, x, a, ha, hx1, hx2⟩
  · have hpos := chol_diag_pos hS h4 hP
    have hp := chol_product hS h4
    have hl : ∀ i j, i < n → j < n → i < j → lowerPart G i j = 0 := by
      intro i j _ _ hij; simp only [lowerPart]; rw [if_neg (by omega)]
    rw [det_gram hl hp, ← prod_pow]
    have hd : ∀ i, i < n → 0 < lowerPart G i i := by
      intro i hi
      simp only [lowerPart, le_refl, if_true]
      exact hpos i hi
    constructor
    · exact prod_pos fun i hi => pow_pos (hd i (mem_range.1 hi)) 2
    · refine prod_le_prod (fun i _ => sq_nonneg _) fun i hi => ?_
      have hi' := mem_range.1 hi
      rw [← hp i i hi' hi', pow_two]
      exact single_le_sum (f := fun k => lowerPart G i k * lowerPart G i k)
        (fun k _ => mul_self_nonneg _) hi
  · have := hP x ⟨a, ha, by rw [hx1]; exact one_ne_zero⟩
    exact absurd this (not_lt.2 hx2.le)

/-- The nugget bounds the quadratic form from below. -/
theorem krigingMatrix_ge {n m : Nat} {t g : Nat → ℝ} {e : ℝ} {X : Nat → Nat → ℝ}
    (ht : ∀ k, k < m → 0 ≤ t k) (hg : ∀ k, k < m → 0 ≤ g k ∧ g k ≤ 2) (w : Nat → ℝ) :
    e * dotp n w w ≤ quadForm n (krigingMatrix m t g e X) w := by
  have h1 : PosSemidef n (krigingMatrix m t g 0 X) :=
    Corr.expCorr_psd (F := X) ht hg (fun i _ => by simp [krigingMatrix])
      (fun i j _ _ hij => by simp [krigingMatrix, hij])
  have : quadForm n (krigingMatrix m t g e X) w =
      quadForm n (krigingMatrix m t g 0 X) w + e * dotp n w w := by
    unfold quadForm dotp
    rw [mul_sum, ← sum_add_distrib]
    refine sum_congr rfl (fun i hi => ?_)
    have : ∀ j, w i * krigingMatrix m t g e X i j * w j =
        w i * krigingMatrix m t g 0 X i j * w j + if i = j then e * (w i * w j) else 0 := by
      intro j
      unfold krigingMatrix
      split_ifs <;> ring
    rw [sum_congr rfl (fun j _ => this j), sum_add_distrib, sum_ite_eq, if_pos hi]
  rw [this]
  linarith [h1 w]

/-- The Cauchy-Schwarz inequality. -/
theorem dotp_sq_le (n : Nat) (a b : Nat → ℝ) : dotp n a b ^ 2 ≤ dotp n a a * dotp n b b := by
  unfold dotp
  have := sum_mul_sq_le_sq_mul_sq (range n) a b
  simpa only [pow_two] using this

/-- The estimated variance is at most the sum of the squared deviations from any number, divided by the
nugget and the number of samples. -/
theorem estimatedVariance_le {n : Nat} {R : Nat → Nat → ℝ} {r : Nat → ℝ} {s e : ℝ}
    (hn : 0 < n) (he : 0 < e) (hR : ∀ w, e * dotp n w w ≤ quadForm n R w) (h : EstimatedVariance n R r s)
    (c : ℝ) : s ≤ dotp n (fun i => r i - c) (fun i => r i - c) / (n * e) := by
  obtain ⟨beta, w, h1, h2, rfl⟩ := h
  set V := dotp n (fun i => r i - c) (fun i => r i - c)
  have hq : dotp n (fun i => r i - beta) w = quadForm n R w := by
    rw [dotp_comm, dotp_solves_self h1]
  have hc : dotp n (fun i => r i - beta) w = dotp n (fun i => r i - c) w := by
    have : dotp n (fun i => r i - beta) w = dotp n (fun i => r i - c) w +
        (c - beta) * ∑ i ∈ range n, w i := by
      unfold dotp
      rw [mul_sum, ← sum_add_distrib]
      exact sum_congr rfl fun i _ => by ring
    rw [this, h2, mul_zero, add_zero]
  set Q := dotp n (fun i => r i - beta) w
  have hw : e * dotp n w w ≤ Q := by rw [hq]; exact hR w
  have hww : 0 ≤ dotp n w w := sum_nonneg fun i _ => mul_self_nonneg _
  have hV : 0 ≤ V := sum_nonneg fun i _ => mul_self_nonneg _
  have hcs : Q ^ 2 ≤ V * dotp n w w := by rw [hc]; exact dotp_sq_le n _ w
  have hQ : 0 ≤ Q := by have := mul_nonneg he.le hww; linarith
  have hmain : Q * e ≤ V := by
    rcases hQ.eq_or_lt with h0 | h0
    · rw [← h0, zero_mul]; exact hV
    · have : Q * (Q * e) ≤ Q * V := by
        have h3 : Q ^ 2 * e ≤ V * dotp n w w * e := mul_le_mul_of_nonneg_right hcs he.le
        have h4 : V * (e * dotp n w w) ≤ V * Q := mul_le_mul_of_nonneg_left hw hV
        nlinarith
      exact le_of_mul_le_mul_left this h0
  have hn' : (0 : ℝ) < n := by exact_mod_cast hn
  rw [le_div_iff₀ (mul_pos hn' he)]
  have : 1 / (n : ℝ) * Q * (n * e) = Q * e := by field_simp
  rw [this]
  exact hmain

/-- The estimated variance is positive unless all values are equal. -/
theorem estimatedVariance_pos {n : Nat} {R : Nat → Nat → ℝ} {r : Nat → ℝ} {s : ℝ} (hn : 0 < n)
    (hP : PosDef n R) (h : EstimatedVariance n R r s) (hr : ∀ c, ∃ i, i < n ∧ r i ≠ c) : 0 < s := by
  obtain ⟨beta, w, h1, h2, rfl⟩ := h
  have hn' : (0 : ℝ) < n := by exact_mod_cast hn
  refine mul_pos (by positivity) ?_
  rw [dotp_comm, dotp_solves_self h1]
  refine hP w ?_
  by_contra hz
  push Not at hz
  obtain ⟨i, hi, hne⟩ := hr beta
  have := h1 i hi
  rw [sum_eq_zero fun j hj => by rw [hz j (mem_range.1 hj), mul_zero]] at this
  exact hne (by linarith)

/-- If all values are equal the estimated variance is zero. -/
theorem estimatedVariance_zero {n : Nat} {R : Nat → Nat → ℝ} {r : Nat → ℝ} {s : ℝ}
    (h : EstimatedVariance n R r s) {c : ℝ} (hr : ∀ i, i < n → r i = c) : s = 0 := by
  obtain ⟨beta, w, h1, h2, rfl⟩ := h
  have : dotp n (fun i => r i - beta) w = (c - beta) * ∑ i ∈ range n, w i := by
    unfold dotp
    rw [mul_sum]
    refine sum_congr rfl fun i hi => ?_
    dsimp only
    rw [hr i (mem_range.1 hi)]
  rw [this, h2, mul_zero, mul_zero]

/-- Values that vary little compared with the nugget. -/
theorem likelihoodLoss_neg {n m : Nat} {t g : Nat → ℝ} {e : ℝ} {X : Nat → Nat → ℝ} {r : Nat → ℝ} {s c : ℝ}
    (hn : 0 < n) (he : 0 < e) (ht : ∀ k, k < m → 0 ≤ t k) (hg : ∀ k, k < m → 0 ≤ g k ∧ g k ≤ 2)
    (h : EstimatedVariance n (krigingMatrix m t g e X) r s) (hs : 0 < s)
    (hV : dotp n (fun i => r i - c) (fun i => r i - c) * (1 + e) ≤ 9 / 10 * (n * e)) :
    likelihoodLoss n (krigingMatrix m t g e X) s ≤ -(1 / 10 ^ 4) := by
  set R := krigingMatrix m t g e X
  have hn' : (0 : ℝ) < n := by exact_mod_cast hn
  have hn1 : (1 : ℝ) ≤ n := by exact_mod_cast hn
  have hle := estimatedVariance_le hn he (fun w => krigingMatrix_ge ht hg w) h c
  obtain ⟨hd0, hd⟩ := det_le_diag (krigingMatrix_symm n m t g e X) (krigingMatrix_posDef (n := n) (X := X) ht hg he)
  have hdiag : ∏ i ∈ range n, krigingMatrix m t g e X i i = (1 + e) ^ n := by
    rw [prod_congr rfl fun i _ => show krigingMatrix m t g e X i i = 1 + e by simp [krigingMatrix]]
    simp
  rw [hdiag] at hd
  have hlog : Real.log (toMatrix n R).det ≤ n * Real.log (1 + e) := by
    rw [← Real.log_pow]
    exact Real.log_le_log hd0 hd
  have hse : s * (1 + e) ≤ 9 / 10 := by
    rw [le_div_iff₀ (mul_pos hn' he)] at hle
    have h1 : s * (n * e) * (1 + e) ≤ 9 / 10 * (n * e) :=
      (mul_le_mul_of_nonneg_right hle (by linarith)).trans hV
    have h2 : (s * (1 + e)) * (n * e) ≤ 9 / 10 * (n * e) := by nlinarith
    exact le_of_mul_le_mul_right h2 (mul_pos hn' he)
  have hlog2 : Real.log s + Real.log (1 + e) ≤ -(1 / 10) := by
    rw [← Real.log_mul hs.ne' (by linarith)]
    have h1 := Real.log_le_sub_one_of_pos (mul_pos hs (show 0 < 1 + e by linarith))
    linarith
  unfold likelihoodLoss
  have h3 : (n : ℝ) / 2 * (Real.log s + Real.log (1 + e)) ≤ (n : ℝ) / 2 * (-(1 / 10)) :=
    mul_le_mul_of_nonneg_left hlog2 (by linarith)
  have h4 : (n : ℝ) / 2 * (-(1 / 10)) ≤ -(1 / 10 ^ 4) := by
    norm_num
    linarith
  linarith

/-! ## The value of the criterion -/

namespace Kriging

/-- The factor that `updateAuxilliaryFields` keeps. -/
theorem update_chol {F : Fns ℝ} {k k1 : Kriging ℝ} (h : k.updateAuxilliaryFields F = (k1, .ok ())) :
    ∃ c, k.corr.computeCorrelationMatrix F.exp F.pow = .ok c ∧
      (k.chol.setMatrix c.base.matrix).factorize F.sqrt = .ok k1.chol := by
  unfold updateAuxilliaryFields at h
  split at h; · cases h
  split at h; · cases h
  split at h; · cases h
  split at h; · cases h
  split at h; · cases h
  obtain ⟨ka, ea, h⟩ := andThen_inv h
  obtain ⟨c, ec, e⟩ := bind_ok_inv (commit_inv ea)
  cases e
  obtain ⟨kb, eb, h⟩ := andThen_inv h
  obtain ⟨L0, eL, e⟩ := bind_ok_inv (commit_inv eb)
  cases e
  obtain ⟨kc, ek, h⟩ := andThen_inv h
  have ek' := commit_inv ek
  unfold resizeDataObjects at ek'
  split at ek'; · cases ek'
  cases ek'
  refine ⟨c, ec, eL.trans ?_⟩
  split at h
  · have h := commit_inv h
    unfold solveAll at h
    obtain ⟨_, -, h⟩ := bind_ok_inv h
    obtain ⟨_, -, h⟩ := bind_ok_inv h
    obtain ⟨_, -, h⟩ := bind_ok_inv h
    obtain ⟨_, -, h⟩ := bind_ok_inv h
    obtain ⟨_, -, h⟩ := bind_ok_inv h
    obtain ⟨_, -, h⟩ := bind_ok_inv h
    obtain ⟨_, -, h⟩ := bind_ok_inv h
    obtain ⟨_, -, h⟩ := bind_ok_inv h
    cases h
    rfl
  · cases h
    rfl

theorem setHyperParameters_ok {s : Corr.ExpCorr ℝ} {h : List ℝ} (hd : 0 < s.base.dim)
    (hl : h.length = 2 * s.base.dim) :
    s.setHyperParameters h = .ok ⟨s.base, h.take s.base.dim, h.drop s.base.dim⟩ := by
  unfold Corr.ExpCorr.setHyperParameters
  rw [if_neg (by omega)]
  refine bind_eq (Vec.head_eq h (by omega)) (bind_eq (a := ⟨s.base, h.take s.base.dim, s.gamma⟩) ?_ ?_)
  · refine if_neg ?_
    simp only [List.length_take]
    omega
  refine bind_eq (Vec.tail_eq h (show s.base.dim ≤ _ by omega)) ?_
  have e : h.length - s.base.dim = s.base.dim := by omega
  show Corr.ExpCorr.setGamma _ (h.drop (h.length - s.base.dim)) = _
  rw [e]
  refine if_neg ?_
  simp only [List.length_drop]
  omega

/-- The criterion for hyperparameters in the box. -/
theorem score_value {k : Kriging ℝ} {n m : Nat} {X : Nat → Nat → ℝ} {y : Nat → ℝ} {T : List ℝ → ℝ}
    (h : Prepared k n m X y T) (he : 0 < k.corr.base.epsilon) (hv : k.averageBeta0 = false) {x : List ℝ}
    (hb : InBox (hyperLb m) (hyperUb m) x) :
    ∃ s, EstimatedVariance n (krigingMatrix m (vecFun (x.take m)) (vecFun (x.drop m))
        k.corr.base.epsilon X) (fun i => y i - T ((List.range m).map (X i))) s ∧
      (score realFns .maximumLikelihood k x).2 = .ok (if 0 < s then likelihoodLoss n
        (krigingMatrix m (vecFun (x.take m)) (vecFun (x.drop m)) k.corr.base.epsilon X) s else dblMax) := by
  have hgood := good_of_box hb
  have hlen : x.length = 2 * m := by
    have := hb.1
    rw [this]; simp [hyperLb]; omega
  set R := krigingMatrix m (vecFun (x.take m)) (vecFun (x.drop m)) k.corr.base.epsilon X with hR
  have hp1 := h.withParameters hgood
  set k0 : Kriging ℝ := { k with corr := ⟨k.corr.base, x.take m, x.drop m⟩ } with hk0
  have hpd : PosDef n (corrOf k0 m X) := PosDef.of_good hgood he X
  obtain ⟨M, L, a, b, beta, c, s, e, hdone, hm, hp⟩ := hp1.update hpd
  obtain ⟨cc, ec, ef⟩ := update_chol e
  obtain ⟨M', G, c1, c2, c3, -, c5⟩ := Corr.computeCorrelationMatrix_ok hp1.ready
  have hcc := ec.symm.trans c1
  cases hcc
  have hM : IsMat M' n n R := by
    refine c2.congr fun i j hi hj => ?_
    rw [hR]; unfold krigingMatrix
    by_cases hij : i = j
    · subst hij; rw [if_pos rfl, if_pos rfl, c3.2.1 i hi]
    · rw [if_neg hij, if_neg hij, c5 i j hi hj hij]
  have hS : Symm n R := krigingMatrix_symm _ _ _ _ _ _
  obtain ⟨s', f1, f2, f3⟩ := C63_logDeterminant hM hS hpd (by have := h.countPos; omega) k0.chol
  have hL : L = s' := by
    have := ef.symm.trans f1
    exact Except.ok.inj this
  have hfit := hm.fitted
  refine ⟨s, ⟨beta, vecFun c, hfit.weights, hfit.mean hv, hfit.variance⟩, ?_⟩
  have hev : k.evaluateAt realFns x = (fitState k0 M L a b beta c s n, .ok ()) := by
    unfold evaluateAt
    refine andThen_commit (s' := k0) ?_ e
    have := setHyperParameters_ok (s := k.corr) (h := x) (by rw [h.corrDim]; exact h.dimPos)
      (by rw [h.corrDim]; exact hlen)
    rw [h.corrDim] at this
    exact bind_eq this rfl
  have hlv : (fitState k0 M L a b beta c s n).likelihoodValue realFns =
      .ok (if 0 < s then -likelihoodLoss n R s else -dblMax) := by
    unfold likelihoodValue
    rw [if_neg (show ¬ (fitState k0 M L a b beta c s n).chol.done = false by
      show ¬ L.done = false
      rw [hdone]; simp)]
    refine bind_eq (a := Real.log (toMatrix n R).det) ?_ ?_
    · show L.calculateLogDeterminant Real.log = _
      rw [hL]; exact f3
    · show (if s > 0 then _ else _) = _
      by_cases hs : 0 < s
      · rw [if_pos hs, if_pos hs]
        have : (fitState k0 M L a b beta c s n).numberOfSamples = n := hp.count
        rw [this]
        unfold likelihoodLoss
        show Except.ok (-((n : ℝ) / 2) * Real.log s - 1 / 2 * Real.log (toMatrix n R).det) = _
        congr 1
        ring
      · rw [if_neg hs, if_neg hs]
  have hla : k.likelihoodAt realFns x = (fitState k0 M L a b beta c s n,
      .ok (if 0 < s then -likelihoodLoss n R s else -dblMax)) := by
    unfold likelihoodAt
    rw [if_neg (by simp [h.read]), if_neg (by simp [h.normalized]), if_neg (by
      rw [h.count]; have := h.countPos; omega), hev]
    simp only [hlv]
  unfold score
  simp only [hla]
  congr 1
  split_ifs <;> ring

/-! ## The search and the training -/

theorem threadOptimizer_ready {dim gens maxEvals : Nat} (hd : 0 < dim) (hg : 0 < gens)
    (hm : maxEvals ≠ 0) :
    ∃ o : EA ℝ, threadOptimizer dim gens maxEvals = .ok o ∧ ReadyToSearch o ∧
      o.lb = hyperLb dim ∧ o.ub = hyperUb dim ∧ smallestShare o = trainingShare dim gens := by
  have hm1 : ∀ o : EA ℝ, o.setMutationProbability (1 / 10) = .ok { o with mutProb := 1 / 10 } := by
    intro o
    refine if_neg ?_
    rw [not_or]
    constructor <;> norm_num
  refine ⟨{ ((EA.new : EA ℝ).setDimension (2 * dim)) with
      lb := hyperLb dim, ub := hyperUb dim, boundsSet := true, births := 200 * dim,
      deaths := 180 * dim, sizeInit := min (2 * dim * 100) 5000, mutProb := 1 / 10,
      maxEvals := maxEvals, gens := gens }, ?_, ?_, rfl, rfl, rfl⟩
  · unfold threadOptimizer
    refine bind_eq (hyper_gt dim) ?_
    rw [if_neg (by simp)]
    exact bind_eq (hm1 _) (if_neg hm)
  · exact {
      box := hyperBox dim
      boundsSet := rfl
      dimPos := by show 0 < 2 * dim; omega
      births := by show 0 < 200 * dim; omega
      gens := hg
      maxEvals := by show 0 < maxEvals; omega
      mutProb := ⟨by show (0 : ℝ) < 1 / 10; norm_num, by show (1 : ℝ) / 10 < 1; norm_num⟩
      three := by show 3 ≤ min (2 * dim * 100) 5000; omega
      threeLeft := by
        show gens * (180 * dim) + 3 ≤ min (2 * dim * 100) 5000 + gens * (200 * dim)
        have : gens * (180 * dim) ≤ gens * (200 * dim) := Nat.mul_le_mul_left _ (by omega)
        omega
      population := rfl
      generated := rfl
      removed := rfl
      history := rfl }

/-- The criterion is at most `-1e-4` everywhere in the box of the hyperparameters. -/
def LowCriterion (k : Kriging ℝ) (m : Nat) : Prop :=
  ∀ x, InBox (hyperLb m) (hyperUb m) x → ∃ J, (score realFns k.objective k x).2 = .ok J ∧ J ≤ -(1 / 10 ^ 4)

theorem threadSearch_runs {k : Kriging ℝ} {m gens maxEvals : Nat} (hr : k.isRead = true)
    (hn : k.isNormalized = true) (hi : k.isInitialized = true) (hd : k.dimension = m) (hm : 0 < m)
    (hg : 0 < gens) (he : maxEvals ≠ 0) {E : EAEnv ℝ} (hE : Draws E) (hs : LowCriterion k m) :
    Runs (FairDraws E (trainingShare m gens)) (threadSearch realFns k gens maxEvals E)
      (fun r => InBox (hyperLb m) (hyperUb m) r.1 ∧ r.2 ≤ -(1 / 10 ^ 4)) := by
  obtain ⟨o, e1, hR, hlb, hub, hsh⟩ := threadOptimizer_ready hm hg he
  have hf : EA.Negative (fun h => (score realFns k.objective k h).2) o.lb o.ub := by
    rw [hlb, hub]; exact hs
  have hE' : Draws { E with f := fun h => (score realFns k.objective k h).2 } := hE
  have hrun := EA.optimize_runs hE' hR hf
  rw [hsh] at hrun
  have hfair : FairDraws { E with f := fun h => (score realFns k.objective k h).2 } (trainingShare m gens) ↔
      FairDraws E (trainingShare m gens) := Iff.rfl
  have hpre : ∀ r, threadSearch realFns k gens maxEvals E = .ok r →
      InBox (hyperLb m) (hyperUb m) r.1 ∧ r.2 ≤ -(1 / 10 ^ 4) := by
    intro r h
    obtain ⟨p1, p2⟩ := threadSearch_post hE h
    rw [hd] at p1
    obtain ⟨J, j1, j2⟩ := hs _ p1
    rw [p2] at j1
    cases j1
    exact ⟨p1, j2⟩
  have hstart : threadSearch realFns k gens maxEvals E = (do
      let o ← EA.optimize { E with f := fun h => (score realFns k.objective k h).2 } o
      let x ← o.getSolution
      .ok (x.genes, x.obj)) := by
    unfold threadSearch
    rw [if_neg (by simp [hr, hn, hi]), hd]
    exact bind_eq e1 rfl
  rcases hrun with ⟨hq, e⟩ | ⟨o', e, -⟩
  · left
    refine ⟨fun h => hq (hfair.2 h), ?_⟩
    rw [hstart, e]
    rfl
  · right
    obtain ⟨n, xs, ys, hrr⟩ := EA.optimize_run hE' hR.box e
    obtain ⟨x, hx⟩ := hrr.best
    have : threadSearch realFns k gens maxEvals E = .ok (x.genes, x.obj) := by
      rw [hstart]
      exact bind_eq e (bind_eq hx rfl)
    exact ⟨_, this, hpre _ this⟩

theorem mapRes_runs {A B : Type} {Q : Prop} {f : A → Res B} {P : B → Prop} :
    ∀ {l : List A}, (∀ a ∈ l, Runs Q (f a) P) → Runs Q (mapRes f l) (fun bs => bs.length = l.length ∧ ∀ b ∈ bs, P b)
  | [], _ => Runs.ok ⟨rfl, by simp⟩
  | a :: l, h => by
    unfold mapRes
    rcases h a (by simp) with ⟨hq, e⟩ | ⟨b, e, hb⟩
    · rw [e]; exact Or.inl ⟨hq, rfl⟩
    rw [e]
    rcases mapRes_runs (l := l) (fun a ha => h a (by simp [ha])) with ⟨hq, e'⟩ | ⟨bs, e', h1, h2⟩
    · rw [e']; exact Or.inl ⟨hq, rfl⟩
    rw [e']
    refine Or.inr ⟨_, rfl, by simp [h1], ?_⟩
    intro c hc
    rcases List.mem_cons.1 hc with rfl | hc
    · exact hb
    · exact h2 c hc

theorem searchAll_runs {k : Kriging ℝ} {m gens maxEvals : Nat} (hr : k.isRead = true)
    (hn : k.isNormalized = true) (hi : k.isInitialized = true) (hd : k.dimension = m) (hm : 0 < m)
    (hg : 0 < gens) (he : maxEvals ≠ 0) {E : Nat → EAEnv ℝ} (hE : ∀ t, Draws (E t)) (hs : LowCriterion k m)
    {schedule : List Nat} (hne : schedule ≠ []) :
    Runs (∀ t ∈ schedule, FairDraws (E t) (trainingShare m gens))
      (searchAll realFns k gens maxEvals E schedule) (fun r => InBox (hyperLb m) (hyperUb m) r.1) := by
  unfold searchAll
  refine Runs.bind (P := fun rs : List (List ℝ × ℝ) => rs.length = schedule.length ∧
    ∀ r ∈ rs, InBox (hyperLb m) (hyperUb m) r.1 ∧ r.2 ≤ -(1 / 10 ^ 4)) (mapRes_runs ?_) ?_
  · intro t ht
    rcases threadSearch_runs hr hn hi hd hm hg he (hE t) hs with ⟨hq, e⟩ | h
    · exact Or.inl ⟨fun h => hq (h t ht), e⟩
    · exact Or.inr h
  · rintro rs - ⟨h1, h2⟩
    refine Runs.ok ?_
    have hl : rs ≠ [] := by
      intro h0
      rw [h0] at h1
      exact hne (List.length_eq_zero_iff.1 h1.symm)
    obtain ⟨r, rs', rfl⟩ := List.exists_cons_of_ne_nil hl
    rcases foldl_merge_mem (r :: rs') ([], dblMax) with h | ⟨h, -⟩
    · exfalso
      have h3 := (foldl_merge_le (r :: rs') ([], (dblMax : ℝ))).2 r (by simp)
      rw [h] at h3
      have h4 := (h2 r (by simp)).2
      have := dblMax_pos (K := ℝ)
      have h5 : (0 : ℝ) < 1 / 10 ^ 4 := by positivity
      have h3 : (dblMax : ℝ) ≤ r.2 := h3
      linarith
    · exact (h2 _ h).1

/-- If the search of the threads finds hyperparameters in the box, training returns and these are the
parameters of the model. -/
theorem train_best {k : Kriging ℝ} {file : Option Str} {n dim : Nat}
    {F : Nat → Nat → ℝ} {b : Bounds ℝ} {T : List ℝ → ℝ} (h : CurrentModel k file n dim F b T)
    (hl : Likelihood k) (ht : k.threads ≠ 0) {E : Nat → EAEnv ℝ} {schedule : List Nat} (hyperFile : Option Str)
    {best : List ℝ × ℝ}
    (hs : searchAll realFns { k with iterations := k.iterations / k.threads }
      (generations k.iterations k.dimension) (k.iterations / k.threads) E schedule = .ok best)
    (hb : InBox (hyperLb dim) (hyperUb dim) best.1) :
    ∃ k' f', k.train realFns E schedule hyperFile = ((k', f'), .ok ()) ∧
      k'.corr.theta = best.1.take dim ∧ k'.corr.gamma = best.1.drop dim := by
  have hdim := h.prepared.dim
  have hpos := h.prepared.dimPos
  have hlen : best.1.length = 2 * dim := by
    have := hb.1
    rw [this]; simp [hyperLb]; omega
  have hgood := good_of_box hb
  set c : Corr.ExpCorr ℝ := ⟨k.corr.base, best.1.take dim, best.1.drop dim⟩ with hc
  have hset : k.corr.setHyperParameters best.1 = .ok c := by
    have := setHyperParameters_ok (s := k.corr) (h := best.1) (by rw [h.prepared.corrDim]; exact hpos)
      (by rw [h.prepared.corrDim]; exact hlen)
    rw [h.prepared.corrDim] at this
    exact this
  set k1 : Kriging ℝ := { k with iterations := k.iterations / k.threads, corr := c } with hk1
  have hp1 : Prepared k1 n dim (normalized b dim F) (fun i => F i dim) T := by
    have := h.prepared.withParameters hgood
    exact { this with }
  obtain ⟨t, hsave⟩ : ∃ t, saveHyperParameters k1 = .ok t :=
    saveHyperParameters_ok hp1.corrDim hp1.dimPos hgood
  have hsearch : ∃ f, searchHyperParameters realFns k E schedule hyperFile = ((k1, f), .ok ()) := by
    unfold searchHyperParameters
    rw [if_neg (by omega)]
    have hk : (if k.hasValidation then { k with objective := .validationError } else k : Kriging ℝ) = k :=
      if_neg (by simp [hl.validation])
    simp only [hk]
    rw [if_neg ht]
    have h1 : (do
      let best ← searchAll realFns { k with iterations := k.iterations / k.threads }
        (generations k.iterations k.dimension) (k.iterations / k.threads) E schedule
      let _ ← Vec.head best.1 k.dimension
      let _ ← Vec.tail best.1 k.dimension
      let c ← k.corr.setHyperParameters best.1
      .ok ({ k with iterations := k.iterations / k.threads, corr := c }, hyperFile) :
        Res (Kriging ℝ × Option Str)) = .ok (k1, hyperFile) :=
      bind_eq hs (bind_eq (Vec.head_eq _ (by omega)) (bind_eq (Vec.tail_eq _ (by omega)) (bind_eq hset rfl)))
    by_cases hw : k.writeWarm = true
    · refine ⟨some t, andThen_commit (s' := (k1, hyperFile)) h1 ?_⟩
      rw [if_pos (show (k1, hyperFile).1.writeWarm = true from hw)]
      exact commit_ok (bind_eq hsave rfl)
    · refine ⟨hyperFile, andThen_commit (s' := (k1, hyperFile)) h1 ?_⟩
      rw [if_neg (show ¬ (k1, hyperFile).1.writeWarm = true from hw)]
  obtain ⟨f, hsearch⟩ := hsearch
  have hpd : PosDef n (corrOf k1 dim (normalized b dim F)) := PosDef.of_good hgood hl.nugget _
  obtain ⟨M, L, a, bb, beta, cc, s, e, -, -, -⟩ := hp1.update hpd
  refine ⟨{ fitState k1 M L a bb beta cc s n with isTrained := true }, f, ?_, rfl, rfl⟩
  unfold train
  rw [if_neg (by simp [h.isInitialized]), if_neg (by simp [hl.readWarm]), hsearch]
  have hobj : k1.objective ≠ .validationError := by
    show k.objective ≠ _
    rw [hl.objective]
    simp
  show andThen (if k1.objective = .validationError then withFile (k1, f) k1.revertToFullData
      else ((k1, f), .ok ())) (fun p =>
      andThen (withFile p (p.1.updateAuxilliaryFields realFns)) fun p =>
      (({ p.1 with isTrained := true }, p.2), .ok ())) = _
  rw [if_neg hobj]
  refine andThen_ok rfl (andThen_ok (s := (fitState k1 M L a bb beta cc s n, f)) ?_ rfl)
  unfold withFile
  rw [e]

theorem train_returns {k : Kriging ℝ} {file : Option Str} {n dim : Nat}
    {F : Nat → Nat → ℝ} {b : Bounds ℝ} {T : List ℝ → ℝ} (h : CurrentModel k file n dim F b T)
    (hl : Likelihood k) (ht : k.threads ≠ 0) {E : Nat → EAEnv ℝ} {schedule : List Nat} (hyperFile : Option Str)
    {best : List ℝ × ℝ}
    (hs : searchAll realFns { k with iterations := k.iterations / k.threads }
      (generations k.iterations k.dimension) (k.iterations / k.threads) E schedule = .ok best)
    (hb : InBox (hyperLb dim) (hyperUb dim) best.1) :
    ∃ k' f', k.train realFns E schedule hyperFile = ((k', f'), .ok ()) := by
  obtain ⟨k', f', e, -⟩ := train_best h hl ht hyperFile hs hb
  exact ⟨k', f', e⟩

/-- If the search of the threads throws, so does training. -/
theorem train_throws {k : Kriging ℝ} (hi : k.isInitialized = true) (hl : Likelihood k)
    (hd : k.dimension ≠ 0) (ht : k.threads ≠ 0) {E : Nat → EAEnv ℝ} {schedule : List Nat} (hyperFile : Option Str)
    {e : Err}
    (hs : searchAll realFns { k with iterations := k.iterations / k.threads }
      (generations k.iterations k.dimension) (k.iterations / k.threads) E schedule = .error e) :
    (k.train realFns E schedule hyperFile).2 = .error e := by
  have hsearch : ∃ q, searchHyperParameters realFns k E schedule hyperFile = (q, .error e) := by
    unfold searchHyperParameters
    rw [if_neg hd]
    have hk : (if k.hasValidation then { k with objective := .validationError } else k : Kriging ℝ) = k :=
      if_neg (by simp [hl.validation])
    simp only [hk]
    rw [if_neg ht, hs]
    exact ⟨_, rfl⟩
  obtain ⟨q, hq⟩ := hsearch
  unfold train
  rw [if_neg (by simp [hi]), if_neg (by simp [hl.readWarm]), hq]
  rfl

end Kriging
end Rodeo
