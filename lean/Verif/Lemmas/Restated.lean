import Verif.Spec.Restated
import Verif.Props.KrigingLive
import Mathlib.LinearAlgebra.Matrix.Determinant.Basic

/-! # Lemmas: the same data in another order and in other units -/

set_option linter.unusedSectionVars false

namespace Rodeo
open Spec Mat Finset Text

/-! ## Reordering of index functions -/

/-- `p` permutes the numbers below `n`. -/
structure Reorder (n : Nat) (p : Nat → Nat) : Prop where
  lt : ∀ i, i < n → p i < n
  inj : ∀ i j, i < n → j < n → p i = p j → i = j

/-- The index function of a permutation. -/
def permFun {n : Nat} (σ : Equiv.Perm (Fin n)) (i : Nat) : Nat := if h : i < n then (σ ⟨i, h⟩ : Fin n) else i

theorem permFun_eq {n : Nat} (σ : Equiv.Perm (Fin n)) {i : Nat} (h : i < n) :
    permFun σ i = (σ ⟨i, h⟩ : Fin n) := dif_pos h

theorem permFun_reorder {n : Nat} (σ : Equiv.Perm (Fin n)) : Reorder n (permFun σ) := by
  constructor
  · intro i hi
    rw [permFun_eq σ hi]
    exact (σ ⟨i, hi⟩).2
  · intro i j hi hj h
    rw [permFun_eq σ hi, permFun_eq σ hj] at h
    have := σ.injective (Fin.ext h)
    exact congrArg Fin.val this

theorem Reorder.sum {n : Nat} {p : Nat → Nat} (h : Reorder n p) (f : Nat → ℝ) :
    ∑ i ∈ range n, f (p i) = ∑ i ∈ range n, f i := by
  refine sum_bij (fun i _ => p i) ?_ ?_ ?_ ?_
  · intro i hi; exact mem_range.2 (h.lt i (mem_range.1 hi))
  · intro i hi j hj e; exact h.inj i j (mem_range.1 hi) (mem_range.1 hj) e
  · have hinj : Set.InjOn p (range n) := fun i hi j hj e =>
      h.inj i j (mem_range.1 (mem_coe.1 hi)) (mem_range.1 (mem_coe.1 hj)) e
    have hs : (range n).image p = range n := by
      refine eq_of_subset_of_card_le ?_ (by rw [card_image_of_injOn hinj])
      intro a ha
      obtain ⟨i, hi, rfl⟩ := mem_image.1 ha
      exact mem_range.2 (h.lt i (mem_range.1 hi))
    intro a ha
    rw [← hs] at ha
    obtain ⟨i, hi, e⟩ := mem_image.1 ha
    exact ⟨i, hi, e⟩
  · intro i _; rfl

/-! ## Linear systems -/

theorem solves_unique {n : Nat} {R : Nat → Nat → ℝ} (hP : PosDef n R) {x z b : Nat → ℝ}
    (hx : Solves n R x b) (hz : Solves n R z b) : ∀ i, i < n → x i = z i := by
  by_contra hne
  push Not at hne
  have h0 := hP (fun i => x i - z i) (by
    obtain ⟨i, hi, h⟩ := hne
    exact ⟨i, hi, sub_ne_zero.2 h⟩)
  have hs : Solves n R (fun i => x i - z i) (fun _ => 0) := by
    intro i hi
    have e : ∑ j ∈ range n, R i j * (x j - z j) =
        ∑ j ∈ range n, R i j * x j - ∑ j ∈ range n, R i j * z j := by
      rw [← sum_sub_distrib]
      exact sum_congr rfl fun j _ => by ring
    rw [e, hx i hi, hz i hi, sub_self]
  rw [← dotp_solves_self hs] at h0
  simp [dotp] at h0

theorem Spec.Solves.reorder {n : Nat} {R R' : Nat → Nat → ℝ} {p : Nat → Nat} (hp : Reorder n p)
    (hR : ∀ i j, i < n → j < n → R' i j = R (p i) (p j)) {x b : Nat → ℝ} (h : Solves n R x b) :
    Solves n R' (fun i => x (p i)) (fun i => b (p i)) := by
  intro i hi
  dsimp only
  rw [← h (p i) (hp.lt i hi), ← hp.sum fun j => R (p i) j * x j]
  exact sum_congr rfl fun j hj => by rw [hR i j hi (mem_range.1 hj)]

theorem Spec.Solves.smul {n : Nat} {R : Nat → Nat → ℝ} {x b : Nat → ℝ} (h : Solves n R x b) (a : ℝ) :
    Solves n R (fun i => a * x i) (fun i => a * b i) := by
  intro i hi
  dsimp only
  rw [← h i hi, mul_sum]
  exact sum_congr rfl fun j _ => by ring

theorem Spec.Solves.add {n : Nat} {R : Nat → Nat → ℝ} {x z b c : Nat → ℝ} (h : Solves n R x b)
    (h' : Solves n R z c) : Solves n R (fun i => x i + z i) (fun i => b i + c i) := by
  intro i hi
  dsimp only
  rw [← h i hi, ← h' i hi, ← sum_add_distrib]
  exact sum_congr rfl fun j _ => by ring

/-- The generalized least squares mean and the weights for data in another order and another unit. -/
theorem gls_restated {n : Nat} (hn : 0 < n) {R R' : Nat → Nat → ℝ} {p : Nat → Nat} (hp : Reorder n p)
    (hR : ∀ i j, i < n → j < n → R' i j = R (p i) (p j)) (hP' : PosDef n R')
    {u' w w' d d' : Nat → ℝ} {beta beta' a e : ℝ} (hu : Solves n R' u' (fun _ => 1))
    (hw : Solves n R w (fun i => d i - beta)) (hw0 : ∑ i ∈ range n, w i = 0)
    (hw' : Solves n R' w' (fun i => d' i - beta')) (hw0' : ∑ i ∈ range n, w' i = 0)
    (hd : ∀ i, i < n → d' i = a * d (p i) + e) :
    beta' = a * beta + e ∧ ∀ i, i < n → w' i = a * w (p i) := by
  set t := a * beta + e - beta' with ht
  have h1 : Solves n R' (fun i => a * w (p i) + t * u' i) (fun i => d' i - beta') := by
    refine (((hw.reorder hp hR).smul a).add (hu.smul t)).congr fun i hi => ?_
    rw [hd i hi, ht]
    ring
  have h2 := solves_unique hP' hw' h1
  have h3 : ∑ i ∈ range n, w' i = a * ∑ i ∈ range n, w i + t * ∑ i ∈ range n, u' i := by
    rw [← hp.sum w, mul_sum, mul_sum, ← sum_add_distrib]
    exact sum_congr rfl fun i hi => h2 i (mem_range.1 hi)
  have hpos := hP'.one_pos hn hu
  rw [hw0, hw0', mul_zero, zero_add] at h3
  have ht0 : t = 0 := by
    rcases mul_eq_zero.1 h3.symm with h | h
    · exact h
    · exact absurd h hpos.ne'
  refine ⟨by linarith, fun i hi => ?_⟩
  rw [h2 i hi, ht0, zero_mul, add_zero]

theorem dotp_reorder {n : Nat} {p : Nat → Nat} (hp : Reorder n p) {x x' z z' : Nat → ℝ}
    (hx : ∀ i, i < n → x' i = x (p i)) (hz : ∀ i, i < n → z' i = z (p i)) : dotp n x' z' = dotp n x z := by
  unfold dotp
  rw [← hp.sum fun i => x i * z i]
  exact sum_congr rfl fun i hi => by rw [hx i (mem_range.1 hi), hz i (mem_range.1 hi)]

/-- The estimate of the process variance for data in another order and another unit. -/
theorem estimatedVariance_restated {n : Nat} (hn : 0 < n) {R R' : Nat → Nat → ℝ} {p : Nat → Nat}
    (hp : Reorder n p) (hR : ∀ i j, i < n → j < n → R' i j = R (p i) (p j)) (hP' : PosDef n R')
    (hu : ∃ u', Solves n R' u' (fun _ => 1)) {d d' : Nat → ℝ} {a e v v' : ℝ}
    (hd : ∀ i, i < n → d' i = a * d (p i) + e) (hv : EstimatedVariance n R d v)
    (hv' : EstimatedVariance n R' d' v') : v' = a ^ 2 * v := by
  obtain ⟨u', hu⟩ := hu
  obtain ⟨beta, w, h1, h2, rfl⟩ := hv
  obtain ⟨beta', w', h1', h2', rfl⟩ := hv'
  obtain ⟨hb, hw⟩ := gls_restated hn hp hR hP' hu h1 h2 h1' h2' hd
  have e1 : dotp n (fun i => d' i - beta') w' = a ^ 2 * dotp n (fun i => d i - beta) w := by
    unfold dotp
    rw [← hp.sum fun i => (d i - beta) * w i, mul_sum]
    refine sum_congr rfl fun i hi => ?_
    dsimp only
    rw [hd i (mem_range.1 hi), hw i (mem_range.1 hi), hb]
    ring
  rw [e1]
  ring

/-- The determinant of a reordered matrix. -/
theorem det_reorder {n : Nat} {R R' : Nat → Nat → ℝ} (σ : Equiv.Perm (Fin n))
    (hR : ∀ i j, i < n → j < n → R' i j = R (permFun σ i) (permFun σ j)) :
    (toMatrix n R').det = (toMatrix n R).det := by
  rw [← Matrix.det_submatrix_equiv_self σ (toMatrix n R)]
  congr 1
  ext i j
  have := hR i j i.2 j.2
  rw [permFun_eq σ i.2, permFun_eq σ j.2] at this
  exact this

/-! ## The correlation matrix -/

theorem krigingMatrix_reorder {n m : Nat} {th ga : Nat → ℝ} {eps : ℝ} {X X' : Nat → Nat → ℝ} {p : Nat → Nat}
    (hp : Reorder n p) (hX : ∀ i, i < n → ∀ j, j < m → X' i j = X (p i) j) (i j : Nat) (hi : i < n)
    (hj : j < n) : krigingMatrix m th ga eps X' i j = krigingMatrix m th ga eps X (p i) (p j) := by
  unfold krigingMatrix
  by_cases h : i = j
  · subst h; rw [if_pos rfl, if_pos rfl]
  · rw [if_neg h, if_neg fun e => h (hp.inj i j hi hj e)]
    exact Corr.expCorr_congr (fun l hl => hX i hi l hl) (fun l hl => hX j hj l hl)

/-! ## The predictions -/

/-- The predictions of a model of the same data in another order, with another unit of the values. -/
theorem predictions_restated {k k' : Kriging ℝ} {n m : Nat} {X X' : Nat → Nat → ℝ} {y y' : Nat → ℝ}
    {T T' : List ℝ → ℝ} (h : ModelOf k n m X y T) (h' : ModelOf k' n m X' y' T')
    (ha : k.averageBeta0 = false) (ha' : k'.averageBeta0 = false) (hth : k'.corr.theta = k.corr.theta)
    (hga : k'.corr.gamma = k.corr.gamma) (heps : k'.corr.base.epsilon = k.corr.base.epsilon)
    {p : Nat → Nat} (hp : Reorder n p) (hX : ∀ i, i < n → ∀ j, j < m → X' i j = X (p i) j) {a e : ℝ}
    (hT : ∀ x : List ℝ, x.length = m → T' x = a * T x) (hy : ∀ i, i < n → y' i = a * y (p i) + e)
    {x : List ℝ} (hx : x.length = m) :
    ∃ f v, k.interpolateWithVariance realFns x = .ok (f, v) ∧
      k'.interpolateWithVariance realFns x = .ok (a * f + e, a ^ 2 * v) := by
  obtain ⟨z, hz, e1⟩ := Kriging.interpolateWithVariance_ok h.fitted h.trend hx
  obtain ⟨z', hz', e1'⟩ := Kriging.interpolateWithVariance_ok h'.fitted h'.trend hx
  have hf := h.fitted
  have hf' := h'.fitted
  have hu' := hf'.RinvI
  have hw' := hf'.weights
  have hP' := hf'.posDef
  have hv' := hf'.variance
  rw [hth, hga] at hz' e1' hu' hw' hP'
  rw [heps] at hz' hu' hw' hP'
  set R := krigingMatrix m (vecFun k.corr.theta) (vecFun k.corr.gamma) k.corr.base.epsilon X with hR
  set R' := krigingMatrix m (vecFun k.corr.theta) (vecFun k.corr.gamma) k.corr.base.epsilon X' with hR'
  have hRR : ∀ i j, i < n → j < n → R' i j = R (p i) (p j) := krigingMatrix_reorder hp hX
  have hrow : ∀ i, i < n → (List.range m).map (X' i) = (List.range m).map (X (p i)) := by
    intro i hi
    exact List.map_congr_left fun j hj => hX i hi j (List.mem_range.1 hj)
  have hd : ∀ i, i < n → y' i - T' ((List.range m).map (X' i)) =
      a * (y (p i) - T ((List.range m).map (X (p i)))) + e := by
    intro i hi
    rw [hT _ (by simp), hrow i hi, hy i hi]
    ring
  obtain ⟨hb, hw⟩ := gls_restated hf.countPos hp hRR hP' hu' hf.weights (hf.mean ha) hw' (hf'.mean ha') hd
  have hr : ∀ i, i < n → expCorr m (vecFun k.corr.theta) (vecFun k.corr.gamma) (vecFun x) (X' i) =
      expCorr m (vecFun k.corr.theta) (vecFun k.corr.gamma) (vecFun x) (X (p i)) := fun i hi =>
    Corr.expCorr_congr (fun _ _ => rfl) (fun l hl => hX i hi l hl)
  have hz2 : ∀ i, i < n → z' i = z (p i) := by
    refine solves_unique hP' hz' ((hz.reorder hp hRR).congr fun i hi => ?_)
    exact (hr i hi).symm
  have hu2 : ∀ i, i < n → vecFun k'.RinvI i = vecFun k.RinvI (p i) :=
    solves_unique hP' hu' (hf.RinvI.reorder hp hRR)
  have s1 := dotp_reorder hp (x := fun i => expCorr m (vecFun k.corr.theta) (vecFun k.corr.gamma)
    (vecFun x) (X i)) hr hz2
  have s2 := dotp_reorder hp (x := fun i => expCorr m (vecFun k.corr.theta) (vecFun k.corr.gamma)
    (vecFun x) (X i)) hr hu2
  have s3 : ∑ i ∈ range n, vecFun k'.RinvI i = ∑ i ∈ range n, vecFun k.RinvI i := by
    rw [← hp.sum (vecFun k.RinvI)]
    exact sum_congr rfl fun i hi => hu2 i (mem_range.1 hi)
  have s4 : dotp n (fun i => expCorr m (vecFun k.corr.theta) (vecFun k.corr.gamma) (vecFun x) (X' i))
      (vecFun k'.RinvYsMinBeta) = a * dotp n (fun i => expCorr m (vecFun k.corr.theta)
        (vecFun k.corr.gamma) (vecFun x) (X i)) (vecFun k.RinvYsMinBeta) := by
    unfold dotp
    rw [← hp.sum fun i => expCorr m (vecFun k.corr.theta) (vecFun k.corr.gamma) (vecFun x) (X i) *
      vecFun k.RinvYsMinBeta i, mul_sum]
    refine sum_congr rfl fun i hi => ?_
    dsimp only
    rw [hr i (mem_range.1 hi), hw i (mem_range.1 hi)]
    ring
  have s5 : k'.sigmaSquared = a ^ 2 * k.sigmaSquared := by
    rw [hv', hf.variance]
    have e1 : dotp n (fun i => y' i - T' ((List.range m).map (X' i)) - k'.beta0) (vecFun k'.RinvYsMinBeta) =
        a ^ 2 * dotp n (fun i => y i - T ((List.range m).map (X i)) - k.beta0) (vecFun k.RinvYsMinBeta) := by
      unfold dotp
      rw [← hp.sum fun i => (y i - T ((List.range m).map (X i)) - k.beta0) * vecFun k.RinvYsMinBeta i, mul_sum]
      refine sum_congr rfl fun i hi => ?_
      show (y' i - T' ((List.range m).map (X' i)) - k'.beta0) * vecFun k'.RinvYsMinBeta i = _
      rw [hd i (mem_range.1 hi), hw i (mem_range.1 hi), hb]
      ring
    rw [e1]
    ring
  refine ⟨_, _, e1, e1'.trans ?_⟩
  rw [s1, s2, s3, s4, s5, hb, hT x hx]
  refine congrArg Except.ok (Prod.ext ?_ ?_)
  · show a * T x + (a * k.beta0 + e + a * _) = a * (T x + (k.beta0 + _)) + e
    ring
  · show a ^ 2 * k.sigmaSquared * _ = a ^ 2 * (k.sigmaSquared * _)
    ring

/-! ## The trend -/

theorem affine_smul {dim : Nat} (a : ℝ) (w x : Nat → ℝ) :
    affine dim (fun j => a * w j) x = a * affine dim w x := by
  unfold affine
  rw [mul_add, mul_sum]
  congr 1
  exact sum_congr rfl fun j _ => by ring

theorem affine_congr {dim : Nat} {w w' x x' : Nat → ℝ} (hw : ∀ j, j ≤ dim → w j = w' j)
    (hx : ∀ j, j < dim → x j = x' j) : affine dim w x = affine dim w' x' := by
  unfold affine
  rw [hw 0 (Nat.zero_le _)]
  congr 1
  refine sum_congr rfl fun j hj => ?_
  have := mem_range.1 hj
  rw [hx j this, hw (j + 1) (by omega)]

theorem ridgeLoss_restated {n dim : Nat} {X X' : Nat → Nat → ℝ} {y y' : Nat → ℝ} {lambda a : ℝ}
    {p : Nat → Nat} (hp : Reorder n p) (hX : ∀ i, i < n → ∀ j, j < dim → X' i j = X (p i) j)
    (hy : ∀ i, i < n → y' i = a * y (p i)) (w : Nat → ℝ) :
    ridgeLoss n dim X' y' lambda (fun j => a * w j) = a ^ 2 * ridgeLoss n dim X y lambda w := by
  unfold ridgeLoss
  have e1 : ∑ i ∈ range n, (y' i - affine dim (fun j => a * w j) (X' i)) ^ 2 =
      a ^ 2 * ∑ i ∈ range n, (y i - affine dim w (X i)) ^ 2 := by
    rw [← hp.sum fun i => (y i - affine dim w (X i)) ^ 2, mul_sum]
    refine sum_congr rfl fun i hi => ?_
    rw [affine_smul, affine_congr (w' := w) (x' := X (p i)) (fun _ _ => rfl) (hX i (mem_range.1 hi)),
      hy i (mem_range.1 hi)]
    ring
  have e2 : ∑ j ∈ range (dim + 1), (a * w j) ^ 2 = a ^ 2 * ∑ j ∈ range (dim + 1), w j ^ 2 := by
    rw [mul_sum]
    exact sum_congr rfl fun j _ => by ring
  rw [e1, e2]
  ring

theorem isRidge_restated {n dim : Nat} {X X' : Nat → Nat → ℝ} {y y' : Nat → ℝ} {lambda a : ℝ} (ha : a ≠ 0)
    {p : Nat → Nat} (hp : Reorder n p) (hX : ∀ i, i < n → ∀ j, j < dim → X' i j = X (p i) j)
    (hy : ∀ i, i < n → y' i = a * y (p i)) {w w' : Nat → ℝ} (hw : IsRidge n dim X y lambda w)
    (hw' : IsRidge n dim X' y' lambda w') : ∀ j, j ≤ dim → w' j = a * w j := by
  have h2 : 0 < a ^ 2 := by positivity
  have e1 : ridgeLoss n dim X' y' lambda w' = a ^ 2 * ridgeLoss n dim X y lambda (fun j => a⁻¹ * w' j) := by
    rw [← ridgeLoss_restated hp hX hy]
    congr 1
    funext j
    field_simp
  have l1 := (hw' (fun j => a * w j)).1
  rw [ridgeLoss_restated hp hX hy, e1] at l1
  have l2 := le_of_mul_le_mul_left l1 h2
  have l3 := (hw (fun j => a⁻¹ * w' j)).1
  intro j hj
  have := (hw (fun j => a⁻¹ * w' j)).2 (le_antisymm l2 l3) j hj
  rw [← this]
  field_simp

/-- The trends of the two models. -/
theorem trend_restated {lin : Bool} {n dim : Nat} {b c : Bounds ℝ} {F G : Nat → Nat → ℝ} {T T' : List ℝ → ℝ}
    {a e : ℝ} (ha : a ≠ 0) (he : lin = true → e = 0) {p : Nat → Nat} (hp : Reorder n p)
    (hX : ∀ i, i < n → ∀ j, j < dim → normalized c dim G i j = normalized b dim F (p i) j)
    (hy : ∀ i, i < n → G i dim = a * F (p i) dim + e) (h : TrendOf lin n dim b F T)
    (h' : TrendOf lin n dim c G T') (x : List ℝ) : T' x = a * T x := by
  unfold TrendOf at h h'
  cases lin with
  | false =>
    rw [if_neg (by simp)] at h h'
    rw [h, h', mul_zero]
  | true =>
    rw [if_pos rfl] at h h'
    obtain ⟨w, hw, hT⟩ := h
    obtain ⟨w', hw', hT'⟩ := h'
    have := isRidge_restated ha hp hX (fun i hi => by rw [hy i hi, he rfl, add_zero]) hw hw'
    rw [hT, hT', ← affine_smul]
    exact affine_congr this (fun _ _ => rfl)

/-! ## The coordinates -/

theorem relative_converted {b c : Bounds ℝ} {dim : Nat} {s t : Nat → ℝ} (hs : ∀ j, j < dim → 0 < s j)
    (hl : Converted dim s t (vecFun b.lb) (vecFun c.lb)) (hu : Converted dim s t (vecFun b.ub) (vecFun c.ub))
    {p q : Nat → ℝ} (hpq : Converted dim s t p q) {j : Nat} (hj : j < dim) :
    1 / (dim : ℝ) * ((q j - vecFun c.lb j) / (vecFun c.ub j - vecFun c.lb j)) =
      1 / (dim : ℝ) * ((p j - vecFun b.lb j) / (vecFun b.ub j - vecFun b.lb j)) := by
  rw [hpq j hj, hl j hj, hu j hj]
  congr 1
  have e1 : s j * p j + t j - (s j * vecFun b.lb j + t j) = s j * (p j - vecFun b.lb j) := by ring
  have e2 : s j * vecFun b.ub j + t j - (s j * vecFun b.lb j + t j) =
      s j * (vecFun b.ub j - vecFun b.lb j) := by ring
  rw [e1, e2, mul_div_mul_left _ _ (hs j hj).ne']

theorem relative_eq {b c : Bounds ℝ} {dim : Nat} {s t : Nat → ℝ} (hs : ∀ j, j < dim → 0 < s j)
    (hl : Converted dim s t (vecFun b.lb) (vecFun c.lb)) (hu : Converted dim s t (vecFun b.ub) (vecFun c.ub))
    {p q : Nat → ℝ} (hpq : Converted dim s t p q) : relative c dim q = relative b dim p :=
  List.map_congr_left fun _ hj => relative_converted hs hl hu hpq (List.mem_range.1 hj)

theorem Spec.Restated.reorder {n dim : Nat} {s t : Nat → ℝ} {b c : Bounds ℝ} {F G : Nat → Nat → ℝ} {a e : ℝ}
    (h : Restated n dim s t b F c G a e) : ∃ σ : Equiv.Perm (Fin n), 
      (∀ i, i < n → ∀ j, j < dim → normalized c dim G i j = normalized b dim F (permFun σ i) j) ∧
      ∀ i, i < n → G i dim = a * F (permFun σ i) dim + e := by
  obtain ⟨σ, hσ⟩ := h.rows
  refine ⟨σ, fun i hi j hj => ?_, fun i hi => ?_⟩
  · rw [permFun_eq σ hi]
    exact relative_converted h.units h.lower h.upper (hσ ⟨i, hi⟩).1 hj
  · rw [permFun_eq σ hi]
    exact (hσ ⟨i, hi⟩).2

theorem Spec.Restated.congr {n dim : Nat} {s t : Nat → ℝ} {b c : Bounds ℝ} {F F' G G' : Nat → Nat → ℝ} {a e : ℝ}
    (h : Restated n dim s t b F c G a e) (hF : ∀ i j, i < n → j < dim + 1 → F' i j = F i j)
    (hG : ∀ i j, i < n → j < dim + 1 → G' i j = G i j) : Restated n dim s t b F' c G' a e := by
  refine ⟨h.units, h.lower, h.upper, ?_⟩
  obtain ⟨σ, hσ⟩ := h.rows
  refine ⟨σ, fun i => ⟨fun j hj => ?_, ?_⟩⟩
  · rw [hF _ j (σ i).2 (by omega), hG i j i.2 (by omega)]
    exact (hσ i).1 j hj
  · rw [hF _ dim (σ i).2 (by omega), hG i dim i.2 (by omega)]
    exact (hσ i).2

/-! ## Training -/

namespace Kriging

/-- The search of one thread depends on the criterion in the box only. -/
theorem threadSearch_congr {k k' : Kriging ℝ} {m gens maxEvals : Nat} (hr : k.isRead = true)
    (hn : k.isNormalized = true) (hi : k.isInitialized = true) (hr' : k'.isRead = true)
    (hn' : k'.isNormalized = true) (hi' : k'.isInitialized = true) (hd : k.dimension = m)
    (hd' : k'.dimension = m) (hm : 0 < m) (hg : 0 < gens) (he : maxEvals ≠ 0)
    (hs : ∀ x, InBox (hyperLb m) (hyperUb m) x →
      (score realFns k.objective k x).2 = (score realFns k'.objective k' x).2)
    {E : EAEnv ℝ} (hE : Draws E) :
    threadSearch realFns k gens maxEvals E = threadSearch realFns k' gens maxEvals E := by
  obtain ⟨o, e1, hR, hlb, hub, -⟩ := threadOptimizer_ready hm hg he
  have hE' : Draws { E with f := fun h => (score realFns k.objective k h).2 } := hE
  have hrel := EA.optimize_rel (g := fun h => (score realFns k'.objective k' h).2) hE' (o := o)
    (by unfold EA.Agree; rw [hlb, hub]; exact hs) hR.box
  unfold threadSearch
  rw [if_neg (by simp [hr, hn, hi]), if_neg (by simp [hr', hn', hi']), hd, hd', bind_eq e1 rfl, bind_eq e1 rfl]
  have h1 := hrel.1
  unfold withF at h1
  dsimp only at h1
  rw [h1]

theorem _root_.Rodeo.mapRes_congr {A B : Type} {f g : A → Res B} : ∀ {l : List A}, (∀ a ∈ l, f a = g a) →
    mapRes f l = mapRes g l
  | [], _ => rfl
  | a :: l, h => by
    unfold mapRes
    rw [h a (by simp), mapRes_congr fun x hx => h x (by simp [hx])]

/-- How a call of `train` by maximum likelihood ends, depending on the search of the threads. -/
theorem train_outcome {k : Kriging ℝ} {file : Option Str} {n dim : Nat}
    {F : Nat → Nat → ℝ} {b : Bounds ℝ} {T : List ℝ → ℝ} (h : CurrentModel k file n dim F b T)
    (hl : Likelihood k) (ht : k.threads ≠ 0) {E : Nat → EAEnv ℝ} (hE : ∀ t, Draws (E t))
    (schedule : List Nat) (hyperFile : Option Str) {r : Res (List ℝ × ℝ)}
    (hs : searchAll realFns { k with iterations := k.iterations / k.threads }
      (generations k.iterations k.dimension) (k.iterations / k.threads) E schedule = r) :
    (∃ e, r = .error e ∧ (k.train realFns E schedule hyperFile).2 = .error e) ∨
    (∃ best, r = .ok best ∧ best.1 = [] ∧ (k.train realFns E schedule hyperFile).2 = .error .outOfRange) ∨
    (∃ best, r = .ok best ∧ best.1 ≠ [] ∧ (k.train realFns E schedule hyperFile).2 = .ok () ∧
      (k.train realFns E schedule hyperFile).1.1.corr.theta = best.1.take dim ∧
      (k.train realFns E schedule hyperFile).1.1.corr.gamma = best.1.drop dim) := by
  cases r with
  | error e =>
    exact Or.inl ⟨e, rfl, train_throws h.isInitialized hl (by rw [h.prepared.dim]; exact h.prepared.dimPos.ne')
      ht hyperFile hs⟩
  | ok best =>
    right
    by_cases h0 : best.1 = []
    · refine Or.inl ⟨best, rfl, h0, ?_⟩
      have hd : k.dimension ≠ 0 := by rw [h.prepared.dim]; exact h.prepared.dimPos.ne'
      have hsearch : ∃ q, searchHyperParameters realFns k E schedule hyperFile = (q, .error .outOfRange) := by
        unfold searchHyperParameters
        rw [if_neg hd]
        have hk : (if k.hasValidation then { k with objective := .validationError } else k : Kriging ℝ) = k :=
          if_neg (by simp [hl.validation])
        simp only [hk]
        rw [if_neg ht, hs]
        have hhd : Vec.head best.1 k.dimension = .error .outOfRange := if_pos (by rw [h0]; simp; omega)
        refine ⟨({ k with iterations := k.iterations / k.threads }, hyperFile), andThen_error ?_ _⟩
        show commit _ (Except.bind (Vec.head best.1 k.dimension) _) = _
        rw [hhd]
        rfl
      obtain ⟨q, hq⟩ := hsearch
      unfold train
      rw [if_neg (by simp [h.isInitialized]), if_neg (by simp [hl.readWarm]), hq]
      rfl
    · refine Or.inr ⟨best, rfl, h0, ?_⟩
      have hbox : InBox (hyperLb k.dimension) (hyperUb k.dimension) best.1 := by
        rcases (searchAll_post hs).2 with h1 | ⟨-, t, -, h1⟩
        · exact absurd (by rw [h1]) h0
        · exact (threadSearch_post (hE t) h1).1
      rw [h.prepared.dim] at hbox
      obtain ⟨k', f', e, e1, e2⟩ := train_best h hl ht hyperFile hs hbox
      rw [e]
      exact ⟨rfl, e1, e2⟩

end Kriging
end Rodeo
