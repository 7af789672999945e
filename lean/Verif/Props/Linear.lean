import Verif.Lemmas.Linear
import Verif.Lemmas.Normalize
import Verif.Lemmas.CSV
import Mathlib.Data.Rat.Floor

set_option linter.unusedSectionVars false

/-! # Ridge regression weights (C55) -/

namespace Rodeo
open Spec Mat Text

variable {K : Type} [Field K] [LinearOrder K] [IsStrictOrderedRing K]

/-- The object is ready for training: `n` normalized samples with inputs `X` are stored. -/
structure Spec.Trainable (m : LinearModel K) (n dim : Nat) (X : Nat → Nat → K) : Prop where
  read : m.isRead = true
  normalized : m.isNormalized = true
  dimension : m.dimension = dim
  dimPos : 0 < dim
  count : m.numberOfSamples = n
  countPos : 0 < n
  inputs : IsMat m.data.X n dim X
  outputs : m.data.y.length = n

/-- What a model that has been trained predicts: the ridge regression of its samples. -/
def Spec.PredictsRidge (m : LinearModel K) (n dim : Nat) (X : Nat → Nat → K) (y : Nat → K)
    (lambda : K) : Prop :=
  ∃ w : Nat → K, IsRidge n dim X y lambda w ∧
    ∀ x : List K, x.length = dim → m.interpolate x = .ok (affine dim w (vecFun x))

theorem ridgeWeights_ok {m : LinearModel K} {n dim : Nat} {X : Nat → Nat → K} {lambda : K}
    (hm : Trainable m n dim X) (hlam : m.regularization = some lambda) (hl : 0 < lambda) :
    (∃ w, m.ridgeWeights = .ok w ∧ w.length = dim + 1 ∧
      IsRidge n dim X (vecFun m.data.y) lambda (vecFun w)) ∨
    (¬ ((dim : K) + 1 ≤ (10 ^ 9 * lambda) ^ 2) ∧ m.ridgeWeights = .error .runtimeError) := by
  unfold LinearModel.ridgeWeights
  rw [hm.count, hm.dimension]
  obtain ⟨A, eA, hA⟩ := LinearModel.augmented_ok hm.inputs
  rw [bind_eq eA rfl]
  obtain ⟨T, eT, hT⟩ := transpose_ok hA
  rw [bind_eq eT rfl]
  obtain ⟨P, eP, hP⟩ := matMatProduct_ok hT hA
  rw [bind_eq eP rfl, hlam]
  obtain ⟨M, eM, hM⟩ := Corr.addEpsilonToDiagonal_ok hP lambda
  have eV := matVecProduct_ok hT hm.outputs
  simp only
  rw [bind_eq eM rfl]
  rcases C46_inverse hM with ⟨LU, p, B, G, -, eB, hB, -, hG⟩ | ⟨hlu, eB⟩
  · left
    refine ⟨_, bind_eq eB (bind_eq eV (matVecProduct_ok hB (by simp))), by simp, ?_⟩
    refine isRidge_of_normal hl ?_
    intro i hi
    -- M (G b) = b, from the right inverse
    have hR := left_inverse_of_right hG
    have e1 : ∀ j, j ∈ Finset.range (dim + 1) → vecFun ((List.range (dim + 1)).map fun i =>
        ∑ j ∈ Finset.range (dim + 1), G i j * vecFun ((List.range (dim + 1)).map fun i =>
          ∑ j ∈ Finset.range n, augFun X j i * vecFun m.data.y j) j) j =
        ∑ l ∈ Finset.range (dim + 1), G j l * ∑ k ∈ Finset.range n, augFun X k l * vecFun m.data.y k := by
      intro j hj
      rw [Corr.vecFun_map _ (Finset.mem_range.1 hj)]
      refine Finset.sum_congr rfl fun l hl => ?_
      rw [Corr.vecFun_map _ (Finset.mem_range.1 hl)]
    rw [Finset.sum_congr rfl fun j hj => by rw [e1 j hj]]
    simp only [Finset.mul_sum (s := Finset.range (dim + 1))]
    rw [Finset.sum_comm]
    have e2 : ∀ l, l ∈ Finset.range (dim + 1) → ∑ j ∈ Finset.range (dim + 1),
        (if i = j then (∑ k ∈ Finset.range n, augFun X k i * augFun X k j) + lambda
          else ∑ k ∈ Finset.range n, augFun X k i * augFun X k j) *
        (G j l * ∑ k ∈ Finset.range n, augFun X k l * vecFun m.data.y k) =
        (if i = l then 1 else 0) * ∑ k ∈ Finset.range n, augFun X k l * vecFun m.data.y k := by
      intro l hl
      rw [← hR i l hi (Finset.mem_range.1 hl), Finset.sum_mul]
      refine Finset.sum_congr rfl fun j _ => by ring
    rw [Finset.sum_congr rfl e2]
    simp [hi]
  · right
    refine ⟨?_, bind_err eB⟩
    intro hsize
    obtain ⟨G, h1, h2⟩ := ridge_inverse (n := n) (m := dim + 1) (A := augFun X) hl
      (by push_cast; exact hsize)
    obtain ⟨LU, p, e⟩ := C47_partial hM h1 h2
    rw [hlu] at e
    cases e

/-- For every data set and every `lambda > 0`: training either succeeds, and then the prediction is
the affine function whose weights are the only minimizer of the regularized least squares error of
the stored samples, or it reports that it failed and leaves the object as it was.  If
`lambda` is not tiny compared to the number of parameters it succeeds. -/
theorem C55_train {m : LinearModel K} {n dim : Nat} {X : Nat → Nat → K} {lambda : K}
    (hm : Trainable m n dim X) (hlam : m.regularization = some lambda) (hl : 0 < lambda) :
    (∃ m', m.train = .ok m' ∧ PredictsRidge m' n dim X (vecFun m.data.y) lambda ∧
      m'.isTrained = true ∧ m'.data = m.data ∧ m'.regularization = m.regularization) ∨
    (¬ ((dim : K) + 1 ≤ (10 ^ 9 * lambda) ^ 2) ∧ m.train = .error .runtimeError) := by
  have hd := hm.dimension
  have hdp := hm.dimPos
  have hc := hm.count
  have hcp := hm.countPos
  unfold LinearModel.train
  rw [if_neg (by simp [hm.normalized]), if_neg (by simp [hm.read]), if_neg (by omega),
    if_neg (by omega)]
  rcases ridgeWeights_ok hm hlam hl with ⟨w, e, h1, h2⟩ | ⟨h1, e⟩
  · left
    refine ⟨_, bind_eq e rfl, ⟨vecFun w, h2, ?_⟩, rfl, rfl, rfl⟩
    intro x hx
    have := LinearModel.interpolate_ok (m := { m with weights := w, isTrained := true }) (x := x)
      (by simpa [hd] using h1) (by simp only; omega)
    rw [this]
    simp only [hd]
  · exact Or.inr ⟨h1, bind_err e⟩

section file
variable [FloorRing K]

/-- `setDimension`, `setBoxConstraints`, `readData`, `normalizeData`, `initializeSurrogateModel` on a
new object, ended by the first exception. -/
def Spec.buildLinear (dim : Nat) (b : Bounds K) (file : Option Str) (perm : List Nat) :
    LinearModel K × Res Unit :=
  andThen (commit (LinearModel.new.setDimension dim)
    ((LinearModel.new.setDimension dim).setBoxConstraints b)) fun m =>
  andThen (m.readData file perm) fun m =>
  andThen m.normalizeData LinearModel.init

theorem sum_perm {n : Nat} {tr : List Nat} (h : tr.Perm (List.range n)) (f : Nat → K) :
    ∑ i ∈ Finset.range n, f (tr.getD i 0) = ∑ i ∈ Finset.range n, f i := by
  have hlen : tr.length = n := by rw [h.length_eq, List.length_range]
  have e0 : ∀ g : Nat → K, ∑ i ∈ Finset.range n, g i = ((List.range n).map g).sum := fun g => rfl
  have e1 : (List.range n).map (fun i => f (tr.getD i 0)) = tr.map f := by
    apply List.ext_getElem
    · simp [hlen]
    · intro i h1 h2
      have : i < tr.length := by simpa using h2
      simp [List.getD, this]
  rw [e0, e0, e1]
  exact (h.map f).sum_eq

/-- From the file to the prediction: for every readable file with `dim` parameters and a value in
every row and at most 99 parameters, and for all bounds with `lb < ub`, the model is built without
an exception, and it predicts the ridge regression, with `lambda = 1e-8`, of all rows of the file in
normalized coordinates. -/
theorem C55_model {file : Option Str} {A : Mat K} {n dim : Nat} {F : Nat → Nat → K} {b : Bounds K}
    {perm : List Nat} (hread : readFromCSV file false = .ok A) (hA : IsMat A n (dim + 1) F)
    (hdim : 0 < dim) (h99 : dim ≤ 99) (hset : b.isSet = true) (hbd : b.dim = dim)
    (hlb : b.lb.length = dim) (hub : b.ub.length = dim)
    (hlt : ∀ j, j < dim → vecFun b.lb j < vecFun b.ub j) (hp : perm.Perm (List.range n)) :
    ∃ m, buildLinear dim b file perm = (m, .ok ()) ∧ m.isInitialized = true ∧
      PredictsRidge m n dim
        (fun i j => 1 / (dim : K) * ((F i j - vecFun b.lb j) / (vecFun b.ub j - vecFun b.lb j)))
        (fun i => F i dim) (1 / 10 ^ 8) := by
  have hn : 0 < n := by
    cases file with
    | none => unfold readFromCSV at hread; cases hread
    | some text =>
      obtain ⟨n', m', F', hn', hA', -⟩ := readFromCSV_inv hread
      obtain ⟨rfl, -, -⟩ := isMat_unique hA' hA
      exact hn'
  set d0 : SMData K := { (SMData.new : SMData K) with box := b } with hd0
  set m0 : LinearModel K := { (LinearModel.new.setDimension dim : LinearModel K) with data := d0 } with hm0
  have e0 : (LinearModel.new.setDimension dim : LinearModel K).setBoxConstraints b = .ok m0 := by
    unfold LinearModel.setBoxConstraints
    refine bind_eq (a := d0) ?_ rfl
    exact if_neg (by simp [hset])
  obtain ⟨tr, va, hs, hva, h3⟩ := SMData.readData_ok (d := d0) (R := []) hread hA hn hdim rfl
    (Or.inl rfl) (by simp [hd0, SMData.new]) le_rfl (fun _ => rfl) (hasRows_empty _) hp
  have hk : SMData.validationCount n d0.ratio = 0 := by
    simp [hd0, SMData.new, SMData.validationCount]
  rw [hk] at hs hva
  have hva0 : va = [] := by simpa using hva
  subst hva0
  have hperm : tr.Perm (List.range n) := by simpa using hs.1
  have hlen : tr.length = n := by rw [hperm.length_eq, List.length_range]
  rw [if_neg (by intro h; rw [h] at hlen; simp at hlen; omega)] at h3
  obtain ⟨d1, e1, a1, a2, a3, -, a4, -, a5, a6, a7, -, a8, -, ay, -⟩ := h3
  rw [hlen] at a2 a8
  obtain ⟨d2, e2, -, b1, b2, -, by', -, -, -, -, b3, -⟩ := SMData.normalize_ok (d := d1)
    (n := n) (kv := 0) (Fv := fun _ _ => 0) (G := fun _ _ => 0)
    hdim a7 a2 a1 a8 (by rw [a3]; simp) (by rw [a5]; simp [hd0, SMData.new])
    (by rw [a4]; exact hset) (by rw [a4]; exact hbd) (by rw [a4]; exact hlb)
    (by rw [a4]; exact hub) (by rw [a4]; exact hlt)
  rw [a4] at b3
  set m1 : LinearModel K := { m0 with data := d1, numberOfSamples := d1.numberOfSamples, isRead := true }
    with hm1
  set m2 : LinearModel K := { m1 with data := d2, isNormalized := true } with hm2
  set m3 : LinearModel K := { m2 with weights := Vec.resize m2.weights (m2.dimension + 1)
                                      regularization := some (1 / 10 ^ 8) } with hm3
  have t1 : m0.readData file perm = (m1, .ok ()) := by
    unfold LinearModel.readData
    have : m0.data = d0 := rfl
    rw [this, e1]
  have t2 : m1.normalizeData = (m2, .ok ()) := by
    unfold LinearModel.normalizeData
    have : m1.data = d1 := rfl
    rw [if_neg (by simp [hm1]), this, e2]
  have ht : Trainable m3 n dim
      (fun i j => 1 / (dim : K) * ((F (tr.getD i 0) j - vecFun b.lb j) / (vecFun b.ub j - vecFun b.lb j))) :=
    ⟨rfl, rfl, rfl, hdim, a2, hn, b3, by
      show d2.y.length = n
      rw [by', ay, List.length_map, hlen]⟩
  have hsz : (dim : K) + 1 ≤ (10 ^ 9 * (1 / 10 ^ 8)) ^ 2 := by
    have : (dim : K) ≤ 99 := by exact_mod_cast h99
    norm_num
    linarith
  rcases C55_train (lambda := 1 / 10 ^ 8) ht rfl (by positivity) with ⟨m4, e4, h4, -⟩ | ⟨h, -⟩
  · refine ⟨{ m4 with isInitialized := true }, ?_, rfl, ?_⟩
    · unfold buildLinear
      refine andThen_commit e0 ?_
      rw [t1]
      show andThen m1.normalizeData LinearModel.init = _
      rw [t2]
      show m2.init = _
      unfold LinearModel.init
      rw [if_neg (by simp [hm2, hm1]), if_neg (by
        have : m2.dimension = dim := rfl
        omega)]
      show (match m3.train with
        | .error e => ((m3, .error e) : LinearModel K × Res Unit)
        | .ok m => ({ m with isInitialized := true }, .ok ())) = _
      rw [e4]
    · obtain ⟨w, hw, hx⟩ := h4
      refine ⟨w, ?_, hx⟩
      have hy : ∀ i, i < n → vecFun m3.data.y i = F (tr.getD i 0) dim := by
        intro i hi
        show vecFun d2.y i = _
        rw [by', ay]
        simp [vecFun, List.getD, hlen, hi]
      have hloss : ∀ w, ridgeLoss n dim (fun i j => 1 / (dim : K) *
          ((F (tr.getD i 0) j - vecFun b.lb j) / (vecFun b.ub j - vecFun b.lb j)))
          (vecFun m3.data.y) (1 / 10 ^ 8) w = ridgeLoss n dim (fun i j => 1 / (dim : K) *
          ((F i j - vecFun b.lb j) / (vecFun b.ub j - vecFun b.lb j))) (fun i => F i dim)
          (1 / 10 ^ 8) w := by
        intro w
        unfold ridgeLoss
        congr 1
        refine Eq.trans ?_ (sum_perm hperm _)
        refine Finset.sum_congr rfl fun i hi => ?_
        rw [hy i (Finset.mem_range.1 hi)]
      intro w'
      have := hw w'
      rw [hloss, hloss] at this
      exact this
  · exact absurd hsz h

/-- If the data cannot be read, nothing is built on them: a model that has not read data before refuses to
normalize, to train and to be initialized afterwards, and its weights are as before. -/
theorem C55_unread {m m' : LinearModel K} {file : Option Str} {perm : List Nat} {e : Err}
    (h0 : m.isRead = false) (h1 : m.isNormalized = false) (h : m.readData file perm = (m', .error e)) :
    m'.weights = m.weights ∧ m'.isTrained = m.isTrained ∧ m'.isInitialized = m.isInitialized ∧
    m'.normalizeData = (m', .error .abort) ∧ m'.train = .error .runtimeError ∧
    m'.init = (m', .error .runtimeError) := by
  have hm : ∃ d, m' = { m with data := d } := by
    unfold LinearModel.readData at h
    split at h
    · exact ⟨_, (Prod.mk.inj h).1.symm⟩
    · cases (Prod.mk.inj h).2
  obtain ⟨d, rfl⟩ := hm
  refine ⟨rfl, rfl, rfl, ?_, ?_, ?_⟩
  · unfold LinearModel.normalizeData; rw [if_pos h0]
  · unfold LinearModel.train; rw [if_pos h1]
  · unfold LinearModel.init; rw [if_pos h0]

-- C55: a file that is not there.
example : ∃ m' e, (LinearModel.new : LinearModel ℚ).readData none [] = (m', .error e) := ⟨_, _, rfl⟩

end file

/-! Two samples of one parameter: 1 at 0 and 3 at 2, in the box from 0 to 2.  The model is built; its
weights are close to 1 and 2, the line through the samples in normalized coordinates. -/
example : (match buildLinear 1 ⟨[(0 : ℚ)], [2], 1, true⟩ (some "0,1\n2,3\n".toList) [0, 1] with
    | (m, .ok ()) => m.isTrained && m.weights ==
        [10000000400000000 / 10000000300000001, 20000000300000000 / 10000000300000001]
    | _ => false) = true := by decide +kernel

/-- A tiny `lambda` and two equal samples: training fails, and this is reported. -/
example : ((({ (LinearModel.new : LinearModel ℚ) with
      dimension := 1, numberOfSamples := 2, isRead := true, isNormalized := true
      regularization := some (1 / 10 ^ 30)
      data := { (SMData.new : SMData ℚ) with X := ⟨2, 1, [1 / 2, 1 / 2]⟩, y := [1, 2] } }).train).toOption).isNone
    = true := by decide +kernel

/-- Training without setting the regularization parameter reads an indeterminate value. -/
example : (({ (LinearModel.new : LinearModel ℚ) with
      dimension := 1, numberOfSamples := 1, isRead := true, isNormalized := true
      data := { (SMData.new : SMData ℚ) with X := ⟨1, 1, [1 / 2]⟩, y := [1] } }).ridgeWeights)
    = .error .ub := by decide +kernel

end Rodeo
