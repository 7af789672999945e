import Verif.Props.Kriging
import Verif.Lemmas.DataConfig

set_option linter.unusedSectionVars false

/-! # Lemmas on building a Kriging model -/

namespace Rodeo
open Spec Mat Finset Text

namespace Spec

/-- The object is ready for the computation of the auxiliary fields: `n` normalized samples with
inputs `X` and outputs `y`, from which the trend `T` has been subtracted, are stored, and the
correlation function knows them. -/
structure Prepared (k : Kriging ℝ) (n m : Nat) (X : Nat → Nat → ℝ) (y : Nat → ℝ)
    (T : List ℝ → ℝ) : Prop where
  read : k.isRead = true
  normalized : k.isNormalized = true
  corrInit : k.corrInitialized = true
  dim : k.dimension = m
  dimPos : 0 < m
  count : k.numberOfSamples = n
  countPos : 0 < n
  dataDim : k.data.dimension = m
  dataCount : k.data.numberOfSamples = n
  hyper : k.numberOfHyperParameters = 2 * m
  ready : Ready k.corr n m X
  corrDim : k.corr.base.dim = m
  inputs : IsMat k.data.X n m X
  epsilon : 0 ≤ k.corr.base.epsilon ∧ k.corr.base.epsilon < 1
  trend : HasTrend k m T
  linearDim : k.usesLinear = true → k.linear.dimension = m
  outLen : k.data.y.length = n
  outputs : ∀ i, i < n → vecFun k.data.y i = y i - T ((List.range m).map (X i))

theorem Fitted.congr {k : Kriging ℝ} {n m : Nat} {X : Nat → Nat → ℝ} {y y' : Nat → ℝ}
    (h : Fitted k n m X y) (hy : ∀ i, i < n → y i = y' i) : Fitted k n m X y' where
  countPos := h.countPos
  ready := h.ready
  posDef := h.posDef
  solver := h.solver
  ones := h.ones
  RinvI_len := h.RinvI_len
  RinvI := h.RinvI
  weights_len := h.weights_len
  weights := h.weights.congr fun i hi => by rw [hy i hi]
  mean := h.mean
  variance := by
    rw [h.variance]
    congr 1
    exact dotp_congr (fun i hi => by rw [hy i hi]) fun _ _ => rfl

/-- `updateAuxilliaryFields` makes a model of a prepared object. -/
theorem Prepared.update {k : Kriging ℝ} {n m : Nat} {X : Nat → Nat → ℝ} {y : Nat → ℝ}
    {T : List ℝ → ℝ} (h : Prepared k n m X y T) (hP : PosDef n (corrOf k m X)) :
    ∃ M L a b beta c s,
      k.updateAuxilliaryFields realFns = (Kriging.fitState k M L a b beta c s n, .ok ()) ∧
      L.done = true ∧ ModelOf (Kriging.fitState k M L a b beta c s n) n m X y T ∧
      Prepared (Kriging.fitState k M L a b beta c s n) n m X y T := by
  obtain ⟨M, L, a, b, beta, c, s, e, hd, hf⟩ := Kriging.update_ok h.read h.normalized h.corrInit
    h.count h.countPos (by rw [h.dim]; exact h.dimPos) h.ready h.outLen hP
  exact ⟨M, L, a, b, beta, c, s, e, hd, ⟨h.trend, h.epsilon, hf.congr h.outputs⟩,
    { h with ready := hf.ready, trend := h.trend }⟩

end Spec

namespace Kriging

theorem subtractLinear_ok {k : Kriging ℝ} {n m : Nat} {X : Nat → Nat → ℝ} {T : List ℝ → ℝ}
    (hT : ∀ x : List ℝ, x.length = m → k.linear.interpolate x = .ok (T x))
    (hd : k.linear.dimension = m) (hX : IsMat k.data.X n m X) (hy : k.data.y.length = n)
    (hn : k.data.numberOfSamples = n) :
    ∃ ys, k.subtractLinear = .ok { k with data := { k.data with y := ys } } ∧ ys.length = n ∧
      ∀ i, i < n → vecFun ys i = vecFun k.data.y i - T ((List.range m).map (X i)) := by
  obtain ⟨hr, hc, -, -⟩ := id hX
  have e1 : k.linear.interpolateAll k.data.X =
      .ok ((List.range n).map fun i => T ((List.range m).map (X i))) := by
    unfold LinearModel.interpolateAll
    rw [if_neg (by rw [hc, hd]; simp), hr]
    exact tab_ok fun i hi => bind_eq (getRow_ok hX hi (Or.inl rfl)) (hT _ (by simp))
  refine ⟨_, bind_eq e1 (bind_eq (Vec.sub_eq (by simp [hy])) (bind_eq (if_neg ?_) rfl)), ?_, ?_⟩
  · simp [hy, hn]
  · simp [hy]
  · intro i hi
    have h1 : i < k.data.y.length := by omega
    simp [vecFun, List.getD, h1, hi]

/-- The object after the initialization of the correlation function. -/
def corrState (k : Kriging ℝ) (n m : Nat) (th ga : List ℝ) : Kriging ℝ :=
  { k with
    corr := ⟨⟨k.data.X, n, m, Mat.const n n 0, k.corr.base.epsilon, true⟩, th, ga⟩
    corrInitialized := true }

/-- The parameters of the correlation function after `initializeSurrogateModel`: ones and 1.8 the
first time, later those there are. -/
def startParameters (k : Kriging ℝ) (m : Nat) (th ga : List ℝ) : Prop :=
  if k.corrInitialized then k.corr.theta = th ∧ k.corr.gamma = ga
  else th = List.replicate m 1 ∧ ga = List.replicate m (9 / 5)

theorem setupCorr_ok {k : Kriging ℝ} {n m : Nat} {X : Nat → Nat → ℝ} {th ga : List ℝ}
    (hX : IsMat k.data.X n m X) (hn : 0 < n) (hm : 0 < m) (hp : startParameters k m th ga) :
    k.setupCorr = (corrState k n m th ga, .ok ()) := by
  obtain ⟨hr, hc, -, -⟩ := id hX
  have e0 : k.corr.base.setInputSampleMatrix k.data.X =
      .ok ⟨k.data.X, n, m, Mat.const n n 0, k.corr.base.epsilon, true⟩ := by
    unfold Corr.Base.setInputSampleMatrix
    rw [if_neg (by simp only [Mat.isEmpty, decide_eq_true_eq]; omega), hr, hc]
  unfold setupCorr
  refine andThen_commit (bind_eq e0 rfl) ?_
  unfold startParameters at hp
  by_cases hci : k.corrInitialized = true
  · rw [if_pos hci] at hp
    rw [if_neg (by simp [hci])]
    unfold corrState
    rw [← hp.1, ← hp.2, ← hci]
  · rw [if_neg hci] at hp
    rw [if_pos (by simpa using hci)]
    obtain ⟨rfl, rfl⟩ := hp
    refine commit_ok (bind_eq (a := ⟨⟨k.data.X, n, m, Mat.const n n 0, k.corr.base.epsilon, true⟩,
      List.replicate m 1, List.replicate m (9 / 5)⟩) ?_ rfl)
    unfold Corr.ExpCorr.init
    refine (if_neg (show ¬ m = 0 by omega)).trans ?_
    refine bind_eq (if_neg ?_) (if_neg ?_)
    · simp; omega
    · simp; omega

/-- What holds of an object before `initializeSurrogateModel`. -/
structure Loaded (k : Kriging ℝ) (n m : Nat) (X : Nat → Nat → ℝ) (T : List ℝ → ℝ) (th ga : List ℝ) :
    Prop where
  read : k.isRead = true
  normalized : k.isNormalized = true
  dim : k.dimension = m
  dimPos : 0 < m
  count : k.numberOfSamples = n
  countPos : 0 < n
  dataDim : k.data.dimension = m
  dataCount : k.data.numberOfSamples = n
  inputs : IsMat k.data.X n m X
  outLen : k.data.y.length = n
  epsilon : 0 ≤ k.corr.base.epsilon ∧ k.corr.base.epsilon < 1
  start : startParameters k m th ga
  thLen : th.length = m
  gaLen : ga.length = m
  thNonneg : ∀ t ∈ th, 0 ≤ t
  gaRange : ∀ g ∈ ga, 0 ≤ g ∧ g ≤ 2
  linear : if k.usesLinear then ∃ L, k.linear.init = (L, .ok ()) ∧ L.dimension = m ∧
      ∀ x : List ℝ, x.length = m → L.interpolate x = .ok (T x) else ∀ x, T x = 0

/-- What `initializeSurrogateModel` keeps. -/
structure SameSettings (k k' : Kriging ℝ) : Prop where
  iterations : k'.iterations = k.iterations
  threads : k'.threads = k.threads
  usesLinear : k'.usesLinear = k.usesLinear
  epsilon : k'.corr.base.epsilon = k.corr.base.epsilon
  average : k'.averageBeta0 = k.averageBeta0
  objective : k'.objective = k.objective
  validation : k'.hasValidation = k.hasValidation
  writeWarm : k'.writeWarm = k.writeWarm
  readWarm : k'.readWarm = k.readWarm

theorem SameSettings.trans {a b c : Kriging ℝ} (h : SameSettings a b) (h' : SameSettings b c) :
    SameSettings a c :=
  ⟨h'.1.trans h.1, h'.2.trans h.2, h'.3.trans h.3, h'.4.trans h.4, h'.5.trans h.5, h'.6.trans h.6,
    h'.7.trans h.7, h'.8.trans h.8, h'.9.trans h.9⟩

theorem init_ok {k : Kriging ℝ} {n m : Nat} {X : Nat → Nat → ℝ} {T : List ℝ → ℝ} {th ga : List ℝ}
    (h : Loaded k n m X T th ga)
    (hP : PosDef n (krigingMatrix m (vecFun th) (vecFun ga) k.corr.base.epsilon X)) :
    ∃ k', k.init realFns = (k', .ok ()) ∧ ModelOf k' n m X (vecFun k.data.y) T ∧
      Prepared k' n m X (vecFun k.data.y) T ∧ SameSettings k k' ∧ k'.isInitialized = true ∧
      k'.corr.theta = th ∧ k'.corr.gamma = ga ∧
      (k.usesLinear = true → k.linear.init = (k'.linear, .ok ())) ∧
      (∃ ys, k'.data = { k.data with y := ys }) := by
  have e0 := setupCorr_ok h.inputs h.countPos h.dimPos h.start
  set k1 : Kriging ℝ := { (corrState k n m th ga) with numberOfHyperParameters := 2 * k.dimension }
    with hk1
  have hready : Ready k1.corr n m X :=
    ⟨rfl, h.inputs, rfl, h.thLen, h.gaLen, h.thNonneg, h.gaRange⟩
  -- the linear part
  obtain ⟨k2, e2, hp2, hs2, ht2, hg2, hl2, hd2⟩ : ∃ k2, (if k1.usesLinear then
        andThen (k1.onLinear k1.linear.init) fun k => commit k k.subtractLinear
      else (k1, .ok ())) = (k2, .ok ()) ∧ Prepared k2 n m X (vecFun k.data.y) T ∧
      SameSettings k k2 ∧ k2.corr.theta = th ∧ k2.corr.gamma = ga ∧
      (k.usesLinear = true → k.linear.init = (k2.linear, .ok ())) ∧
      ∃ ys, k2.data = { k.data with y := ys } := by
    have hl := h.linear
    by_cases hu : k.usesLinear = true
    · rw [if_pos hu] at hl
      obtain ⟨L, l1, l2, l3⟩ := hl
      set k1' : Kriging ℝ := { k1 with linear := L } with hk1'
      obtain ⟨ys, y1, y2, y3⟩ := subtractLinear_ok (k := k1') (T := T) l3 l2 h.inputs h.outLen
        h.dataCount
      refine ⟨{ k1' with data := { k1'.data with y := ys } }, ?_, ?_, ⟨rfl, rfl, rfl, rfl, rfl, rfl,
        rfl, rfl, rfl⟩, rfl, rfl, fun _ => l1, ys, rfl⟩
      · rw [if_pos (show k1.usesLinear = true from hu)]
        refine andThen_ok (s := k1') ?_ (commit_ok y1)
        show ({ k1 with linear := (k.linear.init).1 }, (k.linear.init).2) = (k1', Except.ok ())
        rw [l1]
      · exact ⟨h.read, h.normalized, rfl, h.dim, h.dimPos, h.count, h.countPos, h.dataDim,
          h.dataCount, by show 2 * k.dimension = _; rw [h.dim], hready, rfl, h.inputs, h.epsilon,
          fun x hx => by
            unfold linearPart
            rw [if_pos (show k1.usesLinear = true from hu)]
            exact l3 x hx,
          fun _ => l2, y2, y3⟩
    · rw [if_neg hu] at hl
      refine ⟨k1, ?_, ?_, ⟨rfl, rfl, rfl, rfl, rfl, rfl, rfl, rfl, rfl⟩, rfl, rfl,
        fun hu' => absurd hu' hu, k.data.y, rfl⟩
      · rw [if_neg (show ¬ k1.usesLinear = true from hu)]
      · exact ⟨h.read, h.normalized, rfl, h.dim, h.dimPos, h.count, h.countPos, h.dataDim,
          h.dataCount, by show 2 * k.dimension = _; rw [h.dim], hready, rfl, h.inputs, h.epsilon,
          fun x hx => by
            unfold linearPart
            rw [if_neg (show ¬ k1.usesLinear = true from hu), hl],
          fun hu' => absurd hu' hu, h.outLen, fun i _ => by rw [hl, sub_zero]; rfl⟩
  have hP2 : PosDef n (corrOf k2 m X) := by
    unfold corrOf
    rw [ht2, hg2, hs2.epsilon]
    exact hP
  obtain ⟨M, L, a, b, beta, c, s, e3, hd3, hm3, hp3⟩ := hp2.update hP2
  obtain ⟨ys, hys⟩ := hd2
  refine ⟨{ (fitState k2 M L a b beta c s n) with isInitialized := true }, ?_, ?_, ?_, ?_, rfl, ht2,
    hg2, hl2, ys, hys⟩
  · unfold init
    have hd := h.dim
    have hdp := h.dimPos
    have hc := h.count
    have hcp := h.countPos
    rw [if_neg (by omega), if_neg (by omega), if_neg (by simp [h.read]), if_neg (by simp [h.normalized])]
    exact andThen_ok e0 (andThen_ok e2 (andThen_ok e3 rfl))
  · exact { hm3 with trend := hm3.trend, fitted := { hm3.fitted with } }
  · exact { hp3 with trend := hp3.trend }
  · exact hs2.trans ⟨rfl, rfl, rfl, rfl, rfl, rfl, rfl, rfl, rfl⟩

end Kriging

namespace Spec

theorem ModelOf.congr {k : Kriging ℝ} {n m : Nat} {X : Nat → Nat → ℝ} {y y' : Nat → ℝ}
    {T : List ℝ → ℝ} (h : ModelOf k n m X y T) (hy : ∀ i, i < n → y i = y' i) :
    ModelOf k n m X y' T :=
  ⟨h.trend, h.epsilon, h.fitted.congr fun i hi => by rw [hy i hi]⟩

theorem Prepared.congr {k : Kriging ℝ} {n m : Nat} {X : Nat → Nat → ℝ} {y y' : Nat → ℝ}
    {T : List ℝ → ℝ} (h : Prepared k n m X y T) (hy : ∀ i, i < n → y i = y' i) :
    Prepared k n m X y' T :=
  { h with outputs := fun i hi => by rw [h.outputs i hi, hy i hi] }

theorem krigingMatrix_congr {n m : Nat} {t g : Nat → ℝ} {e : ℝ} {X X' : Nat → Nat → ℝ}
    (hX : ∀ i, i < n → X i = X' i) (i j : Nat) (hi : i < n) (hj : j < n) :
    krigingMatrix m t g e X i j = krigingMatrix m t g e X' i j := by
  unfold krigingMatrix
  rw [hX i hi, hX j hj]

theorem ModelOf.congr_inputs {k : Kriging ℝ} {n m : Nat} {X X' : Nat → Nat → ℝ} {y y' : Nat → ℝ}
    {T : List ℝ → ℝ} (h : ModelOf k n m X y T) (hX : ∀ i, i < n → X i = X' i)
    (hy : ∀ i, i < n → y i = y' i) : ModelOf k n m X' y' T := by
  have hf := h.fitted
  have hc := fun i j hi hj => krigingMatrix_congr (m := m) (t := vecFun k.corr.theta)
    (g := vecFun k.corr.gamma) (e := k.corr.base.epsilon) hX i j hi hj
  have hyT : ∀ i, i < n → y i - T ((List.range m).map (X i)) = y' i - T ((List.range m).map (X' i)) :=
    fun i hi => by rw [hy i hi, hX i hi]
  have hr : Ready k.corr n m X' :=
    { hf.ready with samples := hf.ready.samples.congr fun i j hi _ => by rw [hX i hi] }
  refine ⟨h.trend, h.epsilon, ⟨hf.countPos, hr, hf.posDef.congr hc, ?_, hf.ones, hf.RinvI_len,
    hf.RinvI.congr_mat hc, hf.weights_len, ?_, hf.mean, ?_⟩⟩
  · intro b hb
    obtain ⟨x, h1, h2, h3⟩ := hf.solver b hb
    exact ⟨x, h1, h2, h3.congr_mat hc⟩
  · exact (hf.weights.congr_mat hc).congr fun i hi => by rw [hyT i hi]
  · rw [hf.variance]
    congr 1
    exact dotp_congr (fun i hi => by rw [hyT i hi]) fun _ _ => rfl

/-- The parameters of the exponential correlation function are those of a positive definite
function. -/
structure GoodParameters (th ga : List ℝ) (dim : Nat) : Prop where
  thLen : th.length = dim
  gaLen : ga.length = dim
  thNonneg : ∀ t ∈ th, 0 ≤ t
  gaRange : ∀ g ∈ ga, 0 ≤ g ∧ g ≤ 2

/-- The settings of a Kriging model. -/
structure KrigingConfig (k : Kriging ℝ) (dim : Nat) (b : Bounds ℝ) : Prop where
  size : k.dimension = dim
  data : DataConfig k.data dim b
  linear : k.usesLinear = true → LinearConfig k.linear dim b
  epsilon : 0 ≤ k.corr.base.epsilon ∧ k.corr.base.epsilon < 1
  params : k.corrInitialized = true → GoodParameters k.corr.theta k.corr.gamma dim

/-- The trend of a model: zero, or the ridge regression of the rows of the file with
`lambda = 1e-8`. -/
def TrendOf (linear : Bool) (n dim : Nat) (b : Bounds ℝ) (F : Nat → Nat → ℝ) (T : List ℝ → ℝ) : Prop :=
  if linear then ∃ w, IsRidge n dim (normalized b dim F) (fun i => F i dim) (1 / 10 ^ 8) w ∧
    ∀ x, T x = affine dim w (vecFun x)
  else ∀ x, T x = 0

end Spec

theorem rethrow_ok {σ : Type} {p : σ × Res Unit} {s : σ} (h : p = (s, .ok ())) :
    rethrow p = (s, .ok ()) := by
  rw [h]; rfl

namespace Kriging

/-- `readData`, `normalizeData`, `initializeSurrogateModel`. -/
noncomputable def load (k : Kriging ℝ) (file : Option Str) (perm permL : List Nat) :
    Kriging ℝ × Res Unit :=
  andThen (k.readData file perm permL) fun k => andThen k.normalizeData fun k => k.init realFns

theorem startParameters_good {k : Kriging ℝ} {dim : Nat} {b : Bounds ℝ} (h : KrigingConfig k dim b)
    {th ga : List ℝ} (hst : startParameters k dim th ga) : GoodParameters th ga dim := by
  unfold startParameters at hst
  by_cases hc : k.corrInitialized = true
  · rw [if_pos hc] at hst
    rw [← hst.1, ← hst.2]
    exact h.params hc
  · rw [if_neg hc] at hst
    obtain ⟨rfl, rfl⟩ := hst
    refine ⟨by simp, by simp, ?_, ?_⟩
    · intro t ht
      rw [List.eq_of_mem_replicate ht]; norm_num
    · intro t ht
      rw [List.eq_of_mem_replicate ht]; norm_num

theorem load_ok {k : Kriging ℝ} {dim n : Nat} {b : Bounds ℝ} (h : KrigingConfig k dim b)
    (hb : ProperBox b dim) (hdim : 0 < dim) (h99 : k.usesLinear = true → dim ≤ 99)
    {file : Option Str} {A : Mat ℝ} {F : Nat → Nat → ℝ} (hread : readFromCSV file false = .ok A)
    (hA : IsMat A n (dim + 1) F) {perm permL : List Nat} (hp : perm.Perm (List.range n))
    (hpL : permL.Perm (List.range n)) {th ga : List ℝ} (hst : startParameters k dim th ga) :
    ∃ tr va, IsSplit n (SMData.validationCount n k.data.ratio) tr va ∧
      (k.data.ratio = 0 → tr = List.range n) ∧
      (tr ≠ [] → PosDef tr.length (krigingMatrix dim (vecFun th) (vecFun ga) k.corr.base.epsilon
          (fun i => normalized b dim F (tr.getD i 0))) →
        ∃ k' T, k.load file perm permL = (k', .ok ()) ∧
          ModelOf k' tr.length dim (fun i => normalized b dim F (tr.getD i 0))
            (fun i => F (tr.getD i 0) dim) T ∧
          Prepared k' tr.length dim (fun i => normalized b dim F (tr.getD i 0))
            (fun i => F (tr.getD i 0) dim) T ∧
          TrendOf k.usesLinear n dim b F T ∧ KrigingConfig k' dim b ∧ SameSettings k k' ∧
          k'.isInitialized = true ∧ k'.corr.theta = th ∧ k'.corr.gamma = ga ∧
          k'.data.ratio = k.data.ratio ∧ k'.data.rawData = A ∧ k'.data.isRead = true ∧
          k'.data.numberOfValidationSamples = va.length) := by
  obtain ⟨tr, va, hs, hord, hload⟩ := h.data.load hb hdim hread hA hp
  refine ⟨tr, va, hs, hord, fun htr hP => ?_⟩
  obtain ⟨d1, d2, e1, e2, c2, b2, n1, n2, r2, i2, raw2, v2, x2, y2⟩ := hload htr
  have hgood := startParameters_good h hst
  -- the linear model
  obtain ⟨L1, L2, T, l1, l2, l3, hT⟩ : ∃ (L1 L2 : LinearModel ℝ) (T : List ℝ → ℝ),
      (k.usesLinear = true → k.linear.readData file permL = (L1, .ok ())) ∧
      (k.usesLinear = true → L1.normalizeData = (L2, .ok ())) ∧
      (if k.usesLinear then ∃ L, L2.init = (L, .ok ()) ∧ LinearConfig L dim b ∧
        ∀ x : List ℝ, x.length = dim → L.interpolate x = .ok (T x) else ∀ x, T x = 0) ∧
      TrendOf k.usesLinear n dim b F T := by
    by_cases hu : k.usesLinear = true
    · obtain ⟨m1, m2, m3, f1, f2, f3, f4, -, w, f5, f6⟩ := (h.linear hu).load hb hdim (h99 hu) hread hA hpL
      refine ⟨m1, m2, fun x => affine dim w (vecFun x), fun _ => f1, fun _ => f2, ?_, ?_⟩
      · rw [if_pos hu]; exact ⟨m3, f3, f4, f6⟩
      · unfold TrendOf; rw [if_pos hu]; exact ⟨w, f5, fun _ => rfl⟩
    · refine ⟨k.linear, k.linear, fun _ => 0, fun h => absurd h hu, fun h => absurd h hu, ?_, ?_⟩
      · rw [if_neg hu]; exact fun _ => rfl
      · unfold TrendOf; rw [if_neg hu]; exact fun _ => rfl
  -- readData
  set k1 : Kriging ℝ := { k with data := d1, linear := if k.usesLinear then L1 else k.linear,
                                 numberOfSamples := d1.numberOfSamples, isRead := true } with hk1
  have t1 : k.readData file perm permL = (k1, .ok ()) := by
    unfold readData
    rw [if_neg (by rw [h.size]; omega)]
    refine andThen_ok (s := { k with data := d1 }) (rethrow_ok ?_) ?_
    · unfold onData; rw [e1]
    · by_cases hu : k.usesLinear = true
      · refine andThen_ok (s := { k with data := d1, linear := L1 }) ?_ ?_
        · rw [if_pos (show ({ k with data := d1 } : Kriging ℝ).usesLinear = true from hu)]
          refine rethrow_ok ?_
          unfold onLinear
          rw [show ({ k with data := d1 } : Kriging ℝ).linear = k.linear from rfl, l1 hu]
        · rw [hk1, if_pos hu]
      · refine andThen_ok (s := { k with data := d1 }) ?_ ?_
        · rw [if_neg (show ¬ ({ k with data := d1 } : Kriging ℝ).usesLinear = true from hu)]
        · rw [hk1, if_neg hu]
  set k2 : Kriging ℝ := { k1 with data := d2, linear := if k.usesLinear then L2 else k.linear,
                                  isNormalized := true } with hk2
  have t2 : k1.normalizeData = (k2, .ok ()) := by
    unfold normalizeData
    rw [if_neg (by simp [hk1])]
    refine andThen_ok (s := { k1 with data := d2 }) ?_ ?_
    · unfold onData; rw [show k1.data = d1 from rfl, e2]
    · by_cases hu : k.usesLinear = true
      · refine andThen_ok (s := { k1 with data := d2, linear := L2 }) ?_ ?_
        · rw [if_pos (show ({ k1 with data := d2 } : Kriging ℝ).usesLinear = true from hu)]
          unfold onLinear
          rw [show ({ k1 with data := d2 } : Kriging ℝ).linear = L1 from if_pos hu, l2 hu]
        · rw [hk2, if_pos hu]
      · refine andThen_ok (s := { k1 with data := d2 }) ?_ ?_
        · rw [if_neg (show ¬ ({ k1 with data := d2 } : Kriging ℝ).usesLinear = true from hu)]
        · simp only [hk2, hk1, if_neg hu]
  have hL : Loaded k2 tr.length dim (fun i => normalized b dim F (tr.getD i 0)) T th ga :=
    ⟨rfl, rfl, h.size, hdim, n1, List.length_pos_of_ne_nil htr, b2, n2, x2, by
      show d2.y.length = _
      rw [y2]; simp, h.epsilon, hst, hgood.thLen, hgood.gaLen, hgood.thNonneg, hgood.gaRange, by
      show if k.usesLinear then _ else _
      by_cases hu : k.usesLinear = true
      · rw [if_pos hu] at l3 ⊢
        obtain ⟨L, q1, q2, q3⟩ := l3
        refine ⟨L, ?_, q2.size, q3⟩
        rw [show k2.linear = L2 from if_pos hu]
        exact q1
      · rw [if_neg hu] at l3 ⊢
        exact l3⟩
  obtain ⟨k3, e3, hm3, hp3, hs3, hi3, ht3, hg3, hl3, ys, hd3⟩ := init_ok hL hP
  have hyy : ∀ i, i < tr.length → vecFun k2.data.y i = F (tr.getD i 0) dim := by
    intro i hi
    show vecFun d2.y i = _
    rw [y2]
    simp [vecFun, List.getD, hi]
  refine ⟨k3, T, andThen_ok t1 (andThen_ok t2 e3), hm3.congr hyy, hp3.congr hyy, hT, ?_, ?_, hi3, ht3,
    hg3, ?_, ?_, ?_, ?_⟩
  · refine ⟨hp3.dim, ?_, ?_, ?_, ?_⟩
    · rw [hd3]
      exact ⟨c2.box, c2.noGradients, c2.noDirectional, c2.size, c2.ratio, c2.stale, c2.rows⟩
    · intro hu
      rw [hs3.usesLinear] at hu
      have hu' : k.usesLinear = true := hu
      rw [if_pos hu'] at l3
      obtain ⟨L, q1, q2, -⟩ := l3
      have := hl3 hu
      rw [show k2.linear = L2 from if_pos hu', q1] at this
      rw [← show L = k3.linear from congrArg Prod.fst this]
      exact q2
    · rw [hs3.epsilon]; exact h.epsilon
    · intro _
      rw [ht3, hg3]; exact hgood
  · exact ⟨hs3.1, hs3.2, hs3.3, hs3.4, hs3.5, hs3.6, hs3.7, hs3.8, hs3.9⟩
  · rw [hd3]; exact r2
  · rw [hd3]; exact raw2
  · rw [hd3]; exact i2
  · rw [hd3]; exact v2

end Kriging

namespace Spec

theorem Prepared.congr_inputs {k : Kriging ℝ} {n m : Nat} {X X' : Nat → Nat → ℝ} {y y' : Nat → ℝ}
    {T : List ℝ → ℝ} (h : Prepared k n m X y T) (hX : ∀ i, i < n → X i = X' i)
    (hy : ∀ i, i < n → y i = y' i) : Prepared k n m X' y' T :=
  { h with
    ready := { h.ready with samples := h.ready.samples.congr fun i j hi _ => by rw [hX i hi] }
    inputs := h.inputs.congr fun i j hi _ => by rw [hX i hi]
    outputs := fun i hi => by rw [h.outputs i hi, hy i hi, hX i hi] }

/-- The object is the Kriging model of all rows of the file, in their order, with the trend `T`. -/
structure CurrentModel (k : Kriging ℝ) (file : Option Str) (n dim : Nat) (F : Nat → Nat → ℝ)
    (b : Bounds ℝ) (T : List ℝ → ℝ) : Prop where
  table : readFromCSV file false = .ok k.data.rawData
  rows : IsMat k.data.rawData n (dim + 1) F
  model : ModelOf k n dim (normalized b dim F) (fun i => F i dim) T
  prepared : Prepared k n dim (normalized b dim F) (fun i => F i dim) T
  trend : TrendOf k.usesLinear n dim b F T
  config : KrigingConfig k dim b
  isInitialized : k.isInitialized = true
  ratio : k.data.ratio = 0

end Spec

/-- Reading a file without validation samples gives the model of its rows. -/
theorem Kriging.load_current {k : Kriging ℝ} {dim n : Nat} {b : Bounds ℝ} (h : KrigingConfig k dim b)
    (hb : ProperBox b dim) (hdim : 0 < dim) (h99 : k.usesLinear = true → dim ≤ 99)
    (hratio : k.data.ratio = 0)
    {file : Option Str} {A : Mat ℝ} {F : Nat → Nat → ℝ} (hread : readFromCSV file false = .ok A)
    (hA : IsMat A n (dim + 1) F) {perm permL : List Nat} (hp : perm.Perm (List.range n))
    (hpL : permL.Perm (List.range n)) {th ga : List ℝ} (hst : startParameters k dim th ga)
    (hP : k.corr.base.epsilon = 0 → PosDef n (krigingMatrix dim (vecFun th) (vecFun ga) 0
      (normalized b dim F))) :
    ∃ k' T, k.load file perm permL = (k', .ok ()) ∧ CurrentModel k' file n dim F b T ∧
      SameSettings k k' ∧ k'.corr.theta = th ∧ k'.corr.gamma = ga := by
  have hn := readFromCSV_pos hread hA
  have hgood := startParameters_good h hst
  obtain ⟨tr, va, hs, hord, hl⟩ := load_ok h hb hdim h99 hread hA hp hpL hst
  obtain rfl := hord hratio
  have hX : ∀ i, i < n → (fun i => normalized b dim F ((List.range n).getD i 0)) i =
      normalized b dim F i := by
    intro i hi
    simp [List.getD, hi]
  have hPD : PosDef (List.range n).length (krigingMatrix dim (vecFun th) (vecFun ga)
      k.corr.base.epsilon (fun i => normalized b dim F ((List.range n).getD i 0))) := by
    rw [List.length_range]
    rcases eq_or_lt_of_le h.epsilon.1 with h0 | h0
    · rw [← h0]
      exact (hP h0.symm).congr fun i j hi hj => (krigingMatrix_congr hX i j hi hj).symm
    · refine krigingMatrix_posDef (fun l hl => ?_) (fun l hl => ?_) h0
      · have hl' : l < th.length := by rw [hgood.thLen]; exact hl
        have e : vecFun th l = th[l] := by simp [vecFun, List.getD, hl']
        rw [e]; exact hgood.thNonneg _ (List.getElem_mem hl')
      · have hl' : l < ga.length := by rw [hgood.gaLen]; exact hl
        have e : vecFun ga l = ga[l] := by simp [vecFun, List.getD, hl']
        rw [e]; exact hgood.gaRange _ (List.getElem_mem hl')
  obtain ⟨k', T, e, hm, hpr, hT, hc, hsame, hi, ht, hg, hr, hraw, -⟩ := hl (by simp; omega) hPD
  rw [List.length_range] at hm hpr
  have hy : ∀ i, i < n → F ((List.range n).getD i 0) dim = F i dim := by
    intro i hi
    simp [List.getD, hi]
  exact ⟨k', T, e, ⟨by rw [hraw]; exact hread, by rw [hraw]; exact hA, hm.congr_inputs hX hy,
    hpr.congr_inputs hX hy, by rw [hsame.usesLinear]; exact hT, hc, hi, by rw [hr]; exact hratio⟩,
    hsame, ht, hg⟩

end Rodeo
