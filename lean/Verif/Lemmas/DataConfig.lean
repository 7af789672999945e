import Verif.Lemmas.Normalize
import Verif.Lemmas.CSV
import Verif.Props.Linear

set_option linter.unusedSectionVars false

/-! # Loading a file into a data object that has been used before -/

namespace Rodeo
open Spec Mat

theorem andThen_inv {σ : Type} {p : σ × Res Unit} {f : σ → σ × Res Unit} {s : σ}
    (h : andThen p f = (s, .ok ())) : ∃ s0, p = (s0, .ok ()) ∧ f s0 = (s, .ok ()) := by
  obtain ⟨s0, r⟩ := p
  cases r with
  | error e => exact absurd (congrArg Prod.snd h) (by simp [andThen])
  | ok u => exact ⟨s0, rfl, h⟩

theorem commit_inv {σ : Type} {s s' : σ} {x : Res σ} (h : commit s x = (s', .ok ())) : x = .ok s' := by
  cases x with
  | error e => exact absurd (congrArg Prod.snd h) (by simp [commit])
  | ok u => exact congrArg Except.ok (congrArg Prod.fst h)

theorem andThen_keeps {σ : Type} {P : σ → Prop} {p : σ × Res Unit} {f : σ → σ × Res Unit}
    (h : P p.1) (hf : ∀ s, P s → P (f s).1) : P (andThen p f).1 := by
  obtain ⟨s0, r⟩ := p
  cases r with
  | error e => exact h
  | ok u => exact hf s0 h

theorem commit_keeps {σ : Type} {P : σ → Prop} {s : σ} {x : Res σ} (h : P s)
    (hx : ∀ s', x = .ok s' → P s') : P (commit s x).1 := by
  cases x with
  | error e => exact h
  | ok u => exact hx u rfl

variable {K : Type} [Field K] [LinearOrder K] [IsStrictOrderedRing K]

/-- A file that can be read has at least one row. -/
theorem readFromCSV_pos [FloorRing K] {file : Option Text.Str} {A : Mat K} {n m : Nat}
    {F : Nat → Nat → K} (hread : readFromCSV file false = .ok A) (hA : IsMat A n m F) : 0 < n := by
  cases file with
  | none => unfold readFromCSV at hread; cases hread
  | some text =>
    obtain ⟨n', m', F', hn', hA', -⟩ := readFromCSV_inv hread
    obtain ⟨rfl, -, -⟩ := isMat_unique hA' hA
    exact hn'

/-- The bounds are set, have `dim` entries, and the lower ones are below the upper ones. -/
structure Spec.ProperBox (b : Bounds K) (dim : Nat) : Prop where
  set : b.isSet = true
  size : b.dim = dim
  lb : b.lb.length = dim
  ub : b.ub.length = dim
  lt : ∀ j, j < dim → vecFun b.lb j < vecFun b.ub j

/-- Coordinates relative to the box, divided by their number. -/
def Spec.normalized (b : Bounds K) (dim : Nat) (F : Nat → Nat → K) (i j : Nat) : K :=
  1 / (dim : K) * ((F i j - vecFun b.lb j) / (vecFun b.ub j - vecFun b.lb j))

/-- The settings of a data object for inputs with `dim` entries and values without derivatives. -/
structure Spec.DataConfig (d : SMData K) (dim : Nat) (b : Bounds K) : Prop where
  box : d.box = b
  noGradients : d.hasGradients = false
  noDirectional : d.hasDirectional = false
  size : d.dimension = 0 ∨ d.dimension = dim
  ratio : 0 ≤ d.ratio
  stale : d.ratio = 0 → d.numberOfValidationSamples = 0
  rows : ∃ R, HasRows d.rawDataValidation (dim + 1) R

namespace SMData

theorem normalize_keeps (d : SMData K) :
    (d.normalize.1).hasGradients = d.hasGradients ∧ (d.normalize.1).hasDirectional = d.hasDirectional ∧
    (d.normalize.1).ratio = d.ratio ∧ (d.normalize.1).rawDataValidation = d.rawDataValidation ∧
    (d.normalize.1).box = d.box ∧ (d.normalize.1).rawData = d.rawData := by
  set P : SMData K → Prop := fun s => s.hasGradients = d.hasGradients ∧
    s.hasDirectional = d.hasDirectional ∧ s.ratio = d.ratio ∧
    s.rawDataValidation = d.rawDataValidation ∧ s.box = d.box ∧ s.rawData = d.rawData with hP
  have h0 : P d := ⟨rfl, rfl, rfl, rfl, rfl, rfl⟩
  show P d.normalize.1
  unfold normalize
  split_ifs
  · exact h0
  · refine andThen_keeps (P := P) ?_ fun s hs => andThen_keeps (P := P) ?_ fun s hs =>
      andThen_keeps (P := P) ?_ fun s hs => hs
    · unfold normalizeSampleInputMatrix
      split_ifs
      · exact h0
      · exact h0
      · exact h0
      · exact h0
      · refine andThen_keeps (P := P) (commit_keeps h0 ?_) fun s hs => andThen_keeps (P := P)
          (commit_keeps hs ?_) fun s hs => hs
        · intro s' e
          obtain ⟨z, -, e⟩ := bind_ok_inv e
          split_ifs at e
          obtain ⟨X, -, e⟩ := bind_ok_inv e
          cases e; exact h0
        · intro s' e
          unfold normalizeValidation at e
          split_ifs at e
          · obtain ⟨X, -, e⟩ := bind_ok_inv e
            cases e; exact hs
          · cases e; exact hs
    · refine commit_keeps hs fun s' e => ?_
      unfold normalizeDerivativesMatrix at e
      split_ifs at e
      · obtain ⟨X, -, e⟩ := bind_ok_inv e
        cases e; exact hs
      · cases e; exact hs
    · refine commit_keeps hs fun s' e => ?_
      unfold normalizeGradientsIfAny normalizeGradientMatrix at e
      split_ifs at e
      · obtain ⟨X, -, e⟩ := bind_ok_inv e
        cases e; exact hs
      · cases e; exact hs

end SMData

/-- Reading and normalizing a file, on an object that may have been used before. -/
theorem Spec.DataConfig.load [FloorRing K] {d : SMData K} {dim n : Nat} {b : Bounds K}
    (h : DataConfig d dim b) (hb : ProperBox b dim) (hdim : 0 < dim) {file : Option Text.Str} {A : Mat K}
    {F : Nat → Nat → K} (hread : readFromCSV file false = .ok A) (hA : IsMat A n (dim + 1) F)
    {perm : List Nat} (hp : perm.Perm (List.range n)) :
    ∃ tr va, IsSplit n (SMData.validationCount n d.ratio) tr va ∧ (d.ratio = 0 → tr = List.range n) ∧
      (tr ≠ [] → ∃ d1 d2, d.readData file perm = (d1, .ok ()) ∧ d1.normalize = (d2, .ok ()) ∧
        DataConfig d2 dim b ∧ d2.dimension = dim ∧ d1.numberOfSamples = tr.length ∧
        d2.numberOfSamples = tr.length ∧ d2.ratio = d.ratio ∧ d2.isRead = true ∧ d2.rawData = A ∧
        d2.numberOfValidationSamples = va.length ∧
        IsMat d2.X tr.length dim (fun i => normalized b dim F (tr.getD i 0)) ∧
        d2.y = tr.map (fun r => F r dim)) := by
  have hn := readFromCSV_pos hread hA
  obtain ⟨R, hR⟩ := h.rows
  obtain ⟨tr, va, hs, hva, hord, h3⟩ := SMData.readData_order (d := d) hread hA hn hdim
    (by simp [dataColumns, h.noGradients, h.noDirectional]) h.size (by simp [h.noGradients]) h.ratio h.stale hR hp
  refine ⟨tr, va, hs, hord, fun htr => ?_⟩
  rw [if_neg htr] at h3
  obtain ⟨d1, e1, a1, a2, a3, a0, a4, aR, a5, a6, a7, aV, a8, -, ay, aXV, -⟩ := h3
  obtain ⟨d2, e2, -, b1, b2, bb, by', -, b4, b5, b6, b3, -⟩ := SMData.normalize_ok (d := d1)
    (n := tr.length) (kv := va.length)
    (Fv := fun i j => ((R ++ va.map (SMData.tableRow F (dim + 1))).getD i []).getD j 0) (G := fun _ _ => 0)
    hdim a7 a2 a1 a8
    (fun hpos => (aXV (by intro hva0; rw [a3, hva0] at hpos; simp at hpos)).1)
    (by rw [a5, h.noGradients]; simp)
    (by rw [a4, h.box]; exact hb.set) (by rw [a4, h.box]; exact hb.size)
    (by rw [a4, h.box]; exact hb.lb) (by rw [a4, h.box]; exact hb.ub)
    (by rw [a4, h.box]; exact hb.lt)
  have hk := d1.normalize_keeps
  rw [e2] at hk
  obtain ⟨k1, k2, k3, k4, k5, k6⟩ := hk
  rw [a4, h.box] at b3
  refine ⟨d1, d2, e1, e2, ⟨by rw [k5, a4, h.box], by rw [k1, a5, h.noGradients],
    by rw [k2, a6, h.noDirectional], Or.inr b2, by rw [k3, aR]; exact h.ratio, ?_,
    ⟨_, by rw [k4]; exact aV⟩⟩, b2, a2, b1, by rw [k3, aR], b6, by rw [b5, a0], by rw [b4, a3], b3,
    by rw [by', ay]⟩
  intro h0
  rw [k3, aR] at h0
  rw [b4, a3, hva, h0]
  simp [SMData.validationCount]

/-- The settings of a linear model. -/
structure Spec.LinearConfig (m : LinearModel K) (dim : Nat) (b : Bounds K) : Prop where
  data : DataConfig m.data dim b
  ratio : m.data.ratio = 0
  size : m.dimension = dim

theorem LinearModel.train_dimension {m m' : LinearModel K} (h : m.train = .ok m') :
    m'.dimension = m.dimension := by
  unfold LinearModel.train at h
  split at h
  · cases h
  split at h
  · cases h
  split at h
  · cases h
  split at h
  · cases h
  obtain ⟨w, -, e⟩ := bind_ok_inv h
  cases e
  rfl

/-- Reading, normalizing and initializing, on a linear model that may have been used before: it then
predicts the ridge regression, with `lambda = 1e-8`, of all rows of the file. -/
theorem Spec.LinearConfig.load [FloorRing K] {m : LinearModel K} {dim n : Nat} {b : Bounds K}
    (h : LinearConfig m dim b) (hb : ProperBox b dim) (hdim : 0 < dim) (h99 : dim ≤ 99)
    {file : Option Text.Str} {A : Mat K} {F : Nat → Nat → K}
    (hread : readFromCSV file false = .ok A) (hA : IsMat A n (dim + 1) F) {perm : List Nat}
    (hp : perm.Perm (List.range n)) :
    ∃ m1 m2 m3, m.readData file perm = (m1, .ok ()) ∧ m1.normalizeData = (m2, .ok ()) ∧
      m2.init = (m3, .ok ()) ∧ LinearConfig m3 dim b ∧ m3.isInitialized = true ∧
      PredictsRidge m3 n dim (normalized b dim F) (fun i => F i dim) (1 / 10 ^ 8) := by
  have hn := readFromCSV_pos hread hA
  obtain ⟨tr, va, hs, hord, hload⟩ := h.data.load hb hdim hread hA hp
  obtain rfl := hord h.ratio
  obtain ⟨d1, d2, e1, e2, c2, b2, n1, n2, r2, i2, -, -, x2, y2⟩ := hload (by simp; omega)
  set m1 : LinearModel K := { m with data := d1, numberOfSamples := d1.numberOfSamples, isRead := true }
    with hm1
  set m2 : LinearModel K := { m1 with data := d2, isNormalized := true } with hm2
  set m3 : LinearModel K := { m2 with weights := Vec.resize m2.weights (m2.dimension + 1)
                                      regularization := some (1 / 10 ^ 8) } with hm3
  have t1 : m.readData file perm = (m1, .ok ()) := by
    unfold LinearModel.readData
    rw [e1]
  have t2 : m1.normalizeData = (m2, .ok ()) := by
    unfold LinearModel.normalizeData
    have : m1.data = d1 := rfl
    rw [if_neg (by simp [hm1]), this, e2]
  have x2' : IsMat d2.X n dim (normalized b dim F) := by
    rw [List.length_range] at x2
    refine x2.congr fun i j hi _ => ?_
    simp [List.getD, hi]
  have ht : Trainable m3 n dim (normalized b dim F) :=
    ⟨rfl, rfl, h.size, hdim, by show d1.numberOfSamples = n; simpa using n1, hn, x2', by
      show d2.y.length = n
      rw [y2]; simp⟩
  have hsz : (dim : K) + 1 ≤ (10 ^ 9 * (1 / 10 ^ 8)) ^ 2 := by
    have : (dim : K) ≤ 99 := by exact_mod_cast h99
    norm_num
    linarith
  rcases C55_train (lambda := 1 / 10 ^ 8) ht rfl (by positivity) with ⟨m4, e4, h4, -, hd4, -⟩ | ⟨h, -⟩
  · refine ⟨m1, m2, { m4 with isInitialized := true }, t1, t2, ?_, ?_, rfl, ?_⟩
    · unfold LinearModel.init
      rw [if_neg (by simp [hm2, hm1]), if_neg (by
        have : m2.dimension = dim := h.size
        omega)]
      show (match m3.train with
        | .error e => ((m3, .error e) : LinearModel K × Res Unit)
        | .ok m => ({ m with isInitialized := true }, .ok ())) = _
      rw [e4]
    · refine ⟨?_, ?_, ?_⟩
      · show DataConfig m4.data dim b
        rw [hd4]; exact c2
      · show m4.data.ratio = 0
        rw [hd4]
        exact r2.trans h.ratio
      · show m4.dimension = dim
        rw [LinearModel.train_dimension e4]
        exact h.size
    · obtain ⟨w, hw, hx⟩ := h4
      refine ⟨w, ?_, hx⟩
      have hy : ∀ i, i < n → vecFun m3.data.y i = F i dim := by
        intro i hi
        show vecFun d2.y i = _
        rw [y2]
        simp [vecFun, List.getD, hi]
      have hloss : ∀ w, ridgeLoss n dim (normalized b dim F) (vecFun m3.data.y) (1 / 10 ^ 8) w =
          ridgeLoss n dim (normalized b dim F) (fun i => F i dim) (1 / 10 ^ 8) w := by
        intro w
        unfold ridgeLoss
        congr 1
        exact Finset.sum_congr rfl fun i hi => by rw [hy i (Finset.mem_range.1 hi)]
      intro w'
      have := hw w'
      rw [hloss, hloss] at this
      exact this
  · exact absurd hsz h

end Rodeo
