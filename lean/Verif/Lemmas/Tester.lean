import Verif.Model.Tester
import Verif.Lemmas.ModelTest
import Verif.Lemmas.KrigingHistory
import Verif.Lemmas.History
import Verif.Props.ModelTest

set_option linter.unusedSectionVars false

/-! # Testing a model of a chosen type: lemmas -/

namespace Rodeo

open Text Spec Mat Finset

/-! ## Test data do not touch the training data -/

/-- The function `p'` does on states changed by `g` what `p` does on the states. -/
def Tracks {σ τ : Type} (g : σ → τ) (p : σ × Res Unit) (p' : τ × Res Unit) : Prop :=
  p' = (g p.1, p.2)

theorem Tracks.andThen {σ τ : Type} {g : σ → τ} {p : σ × Res Unit} {p' : τ × Res Unit}
    {f : σ → σ × Res Unit} {f' : τ → τ × Res Unit} (h : Tracks g p p') (hf : ∀ s, Tracks g (f s) (f' (g s))) :
    Tracks g (andThen p f) (Rodeo.andThen p' f') := by
  obtain ⟨s, r⟩ := p
  unfold Tracks at h
  subst h
  cases r with
  | error e => rfl
  | ok u => exact hf s

theorem Tracks.commit {σ τ : Type} {g : σ → τ} {s : σ} {x : Res σ} {x' : Res τ} (h : x' = x.map g) :
    Tracks g (commit s x) (Rodeo.commit (g s) x') := by
  subst h
  cases x with
  | error e => rfl
  | ok u => rfl

theorem Tracks.ite {σ τ : Type} {g : σ → τ} {c : Prop} [Decidable c] {p q : σ × Res Unit}
    {p' q' : τ × Res Unit} (h1 : Tracks g p p') (h2 : Tracks g q q') :
    Tracks g (if c then p else q) (if c then p' else q') := by
  by_cases h : c
  · rw [if_pos h, if_pos h]; exact h1
  · rw [if_neg h, if_neg h]; exact h2

theorem map_ite' {σ τ : Type} {g : σ → τ} {c : Prop} [Decidable c] {x y : Res σ} {x' y' : Res τ}
    (h1 : x' = x.map g) (h2 : y' = y.map g) : (if c then x' else y') = (if c then x else y).map g := by
  split <;> assumption

theorem map_bind' {σ τ ρ : Type} {g : σ → τ} {x : Res ρ} {f : ρ → Res σ} {f' : ρ → Res τ}
    (h : ∀ a, f' a = (f a).map g) : (x >>= f') = (x >>= f).map g := by
  cases x with
  | error e => rfl
  | ok u => exact h u

variable {K : Type} [Field K] [LinearOrder K] [IsStrictOrderedRing K]

/-- The data `d` with the test data of `e`. -/
def SMData.withTest (d e : SMData K) : SMData K :=
  { d with
    numberOfTestSamples := e.numberOfTestSamples
    XrawTest := e.XrawTest
    XTest := e.XTest
    yTest := e.yTest
    testHasValues := e.testHasValues
    isTestRead := e.isTestRead }

namespace SMData

theorem normalize_withTest (d e : SMData K) :
    Tracks (fun d => withTest d e) d.normalize (d.withTest e).normalize := by
  unfold normalize
  refine Tracks.ite rfl ?_
  refine Tracks.andThen ?_ fun s => Tracks.andThen (Tracks.commit ?_) fun s => Tracks.andThen
    (Tracks.commit ?_) fun s => rfl
  · unfold normalizeSampleInputMatrix
    refine Tracks.ite rfl (Tracks.ite rfl (Tracks.ite rfl (Tracks.ite rfl ?_)))
    refine Tracks.andThen (Tracks.commit ?_) fun s => Tracks.andThen (Tracks.commit ?_) fun s => rfl
    · exact map_bind' fun z => map_ite' rfl (map_bind' fun X => rfl)
    · unfold normalizeValidation
      exact map_ite' (map_bind' fun V => rfl) rfl
  · unfold normalizeDerivativesMatrix
    exact map_ite' (map_ite' rfl (map_bind' fun V => rfl)) rfl
  · unfold normalizeGradientsIfAny normalizeGradientMatrix
    exact map_ite' (map_ite' rfl (map_bind' fun V => rfl)) rfl

theorem normalize_dimension (d : SMData K) : (d.normalize.1).dimension = d.dimension := by
  set P : SMData K → Prop := fun s => s.dimension = d.dimension with hP
  have h0 : P d := rfl
  show P d.normalize.1
  unfold normalize
  split_ifs
  · exact h0
  · refine andThen_keeps (P := P) ?_ fun s hs => andThen_keeps (P := P) ?_ fun s hs =>
      andThen_keeps (P := P) ?_ fun s hs => hs
    · unfold normalizeSampleInputMatrix
      split_ifs
      · exact h0
      · exact h0
      · exact h0
      · exact h0
      · refine andThen_keeps (P := P) (commit_keeps h0 ?_) fun s hs => andThen_keeps (P := P)
          (commit_keeps hs ?_) fun s hs => hs
        · intro s' e
          obtain ⟨z, -, e⟩ := bind_ok_inv e
          split_ifs at e
          obtain ⟨X, -, e⟩ := bind_ok_inv e
          cases e; exact h0
        · intro s' e
          unfold normalizeValidation at e
          split_ifs at e
          · obtain ⟨X, -, e⟩ := bind_ok_inv e
            cases e; exact hs
          · cases e; exact hs
    · refine commit_keeps hs fun s' e => ?_
      unfold normalizeDerivativesMatrix at e
      split_ifs at e
      · obtain ⟨X, -, e⟩ := bind_ok_inv e
        cases e; exact hs
      · cases e; exact hs
    · refine commit_keeps hs fun s' e => ?_
      unfold normalizeGradientsIfAny normalizeGradientMatrix at e
      split_ifs at e
      · obtain ⟨X, -, e⟩ := bind_ok_inv e
        cases e; exact hs
      · cases e; exact hs

theorem foldRes_map {σ τ α : Type} {g : σ → τ} {f : σ → α → Res σ} {f' : τ → α → Res τ}
    (h : ∀ s a, f' (g s) a = (f s a).map g) : ∀ (l : List α) (s : σ),
    foldRes f' (g s) l = (foldRes f s l).map g
  | [], _ => rfl
  | a :: l, s => by
    unfold foldRes
    rw [h]
    cases f s a with
    | error e => rfl
    | ok s' => exact foldRes_map h l s'

theorem assignAll_withTest (d e : SMData K) :
    Tracks (fun d => withTest d e) d.assignAll (d.withTest e).assignAll := by
  unfold assignAll
  refine Tracks.andThen (Tracks.commit ?_) fun s => Tracks.andThen (Tracks.commit ?_) fun s =>
    Tracks.andThen (Tracks.commit ?_) fun s => Tracks.andThen (Tracks.commit ?_) fun s => Tracks.commit ?_
  · unfold assignSampleInputMatrix
    refine map_bind' fun _ => map_bind' fun X => ?_
    have h : assignValidationInput { d.withTest e with X := X } =
        (assignValidationInput { d with X := X }).map (fun d => withTest d e) := by
      unfold assignValidationInput
      exact map_ite' (map_bind' fun V => map_ite' rfl (map_ite' rfl rfl)) rfl
    rw [h]
    cases assignValidationInput { d with X := X } with
    | error e => rfl
    | ok d' => exact map_ite' rfl (map_ite' rfl rfl)
  · unfold assignSampleOutputVector assignValidationOutput
    exact map_bind' fun _ => map_bind' fun X => map_ite' (map_bind' fun v => rfl) rfl
  · unfold assignGradientMatrix
    exact map_bind' fun _ => map_ite' (map_ite' rfl (map_bind' fun v => rfl)) rfl
  · unfold assignDirectionalDerivativesVector
    exact map_ite' rfl (map_ite' (map_bind' fun v => rfl) rfl)
  · unfold assignDifferentiationDirectionMatrix
    exact map_bind' fun _ => map_ite' (map_bind' fun v => rfl) rfl

theorem readData_withTest [FloorRing K] (d e : SMData K) (file : Option Str) (perm : List Nat) :
    Tracks (fun d => withTest d e) (d.readData file perm) ((d.withTest e).readData file perm) := by
  unfold readData
  refine Tracks.ite rfl ?_
  cases readFromCSV (K := K) file false with
  | error x => rfl
  | ok A =>
    refine Tracks.andThen ?_ fun s => Tracks.andThen (Tracks.commit
      (s := { s with numberOfSamples := s.rawDataWork.nrows }) ?_) fun s =>
      Tracks.andThen (assignAll_withTest s e) fun s => rfl
    · unfold split
      refine Tracks.ite (Tracks.andThen (Tracks.commit
        (s := { d with rawData := A, rawDataWork := A, numberOfSamples := A.nrows }) ?_) fun s =>
        Tracks.commit (s := { s with numberOfValidationSamples := _ }) (map_bind' fun W => rfl)) rfl
      set f : SMData K → Nat → Res (SMData K) := fun (d : SMData K) (i : Nat) => do
        let row ← Mat.getRow d.rawData (i : Nat)
        let V ← Mat.addRow d.rawDataValidation row (-1)
        .ok { d with rawDataValidation := V } with hf
      exact foldRes_map (g := fun d => withTest d e) (f := f) (f' := f)
        (fun s i => map_bind' fun r => map_bind' fun V => rfl) _
        { d with rawData := A, rawDataWork := A, numberOfSamples := A.nrows }
    · unfold assignDimensionFromData
      exact map_ite' rfl (map_ite' rfl rfl)

theorem withTest_self (d : SMData K) : d.withTest d = d := rfl

/-- Reading training data keeps the test data. -/
theorem readData_keepsTest [FloorRing K] {d d' : SMData K} {file : Option Str} {perm : List Nat} {r : Res Unit}
    (h : d.readData file perm = (d', r)) : d'.testHasValues = d.testHasValues := by
  have h1 := readData_withTest d d file perm
  rw [withTest_self, h] at h1
  have h2 : d' = d'.withTest d := congrArg Prod.fst h1
  rw [h2]
  rfl

end SMData

/-- The model `m` with the test data of `e`. -/
def LinearModel.withTest (e : SMData K) (m : LinearModel K) : LinearModel K :=
  { m with data := m.data.withTest e }

/-- The model `k` with the test data of `e`. -/
def Kriging.withTest (e : SMData K) (k : Kriging K) : Kriging K :=
  { k with data := k.data.withTest e }

namespace LinearModel

theorem normalizeData_withTest (m : LinearModel K) (e : SMData K) :
    Tracks (withTest e) m.normalizeData (m.withTest e).normalizeData := by
  unfold normalizeData
  refine Tracks.ite rfl ?_
  have h : (m.withTest e).data.normalize = _ := SMData.normalize_withTest m.data e
  rw [h]
  obtain ⟨d, r⟩ := m.data.normalize
  cases r <;> rfl

theorem train_withTest (m : LinearModel K) (e : SMData K) :
    (m.withTest e).train = m.train.map (withTest e) := by
  unfold train
  exact map_ite' rfl (map_ite' rfl (map_ite' rfl (map_ite' rfl (map_bind' fun w => rfl))))

theorem init_withTest (m : LinearModel K) (e : SMData K) :
    Tracks (withTest e) m.init (m.withTest e).init := by
  unfold init
  refine Tracks.ite rfl (Tracks.ite rfl ?_)
  dsimp only
  generalize hm : ({ m with weights := Vec.resize m.weights (m.dimension + 1), regularization := some (1 / 10 ^ 8) } : LinearModel K) = m'
  have h := train_withTest m' e
  have hm' : ({ m.withTest e with weights := Vec.resize (m.withTest e).weights ((m.withTest e).dimension + 1), regularization := some (1 / 10 ^ 8) } : LinearModel K) = m'.withTest e := by
    rw [← hm]; rfl
  rw [hm', h]
  cases m'.train <;> rfl

end LinearModel

namespace Kriging

theorem normalizeData_withTest (k : Kriging K) (e : SMData K) :
    Tracks (withTest e) k.normalizeData (k.withTest e).normalizeData := by
  unfold normalizeData
  refine Tracks.ite rfl ?_
  refine Tracks.andThen ?_ fun s => Tracks.andThen ?_ fun s => rfl
  · have h : (k.withTest e).data.normalize = _ := SMData.normalize_withTest k.data e
    unfold onData
    rw [h]
    rfl
  · exact Tracks.ite rfl rfl

theorem updateAuxilliaryFields_withTest (F : Fns K) (k : Kriging K) (e : SMData K) :
    Tracks (withTest e) (k.updateAuxilliaryFields F) ((k.withTest e).updateAuxilliaryFields F) := by
  unfold updateAuxilliaryFields
  refine Tracks.ite rfl (Tracks.ite rfl (Tracks.ite rfl (Tracks.ite rfl (Tracks.ite rfl ?_))))
  refine Tracks.andThen (Tracks.commit (map_bind' fun c => rfl)) fun s =>
    Tracks.andThen (Tracks.commit (map_bind' fun c => rfl)) fun s => Tracks.andThen (Tracks.commit
      (s := s.resetDataObjects) ?_) fun s => Tracks.ite (Tracks.commit ?_) rfl
  · exact map_ite' rfl rfl
  · unfold solveAll
    exact map_bind' fun a => map_bind' fun b => map_bind' fun c => map_bind' fun d => map_bind' fun f =>
      map_bind' fun g => map_bind' fun h => map_bind' fun i => rfl

theorem init_withTest (F : Fns K) (k : Kriging K) (e : SMData K) :
    Tracks (withTest e) (k.init F) ((k.withTest e).init F) := by
  unfold init
  refine Tracks.ite rfl (Tracks.ite rfl (Tracks.ite rfl (Tracks.ite rfl ?_)))
  refine Tracks.andThen ?_ fun s => Tracks.andThen ?_ fun s => Tracks.andThen ?_ fun s => rfl
  · unfold setupCorr
    refine Tracks.andThen (Tracks.commit (map_bind' fun c => rfl)) fun s => Tracks.ite
      (Tracks.commit (map_bind' fun c => rfl)) rfl
  · refine Tracks.ite (Tracks.andThen rfl fun s => Tracks.commit ?_) rfl
    unfold subtractLinear
    refine map_bind' fun l => map_bind' fun ys => ?_
    unfold SMData.setOutputVector
    show (if ys.length ≠ s.data.numberOfSamples then _ else _ : Res (SMData K)) >>= _ = _
    by_cases h : ys.length ≠ s.data.numberOfSamples
    · rw [if_pos h, if_pos h]; rfl
    · rw [if_neg h, if_neg h]; rfl
  · exact updateAuxilliaryFields_withTest F s e

end Kriging

/-! ## A test of a model of any class -/

namespace ModelClass

variable {M : Type}

/-- The model `m` with the test data of `e`. -/
def withTest (V : ModelClass K M) (e : SMData K) (m : M) : M := V.setData m ((V.data m).withTest e)

/-- What the functions of a class have in common. -/
structure Frame (V : ModelClass K M) : Prop where
  data_setData : ∀ m d, V.data (V.setData m d) = d
  setData_setData : ∀ m d d', V.setData (V.setData m d) d' = V.setData m d'
  setData_self : ∀ m, V.setData m (V.data m) = m
  dimension : ∀ m d, V.dimension (V.setData m d) = V.dimension m
  isInitialized : ∀ m d, V.isInitialized (V.setData m d) = V.isInitialized m
  normalize : ∀ m e, Tracks (V.withTest e) (V.normalizeData m) (V.normalizeData (V.withTest e m))
  init : ∀ m e, Tracks (V.withTest e) (V.initializeSurrogateModel m)
    (V.initializeSurrogateModel (V.withTest e m))

/-- The settings before the training. -/
def tuned (V : ModelClass K M) (c : TesterSettings K) (m : M) : M :=
  if c.readWarm then V.setReadWarmStartFileFlag (V.setNumberOfTrainingIterations m c.iterations) true
  else V.setNumberOfTrainingIterations m c.iterations

/-- The mode of the test. -/
def mode (c : TesterSettings K) : TestMode := if c.variances then .withVariances else .functionValues

variable [FloorRing K]

/-- The predictions and the results file. -/
def finish (V : ModelClass K M) (c : TesterSettings K) (s : (M × TestMembers K) × Option Str) :
    ((M × TestMembers K) × Option Str) × Res Unit :=
  andThen (V.base s ((V.view s.1).tryOnTestData (V.predictor s.1.1) (mode c))) (V.save c.variances)

theorem report_eq {V : ModelClass K M} (hF : V.Frame) {c : TesterSettings K} {m m1 m2 m3 m4 : M}
    {e : TestMembers K} {old training test : Option Str} {b : Bounds K} {dim n : Nat} {values : Bool}
    {G : Nat → Nat → K} (h1 : V.setBoxConstraints (V.setDimension m c.dimension) c.box = .ok m1)
    (h2 : V.readData m1 training = (m2, .ok ()))
    (h2b : ∀ d, V.setBoxConstraints (V.withTest d m2) c.box = .ok (V.withTest d m2))
    (h3 : V.normalizeData m2 = (m3, .ok ())) (h4 : V.initializeSurrogateModel m3 = (m4, .ok ()))
    (hd2 : (V.data m2).dimension = dim) (hb3 : (V.data m3).box = b) (hd4 : (V.data m4).dimension = dim)
    (hv : (values || (V.data m2).testHasValues) = values) (hf : TestFile test values n dim G) (hb : ProperBox b dim)
    (hdim : 0 < dim) (hyper : Option Str) :
    ∃ d, TestData ((V.data m4).withTest d) values n dim G b ∧
      V.report c training test hyper ((m, e), old) =
        andThen (own ((V.tuned c (V.withTest d m4), { e with hasTestData := true, isTestRead := true, isTestNormalized := true }), old)
          (V.train (V.tuned c (V.withTest d m4)) hyper)) (V.finish c) := by
  obtain ⟨A, hread, hA⟩ := hf
  have hn := readFromCSV_pos hread hA
  obtain ⟨X, hX, e1⟩ := SMData.readDataTest_ok (d := V.data m2) hread hA hn hdim hd2
  set d1 : SMData K := { V.data m2 with
      XrawTest := A
      numberOfTestSamples := n
      yTest := if values then (List.range n).map (fun i => G i dim) else (V.data m2).yTest
      XTest := X
      testHasValues := values || (V.data m2).testHasValues
      isTestRead := true } with hd1
  have t3 : V.normalizeData (V.withTest d1 m2) = (V.withTest d1 m3, .ok ()) := by
    have := hF.normalize m2 d1
    rw [h3] at this
    exact this
  obtain ⟨X', hX', e2⟩ := SMData.normalizeTest_ok (d := (V.data m3).withTest d1) (dim := dim) (F := G)
    (n := n) (by show ProperBox (V.data m3).box dim; rw [hb3]; exact hb) hdim hX
  have hX' : IsMat X' n dim (normalized b dim G) := by
    have : ((V.data m3).withTest d1).box = b := hb3
    rw [this] at hX'
    exact hX'
  set d2 : SMData K := { d1 with XTest := X' } with hd2'
  have t4 : V.initializeSurrogateModel (V.withTest d2 m3) = (V.withTest d2 m4, .ok ()) := by
    have := hF.init m3 d2
    rw [h4] at this
    exact this
  refine ⟨d2, ⟨hd4, rfl, hv, rfl, hA, hX'⟩, ?_⟩
  unfold report
  dsimp only
  set e' : TestMembers K := { e with hasTestData := true } with he'
  refine (andThen_ok (s := ((m1, e'), old)) ?_ ?_)
  · unfold own; rw [h1]; rfl
  refine (andThen_ok (s := ((m2, e'), old)) ?_ ?_)
  · unfold own; rw [h2]
  refine (andThen_ok (s := ((V.withTest d1 m2, { e' with isTestRead := true }), old)) ?_ ?_)
  · have : (V.view (m2, e')).readDataTest test = .ok { V.view (m2, e') with data := d1, isTestRead := true } := by
      unfold ModelTest.readDataTest
      rw [if_neg (by simp [view, he'])]
      exact bind_eq e1 rfl
    unfold base
    rw [this]
    rfl
  refine (andThen_ok (s := ((V.withTest d1 m2, { e' with isTestRead := true }), old)) ?_ ?_)
  · unfold own; rw [h2b]; rfl
  refine (andThen_ok (s := ((V.withTest d1 m3, { e' with isTestRead := true }), old)) ?_ ?_)
  · unfold own; rw [t3]
  refine (andThen_ok (s := ((V.withTest d2 m3, { e' with isTestRead := true, isTestNormalized := true }), old)) ?_ ?_)
  · have : (V.view (V.withTest d1 m3, { e' with isTestRead := true })).normalizeDataTest =
        .ok { V.view (V.withTest d1 m3, { e' with isTestRead := true }) with
          data := (V.data m3).withTest d2, isTestNormalized := true } := by
      unfold ModelTest.normalizeDataTest
      refine bind_eq (a := (V.data m3).withTest d2) ?_ rfl
      show (V.data (V.withTest d1 m3)).normalizeTest = _
      unfold ModelClass.withTest
      rw [hF.data_setData]
      exact e2
    unfold base
    rw [this]
    show (((V.setData (V.withTest d1 m3) ((V.data m3).withTest d2), _), old), _) = _
    unfold ModelClass.withTest
    rw [hF.setData_setData]
    rfl
  refine (andThen_ok (s := ((V.withTest d2 m4, { e' with isTestRead := true, isTestNormalized := true }), old)) ?_ ?_)
  · unfold own; rw [t4]
  rfl

theorem finish_ok {V : ModelClass K M} (hF : V.Frame) {c : TesterSettings K} {m : M} {e : TestMembers K}
    {values : Bool} {n dim : Nat} {G : Nat → Nat → K} {b : Bounds K} {f v : Nat → K}
    (hT : TestData (V.data m) values n dim G b) (hn : 0 < n) (hd : V.dimension m = dim)
    (he : e.isTestNormalized = true) (hh : e.header = []) (hN : e.resultsName ≠ [])
    (hP : ∀ i, i < n → Estimates (V.predictor m) (mode c) ((List.range dim).map (normalized b dim G i))
      (f i) (v i)) (old : Option Str) :
    ∃ e' file, V.finish c ((m, e), old) = (((m, e'), file), .ok ()) ∧
      ReportFile file values c.variances n dim G f v ∧
      e'.generalizationError = (if values then meanSquare n (fun i => G i dim) f else e.generalizationError) ∧
      dim + 1 ≤ e'.header.length ∧ e'.resultsName = e.resultsName := by
  have hm : decide (mode c = .withVariances) = c.variances := by
    unfold mode
    cases c.variances <;> simp
  obtain ⟨R, e1, hR⟩ := ModelTest.tryOnTestData_ok (t := V.view (m, e)) (mode := mode c) hT hn hd he hP
  rw [ModelTest.entries_eq (t := V.view (m, e)) hT.dimension hT.hasValues] at hR
  set t1 : ModelTest K := { V.view (m, e) with
      results := R
      generalizationError := if values then meanSquare n (fun i => G i dim) f
        else (V.view (m, e)).generalizationError } with ht1
  have hr : Reported t1 values c.variances n dim G f v := by
    refine ⟨?_, fun hv => by simp [ht1, hv]⟩
    rw [hm] at hR
    have h2 : (if mode c = .withVariances then 1 else 0) = if c.variances then 1 else 0 := by
      unfold mode; cases c.variances <;> simp
    rw [h2] at hR
    exact hR
  obtain ⟨file, e2, h2⟩ := saveT_report hr hh hN hT.hasValues hT.dimension hn old
  have hs : V.base ((m, e), old) ((V.view (m, e)).tryOnTestData (V.predictor m) (mode c)) =
      (((m, .ofTest t1), old), .ok ()) := by
    unfold base
    rw [e1]
    show (((V.setData m (V.data m), TestMembers.ofTest t1), old), _) = _
    rw [hF.setData_self]
  refine ⟨.ofTest { t1 with header := reportNames values c.variances dim }, file, ?_, h2, rfl, ?_, rfl⟩
  · unfold finish
    refine andThen_ok hs ?_
    have hv : V.view (m, .ofTest t1) = t1 := rfl
    have : V.save c.variances ((m, .ofTest t1), old) =
        ((V.update (m, .ofTest t1) (saveT c.variances (t1, old)).1.1, (saveT c.variances (t1, old)).1.2),
          (saveT c.variances (t1, old)).2) := by
      unfold save saveT
      dsimp only
      rw [hv]
    rw [this, e2]
    show (((V.setData m (V.data m), _), file), _) = _
    rw [hF.setData_self]
  · rw [show (TestMembers.ofTest { t1 with header := reportNames values c.variances dim }).header =
      reportNames values c.variances dim from rfl, reportNames_length]
    omega

/-- A test throws what the model throws. -/
theorem _root_.Rodeo.ModelTest.tryOnTestData_error {t : ModelTest K} {values : Bool} {n dim : Nat}
    {F : Nat → Nat → K} {b : Bounds K} (ht : TestData t.data values n dim F b) (hn : 0 < n)
    (hdim : t.dimension = dim) (hN : t.isTestNormalized = true) {P : Predictor K} {mode : TestMode} {e : Err}
    (hm : mode = .functionValues ∨ mode = .withVariances) (hP : ∀ x, P.estimate mode x = .error e) :
    t.tryOnTestData P mode = .error e := by
  set P' : Predictor K := ⟨fun _ => .ok 0, fun _ => .ok 0, fun _ => .ok (0, 0)⟩ with hP'
  have hE : ∀ x, Estimates P' mode x 0 0 := by
    intro x
    rcases hm with rfl | rfl <;> rfl
  obtain ⟨R, e1, -⟩ := ModelTest.tryOnTestData_ok (f := fun _ => 0) (v := fun _ => 0) ht hn hdim hN
    (fun i _ => hE _)
  unfold ModelTest.tryOnTestData at e1 ⊢
  rw [if_neg (by simp [hN])] at e1 ⊢
  obtain ⟨fE, h1, e1⟩ := bind_ok_inv e1
  obtain ⟨s, h2, -⟩ := bind_ok_inv e1
  refine bind_eq h1 (bind_err ?_)
  rw [ht.count] at h2 ⊢
  refine forRange_error (fun _ _ => True) hn trivial (fun j s h => by omega) fun s _ => ?_
  unfold forRange at h2
  obtain ⟨n, rfl⟩ : ∃ k, n = k + 1 := ⟨n - 1, by omega⟩
  unfold loopFrom at h2
  split at h2
  · rename_i s' h3
    unfold ModelTest.tryRow at h3 ⊢
    obtain ⟨xp, g1, h3⟩ := bind_ok_inv h3
    obtain ⟨row, g2, h3⟩ := bind_ok_inv h3
    obtain ⟨x, g3, h3⟩ := bind_ok_inv h3
    exact bind_eq g1 (bind_eq g2 (bind_eq g3 (bind_err (hP xp))))
  · cases h2

/-- The results of a second test are not saved. -/
theorem finish_again {V : ModelClass K M} (hF : V.Frame) {c : TesterSettings K} {m : M} {e : TestMembers K}
    {values : Bool} {n dim : Nat} {G : Nat → Nat → K} {b : Bounds K} {f v : Nat → K}
    (hT : TestData (V.data m) values n dim G b) (hn : 0 < n) (hd : V.dimension m = dim) (hdim : 0 < dim)
    (he : e.isTestNormalized = true) (hh : dim + 1 ≤ e.header.length) (hN : e.resultsName ≠ [])
    (hP : ∀ i, i < n → Estimates (V.predictor m) (mode c) ((List.range dim).map (normalized b dim G i))
      (f i) (v i)) (old : Option Str) :
    ∃ e', V.finish c ((m, e), old) = (((m, e'), some []), .error .invalidArgument) := by
  have hm : decide (mode c = .withVariances) = c.variances := by
    unfold mode
    cases c.variances <;> simp
  obtain ⟨R, e1, hR⟩ := ModelTest.tryOnTestData_ok (t := V.view (m, e)) (mode := mode c) hT hn hd he hP
  set t1 : ModelTest K := { V.view (m, e) with
      results := R
      generalizationError := if values then meanSquare n (fun i => G i dim) f
        else (V.view (m, e)).generalizationError } with ht1
  have hs : V.base ((m, e), old) ((V.view (m, e)).tryOnTestData (V.predictor m) (mode c)) =
      (((m, .ofTest t1), old), .ok ()) := by
    unfold base
    rw [e1]
    show (((V.setData m (V.data m), TestMembers.ofTest t1), old), _) = _
    rw [hF.setData_self]
  have hlen : (t1.header ++ reportNames values c.variances dim).length ≠ t1.results.ncols := by
    rw [ModelTest.entries_eq (t := V.view (m, e)) hT.dimension hT.hasValues] at hR
    have h3 : t1.results.ncols = _ := hR.2.1
    rw [List.length_append, reportNames_length, h3]
    have h1 : dim + 1 ≤ t1.header.length := hh
    split_ifs <;> omega
  have e2 : t1.results.saveAsCSV 6 (t1.header ++ reportNames values c.variances dim) =
      ([], .error .invalidArgument) := by
    unfold saveAsCSV
    refine if_pos ⟨fun h => ?_, hlen⟩
    have h1 := congrArg List.length h
    rw [List.length_append, reportNames_length, List.length_nil] at h1
    omega
  have e3 := saveT_eq (variances := c.variances) (s := (t1, old)) hN hT.hasValues hT.dimension
  dsimp only at e3
  rw [e2] at e3
  refine ⟨.ofTest { t1 with header := t1.header ++ reportNames values c.variances dim }, ?_⟩
  unfold finish
  refine andThen_ok hs ?_
  have hv : V.view (m, .ofTest t1) = t1 := rfl
  have : V.save c.variances ((m, .ofTest t1), old) =
      ((V.update (m, .ofTest t1) (saveT c.variances (t1, old)).1.1, (saveT c.variances (t1, old)).1.2),
        (saveT c.variances (t1, old)).2) := by
    unfold save saveT
    dsimp only
    rw [hv]
  rw [this, e3]
  show (((V.setData m (V.data m), _), _), _) = _
  rw [hF.setData_self]

end ModelClass

/-! ## Linear models -/

section linear
variable [FloorRing K]

theorem linear_frame (perm : List Nat) : (linearClass (K := K) perm).Frame :=
  ⟨fun _ _ => rfl, fun _ _ _ => rfl, fun _ => rfl, fun _ _ => rfl, fun _ _ => rfl,
    fun m e => LinearModel.normalizeData_withTest m e, fun m e => LinearModel.init_withTest m e⟩

theorem LinearModel.init_train {m m' : LinearModel K} (h : m.init = (m', .ok ())) :
    m'.train = .ok m' ∧ m'.data = m.data ∧ m'.dimension = m.dimension := by
  unfold LinearModel.init at h
  split at h
  · cases h
  split at h
  · cases h
  dsimp only at h
  generalize hp : ({ m with weights := Vec.resize m.weights (m.dimension + 1), regularization := some (1 / 10 ^ 8) } : LinearModel K) = p at h
  have hd : p.data = m.data := by rw [← hp]
  have hn : p.dimension = m.dimension := by rw [← hp]
  rw [← hd, ← hn]
  clear hp hd hn
  unfold LinearModel.train at h
  split at h
  · cases h
  rename_i q hq
  split at hq
  · cases hq
  rename_i c1
  split at hq
  · cases hq
  rename_i c2
  split at hq
  · cases hq
  rename_i c3
  split at hq
  · cases hq
  rename_i c4
  obtain ⟨w, hw, e⟩ := bind_ok_inv hq
  cases e
  cases h
  refine ⟨?_, rfl, rfl⟩
  unfold LinearModel.train
  refine Eq.trans (if_neg c1) (Eq.trans (if_neg c2) (Eq.trans (if_neg c3) (Eq.trans (if_neg c4) ?_)))
  exact bind_eq (a := w) hw rfl

/-- Everything a linear model is after `readData`, `normalizeData`, `initializeSurrogateModel`. -/
theorem linear_loaded {m : LinearModel K} {dim n : Nat} {b : Bounds K} (h : LinearConfig m dim b)
    (hb : ProperBox b dim) (hdim : 0 < dim) (h99 : dim ≤ 99) {file : Option Str} {F : Nat → Nat → K}
    {A : Mat K} (hread : readFromCSV file false = .ok A) (hA : IsMat A n (dim + 1) F) {perm : List Nat}
    (hp : perm.Perm (List.range n)) :
    ∃ m2 m3 m4 w, m.readData file perm = (m2, .ok ()) ∧ m2.normalizeData = (m3, .ok ()) ∧
      m3.init = (m4, .ok ()) ∧ m2.data.dimension = dim ∧ m2.data.box = b ∧
      m2.data.testHasValues = m.data.testHasValues ∧ m3.data.box = b ∧ LinearConfig m4 dim b ∧
      m4.data.dimension = dim ∧ m4.train = .ok m4 ∧ m4.isInitialized = true ∧
      m4.data.rawData = A ∧ m4.data.numberOfSamples = n ∧ IsMat m4.data.X n dim (normalized b dim F) ∧
      IsRidge n dim (normalized b dim F) (fun i => F i dim) (1 / 10 ^ 8) w ∧
      ∀ x : List K, x.length = dim → m4.interpolate x = .ok (affine dim w (vecFun x)) := by
  have hn := readFromCSV_pos hread hA
  obtain ⟨m2, m3, m4, e1, e2, e3, hc, hi, w, hw, hx⟩ := h.load hb hdim h99 hread hA hp
  obtain ⟨tr, va, hs, hord, hload⟩ := h.data.load hb hdim hread hA hp
  obtain rfl := hord h.ratio
  obtain ⟨d1, d2, f1, f2, c2, b2, n1, n2, r2, i2, raw2, -, x2, y2⟩ := hload (by simp; omega)
  obtain ⟨t1, t2, t3⟩ := LinearModel.init_train e3
  have g1 : m2.data = d1 := by
    unfold LinearModel.readData at e1
    rw [f1] at e1
    exact (congrArg (fun p => p.1.data) e1).symm
  have g2 : m3.data = d2 := by
    unfold LinearModel.normalizeData at e2
    split at e2
    · cases e2
    · rw [g1, f2] at e2
      exact (congrArg (fun p => p.1.data) e2).symm
  have hk := d1.normalize_keeps
  rw [f2] at hk
  have hdm : d1.dimension = dim := by
    have := SMData.normalize_dimension d1
    rw [f2] at this
    rw [← this]; exact b2
  refine ⟨m2, m3, m4, w, e1, e2, e3, by rw [g1]; exact hdm, by rw [g1, ← hk.2.2.2.2.1]; exact c2.box,
    by rw [g1]; exact SMData.readData_keepsTest f1, by rw [g2]; exact c2.box, hc, by rw [t2, g2]; exact b2, t1, hi,
    by rw [t2, g2]; exact raw2, by rw [t2, g2]; simpa using n2, ?_, hw, hx⟩
  rw [t2, g2]
  rw [List.length_range] at x2
  refine x2.congr fun i j hi _ => ?_
  simp [List.getD, hi]

/-- A linear model that can be tested. -/
structure LinearReady (m : LinearModel K) (dim : Nat) (values : Bool) : Prop where
  noGradients : m.data.hasGradients = false
  noDirectional : m.data.hasDirectional = false
  size : m.data.dimension = 0 ∨ m.data.dimension = dim
  ratio : m.data.ratio = 0
  stale : m.data.numberOfValidationSamples = 0
  rows : ∃ R, HasRows m.data.rawDataValidation (dim + 1) R
  values : (values || m.data.testHasValues) = values

/-- The trained linear model with its test data. -/
structure LinearTested (m : LinearModel K) (values : Bool) (n N dim : Nat) (F G : Nat → Nat → K)
    (b : Bounds K) (w : Nat → K) : Prop where
  test : TestData m.data values N dim G b
  dimension : m.dimension = dim
  isInitialized : m.isInitialized = true
  raw : IsMat m.data.rawData n (dim + 1) F
  count : m.data.numberOfSamples = n
  inputs : IsMat m.data.X n dim (normalized b dim F)
  ridge : IsRidge n dim (normalized b dim F) (fun i => F i dim) (1 / 10 ^ 8) w
  predicts : ∀ x : List K, x.length = dim → m.interpolate x = .ok (affine dim w (vecFun x))
  ready : LinearReady m dim values

/-- A test of a linear model up to the predictions. -/
theorem linear_run {m : LinearModel K} {e : TestMembers K} {c : TesterSettings K} {dim n N : Nat}
    {b : Bounds K} {values : Bool} {F G : Nat → Nat → K} {training test : Option Str}
    (hc : c.dimension = dim) (hcb : c.box = b) (hm : LinearReady m dim values) (hb : ProperBox b dim)
    (hdim : 0 < dim) (h99 : dim ≤ 99) (hf : ∃ A, readFromCSV training false = .ok A ∧ IsMat A n (dim + 1) F)
    (ht : TestFile test values N dim G) {perm : List Nat} (hp : perm.Perm (List.range n))
    (hyper old : Option Str) :
    ∃ m' w, (linearClass perm).report c training test hyper ((m, e), old) = (linearClass perm).finish c
        ((m', { e with hasTestData := true, isTestRead := true, isTestNormalized := true }), old) ∧
      LinearTested m' values n N dim F G b w := by
  obtain ⟨A, hread, hA⟩ := hf
  subst hc hcb
  set dim := c.dimension with hdm
  have hbx : ∀ d : SMData K, d.setBoxConstraints c.box = .ok { d with box := c.box } :=
    fun d => if_neg (by simp [hb.set])
  set m1 : LinearModel K := { m.setDimension dim with data := { m.data with box := c.box } } with hm1
  have hcfg : LinearConfig m1 dim c.box :=
    ⟨⟨rfl, hm.noGradients, hm.noDirectional, hm.size, hm.ratio.ge, fun _ => hm.stale, hm.rows⟩, hm.ratio, rfl⟩
  obtain ⟨m2, m3, m4, w, e1, e2, e3, d2, b2, v2, b3, c4, d4, t4, i4, r4, n4, x4, hw, hx⟩ :=
    linear_loaded hcfg hb hdim h99 hread hA hp
  obtain ⟨d, hT, hrep⟩ := ModelClass.report_eq (linear_frame perm) (c := c)
    (m := m) (m1 := m1) (m2 := m2) (m3 := m3) (m4 := m4) (e := e) (old := old)
    (training := training) (test := test) (b := c.box) (dim := dim) (n := N) (values := values) (G := G)
    (bind_eq (hbx _) rfl) e1 (fun d => by
      refine bind_eq (hbx _) ?_
      show Except.ok ({ m2 with data := { m2.data.withTest d with box := c.box } } : LinearModel K) =
        .ok { m2 with data := m2.data.withTest d }
      rw [← b2]
      rfl) e2 e3 d2 b3 d4 (by
        show (values || m2.data.testHasValues) = values
        rw [v2]; exact hm.values) ht hb hdim hyper
  refine ⟨m4.withTest d, w, ?_, hT, c4.size, i4, ?_, n4, x4, hw, hx, c4.data.noGradients, c4.data.noDirectional,
    c4.data.size, c4.ratio, c4.data.stale c4.ratio, c4.data.rows, ?_⟩
  · rw [hrep]
    have htu : (linearClass perm).tuned c ((linearClass perm).withTest d m4) = m4.withTest d := by
      unfold ModelClass.tuned
      split <;> rfl
    rw [htu]
    refine andThen_ok ?_ rfl
    have : (linearClass perm).train (m4.withTest d) hyper = (m4.withTest d, .ok ()) := by
      show commit (m4.withTest d) (m4.withTest d).train = _
      rw [LinearModel.train_withTest, t4]
      rfl
    unfold ModelClass.own
    rw [this]
  · show IsMat m4.data.rawData n (dim + 1) F
    rw [r4]; exact hA
  · have : (m4.withTest d).data.testHasValues = values := hT.hasValues
    rw [this]
    exact Bool.or_self values

end linear

end Rodeo
