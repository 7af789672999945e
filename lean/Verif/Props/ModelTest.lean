import Verif.Lemmas.ModelTest
import Verif.Props.CSV
import Verif.Props.KrigingHistory

set_option linter.unusedSectionVars false

/-! # Testing a surrogate model on data (C86, C87, C88, C89) -/

namespace Rodeo

open Text Spec Mat Finset

section generic
variable {K : Type} [Field K] [LinearOrder K] [IsStrictOrderedRing K]

/-! ## C86 -/

/-- The settings for a test: the number of parameters, a box, the name of a test file. -/
structure Spec.Testable (t : ModelTest K) (dim : Nat) (b : Bounds K) : Prop where
  dimension : t.dimension = dim
  dataDimension : t.data.dimension = dim
  dimPos : 0 < dim
  box : t.data.box = b
  proper : ProperBox b dim
  named : t.hasTestData = true

/-- `readDataTest`, `normalizeDataTest`, `tryOnTestData`, ended by the first exception. -/
def Spec.testOn [FloorRing K] (t : ModelTest K) (P : Predictor K) (mode : TestMode) (file : Option Str) :
    ModelTest K × Res Unit :=
  andThen (commit t (t.readDataTest file)) fun t =>
  andThen (commit t t.normalizeDataTest) fun t => commit t (t.tryOnTestData P mode)

/-- Tests one after the other, also those that throw. -/
def Spec.afterTests [FloorRing K] (t : ModelTest K) (P : Predictor K)
    (calls : List (TestMode × Option Str)) : ModelTest K :=
  calls.foldl (fun t c => (testOn t P c.1 c.2).1) t

/-- The results of a test on a table `F`, with or without true values: row `i` is the report on row `i`
of the table, and the generalization error is the mean squared error. -/
structure Spec.Reported (t : ModelTest K) (values variances : Bool) (n dim : Nat) (F : Nat → Nat → K)
    (f v : Nat → K) : Prop where
  rows : IsMat t.results n (dim + 1 + (if values then 2 else 0) + if variances then 1 else 0)
    (fun i j => vecFun (reportRow values variances dim F f v i) j)
  error : values = true → t.generalizationError = meanSquare n (fun i => F i dim) f

/-- A readable test file with the table `F`. -/
def Spec.TestFile [FloorRing K] (file : Option Str) (values : Bool) (n dim : Nat) (F : Nat → Nat → K) :
    Prop :=
  ∃ A, readFromCSV file false = .ok A ∧ IsMat A n (tableColumns values dim) F

/-- The full property: after all earlier tests, a test on a readable file reports the estimates of the
model at the points of the file. -/
def C86_full (K : Type) [Field K] [LinearOrder K] [IsStrictOrderedRing K] [FloorRing K] : Prop :=
  ∀ (t : ModelTest K) (dim : Nat) (b : Bounds K) (P : Predictor K)
    (earlier : List (TestMode × Option Str)) (mode : TestMode) (file : Option Str) (values : Bool) (n : Nat)
    (F : Nat → Nat → K) (f v : Nat → K),
    Testable t dim b → t.data.testHasValues = false → TestFile file values n dim F →
    (∀ i, i < n → Estimates P mode ((List.range dim).map (normalized b dim F i)) (f i) (v i)) →
    ∃ t', testOn (afterTests t P earlier) P mode file = (t', .ok ()) ∧
      Reported t' values (decide (mode = .withVariances)) n dim F f v

/-- What a test changes, also when it throws. -/
structure Moved [FloorRing K] (dim : Nat) (file : Option Str) (t t' : ModelTest K) : Prop where
  dimension : t'.dimension = t.dimension
  dataDimension : t'.data.dimension = t.data.dimension
  box : t'.data.box = t.data.box
  named : t'.hasTestData = t.hasTestData
  header : t'.header = t.header
  resultsName : t'.resultsName = t.resultsName
  keepsValues : t.data.testHasValues = true → t'.data.testHasValues = true
  newValues : t'.data.testHasValues = true → t.data.testHasValues = true ∨
    ∃ n F, TestFile (K := K) file true n dim F
  columns : t'.results.ncols = t.results.ncols ∨
    t'.results.ncols ≤ t.data.dimension + 2 + if t'.data.testHasValues then 2 else 0

theorem Moved.refl [FloorRing K] (dim : Nat) (file : Option Str) (t : ModelTest K) : Moved dim file t t :=
  ⟨rfl, rfl, rfl, rfl, rfl, rfl, id, Or.inl, Or.inl rfl⟩

theorem setRow_ncols {A B : Mat K} {x : List K} {i : Nat} (h : setRow A x i = .ok B) :
    B.ncols = A.ncols := by
  unfold setRow at h
  split at h
  · cases h
  · split at h
    · cases h
    · obtain ⟨_, -, h⟩ := bind_ok_inv h
      obtain ⟨_, -, h⟩ := bind_ok_inv h
      cases h
      rfl

theorem tryOnTestData_inv {t t' : ModelTest K} {P : Predictor K} {mode : TestMode}
    (h : t.tryOnTestData P mode = .ok t') :
    ∃ R g, t' = { t with results := R, generalizationError := g } ∧ R.ncols = t.entries mode := by
  unfold ModelTest.tryOnTestData at h
  split at h
  · cases h
  · obtain ⟨fE, -, h⟩ := bind_ok_inv h
    obtain ⟨s, e, h⟩ := bind_ok_inv h
    obtain ⟨g, -, h⟩ := bind_ok_inv h
    cases h
    refine ⟨s.1, g, rfl, ?_⟩
    have := loopFrom_post (body := t.tryRow P mode fE)
      (fun s : Mat K × List K => s.1.ncols = t.entries mode) t.data.numberOfTestSamples 0
      (⟨t.data.numberOfTestSamples, t.entries mode,
        List.replicate (t.data.numberOfTestSamples * t.entries mode) 0⟩, []) rfl (by
      intro i s hs s' e'
      unfold ModelTest.tryRow at e'
      obtain ⟨_, -, e'⟩ := bind_ok_inv e'
      obtain ⟨_, -, e'⟩ := bind_ok_inv e'
      obtain ⟨_, -, e'⟩ := bind_ok_inv e'
      obtain ⟨_, -, e'⟩ := bind_ok_inv e'
      obtain ⟨_, -, e'⟩ := bind_ok_inv e'
      obtain ⟨_, -, e'⟩ := bind_ok_inv e'
      obtain ⟨_, -, e'⟩ := bind_ok_inv e'
      obtain ⟨R, e1, e'⟩ := bind_ok_inv e'
      cases e'
      exact (setRow_ncols e1).trans hs)
    exact this s e

theorem testOn_moved [FloorRing K] {t : ModelTest K} {dim : Nat} {b : Bounds K} (h : Testable t dim b)
    (P : Predictor K) (mode : TestMode) (file : Option Str) : Moved dim file t (testOn t P mode file).1 := by
  unfold testOn
  refine andThen_keeps (P := Moved dim file t) (commit_keeps (Moved.refl _ _ _) ?_) ?_
  · intro t' e
    unfold ModelTest.readDataTest at e
    rw [if_neg (by simp [h.named])] at e
    obtain ⟨d, e1, e2⟩ := bind_ok_inv e
    cases e2
    unfold SMData.readDataTest at e1
    rw [if_neg (by rw [h.dataDimension]; have := h.dimPos; omega)] at e1
    obtain ⟨A, eA, e1⟩ := bind_ok_inv e1
    dsimp only at e1
    split_ifs at e1 with c1 c2
    · obtain ⟨y, -, e1⟩ := bind_ok_inv e1
      obtain ⟨X, -, e1⟩ := bind_ok_inv e1
      cases e1
      refine ⟨rfl, rfl, rfl, rfl, rfl, rfl, fun _ => rfl, fun _ => Or.inr ?_, Or.inl rfl⟩
      cases file with
      | none => unfold readFromCSV at eA; cases eA
      | some text =>
        obtain ⟨n', m', F', hn', hA', -⟩ := readFromCSV_inv eA
        refine ⟨n', F', A, eA, ?_⟩
        have : m' = dim + 1 := by rw [← hA'.2.1, ← h.dataDimension]; exact c1
        subst this
        exact hA'
    · cases e1
      exact ⟨rfl, rfl, rfl, rfl, rfl, rfl, id, Or.inl, Or.inl rfl⟩
  · intro t1 h1
    refine andThen_keeps (P := Moved dim file t) (commit_keeps h1 ?_) ?_
    · intro t' e
      unfold ModelTest.normalizeDataTest SMData.normalizeTest at e
      obtain ⟨d, e1, e2⟩ := bind_ok_inv e
      cases e2
      split at e1
      · cases e1
      · obtain ⟨z, -, e1⟩ := bind_ok_inv e1
        split at e1
        · cases e1
        · obtain ⟨X, -, e1⟩ := bind_ok_inv e1
          cases e1
          exact ⟨h1.dimension, h1.dataDimension, h1.box, h1.named, h1.header, h1.resultsName,
            h1.keepsValues, h1.newValues, h1.columns⟩
    · intro t2 h2
      refine commit_keeps h2 ?_
      intro t' e
      obtain ⟨R, g, rfl, hR⟩ := tryOnTestData_inv e
      refine ⟨h2.dimension, h2.dataDimension, h2.box, h2.named, h2.header, h2.resultsName,
        h2.keepsValues, h2.newValues, Or.inr ?_⟩
      show R.ncols ≤ t.data.dimension + 2 + if t2.data.testHasValues then 2 else 0
      rw [hR, ModelTest.entries_eq h2.dataDimension rfl]
      split_ifs <;> omega

theorem testOn_keeps [FloorRing K] {t : ModelTest K} {dim : Nat} {b : Bounds K} (h : Testable t dim b)
    (P : Predictor K) (mode : TestMode) (file : Option Str) : Testable (testOn t P mode file).1 dim b ∧
      ((testOn t P mode file).1.data.testHasValues = true → t.data.testHasValues = true ∨
        ∃ n F, TestFile (K := K) file true n dim F) := by
  have m := testOn_moved h P mode file
  exact ⟨⟨m.dimension.trans h.dimension, m.dataDimension.trans h.dataDimension, h.dimPos,
    m.box.trans h.box, h.proper, m.named.trans h.named⟩, m.newValues⟩

theorem afterTests_keeps [FloorRing K] (P : Predictor K) {dim : Nat} {b : Bounds K} :
    ∀ (calls : List (TestMode × Option Str)) {t : ModelTest K}, Testable t dim b →
      Testable (afterTests t P calls) dim b ∧ ((afterTests t P calls).data.testHasValues = true →
        t.data.testHasValues = true ∨ ∃ c ∈ calls, ∃ n F, TestFile (K := K) c.2 true n dim F) := by
  intro calls
  induction calls with
  | nil => intro t h; exact ⟨h, Or.inl⟩
  | cons c calls ih =>
    intro t h
    obtain ⟨h1, h2⟩ := testOn_keeps h P c.1 c.2
    obtain ⟨h3, h4⟩ := ih h1
    refine ⟨h3, fun hv => ?_⟩
    rcases h4 hv with h5 | ⟨c', hc', h5⟩
    · rcases h2 h5 with h6 | h6
      · exact Or.inl h6
      · exact Or.inr ⟨c, by simp, h6⟩
    · exact Or.inr ⟨c', by simp [hc'], h5⟩

/-- What a test does on a readable file: the state afterwards. -/
theorem testOn_ok [FloorRing K] {t : ModelTest K} {dim : Nat} {b : Bounds K} (h : Testable t dim b)
    {P : Predictor K} {mode : TestMode} {file : Option Str} {values : Bool} {n : Nat} {F : Nat → Nat → K}
    {f v : Nat → K} (hf : TestFile file values n dim F)
    (hv : values = true ∨ t.data.testHasValues = false)
    (hP : ∀ i, i < n → Estimates P mode ((List.range dim).map (normalized b dim F i)) (f i) (v i)) :
    ∃ t', testOn t P mode file = (t', .ok ()) ∧
      Reported t' values (decide (mode = .withVariances)) n dim F f v ∧ Testable t' dim b ∧
      t'.header = t.header ∧ t'.resultsName = t.resultsName ∧ TestData t'.data values n dim F b ∧
      t'.isTestNormalized = true := by
  obtain ⟨A, hread, hA⟩ := hf
  have hn := readFromCSV_pos hread hA
  obtain ⟨X, hX, e1⟩ := SMData.readDataTest_ok hread hA hn h.dimPos h.dataDimension
  set d1 : SMData K := { t.data with
      XrawTest := A
      numberOfTestSamples := n
      yTest := if values then (List.range n).map (fun i => F i dim) else t.data.yTest
      XTest := X
      testHasValues := values || t.data.testHasValues
      isTestRead := true } with hd1
  have hb1 : d1.box = b := h.box
  obtain ⟨X', hX', e2⟩ := SMData.normalizeTest_ok (d := d1) (by rw [hb1]; exact h.proper) h.dimPos hX
  rw [hb1] at hX'
  set t2 : ModelTest K := { t with
      data := { d1 with XTest := X' }
      isTestRead := true
      isTestNormalized := true } with ht2
  have hTD : TestData t2.data values n dim F b := by
    refine ⟨h.dataDimension, rfl, ?_, rfl, hA, hX'⟩
    show (values || t.data.testHasValues) = values
    rcases hv with hv | hv
    · simp [hv]
    · simp [hv]
  obtain ⟨R, e3, hR⟩ := ModelTest.tryOnTestData_ok (t := t2) (mode := mode) hTD hn h.dimension rfl hP
  refine ⟨{ t2 with
      results := R
      generalizationError := if values then meanSquare n (fun i => F i dim) f
        else t2.generalizationError }, ?_, ⟨?_, ?_⟩,
    ⟨h.dimension, h.dataDimension, h.dimPos, h.box, h.proper, h.named⟩, rfl, rfl, hTD, rfl⟩
  · unfold testOn
    refine andThen_commit (s' := { t with data := d1, isTestRead := true }) ?_
      (andThen_commit (s' := t2) ?_ ?_)
    · unfold ModelTest.readDataTest
      rw [if_neg (by simp [h.named])]
      exact bind_eq e1 rfl
    · unfold ModelTest.normalizeDataTest
      exact bind_eq e2 rfl
    · rw [e3]; rfl
  · rw [ModelTest.entries_eq hTD.dimension hTD.hasValues] at hR
    simpa using hR
  · intro h1
    simp [h1]

/-- What holds after all earlier tests, also those that throw: a test on a readable file with true values
reports, in each row, the parameters, the estimate, the true value, the squared error and, if asked for,
the variance, and its error is the mean squared error; a test on a file without true values reports the
parameters, the estimates and the variances if no earlier test file had true values.  Missing for the
full property: files without true values after a file with true values (`C86_false`). -/
theorem C86_partial [FloorRing K] {t : ModelTest K} {dim : Nat} {b : Bounds K} {P : Predictor K}
    {earlier : List (TestMode × Option Str)} {mode : TestMode} {file : Option Str} {values : Bool} {n : Nat}
    {F : Nat → Nat → K} {f v : Nat → K} (ht : Testable t dim b) (h0 : t.data.testHasValues = false)
    (hf : TestFile file values n dim F)
    (hv : values = true ∨ ∀ c ∈ earlier, ¬ ∃ n F, TestFile (K := K) c.2 true n dim F)
    (hP : ∀ i, i < n → Estimates P mode ((List.range dim).map (normalized b dim F i)) (f i) (v i)) :
    ∃ t', testOn (afterTests t P earlier) P mode file = (t', .ok ()) ∧
      Reported t' values (decide (mode = .withVariances)) n dim F f v := by
  obtain ⟨h1, h2⟩ := afterTests_keeps P earlier ht
  obtain ⟨t', e, hr, -⟩ := testOn_ok h1 (mode := mode) hf (by
    rcases hv with hv | hv
    · exact Or.inl hv
    · right
      by_contra hc
      rcases h2 (by simpa using hc) with h3 | ⟨c, hc, h3⟩
      · rw [h0] at h3; cases h3
      · exact hv c hc h3) hP
  exact ⟨t', e, hr⟩

/-- The error of `calculateOutSampleError` after such a test on a file with true values is the mean
squared error of the estimates. -/
theorem C86_error [FloorRing K] {t : ModelTest K} {dim : Nat} {b : Bounds K} {P : Predictor K}
    {mode : TestMode} {file : Option Str} {n : Nat} {F : Nat → Nat → K} {f v g w : Nat → K}
    (ht : Testable t dim b) (hf : TestFile file true n dim F)
    (hP : ∀ i, i < n → Estimates P mode ((List.range dim).map (normalized b dim F i)) (f i) (v i))
    (hG : ∀ i, i < n → Estimates P .functionValues ((List.range dim).map (normalized b dim F i))
      (g i) (w i)) :
    ∃ t' t'', testOn t P mode file = (t', .ok ()) ∧
      t'.calculateOutSampleError P = .ok (t'', meanSquare n (fun i => F i dim) g) := by
  obtain ⟨t', e, hr, h1, -, -, hTD, hN⟩ := testOn_ok ht (mode := mode) hf (Or.inl rfl) hP
  obtain ⟨A, hread, hA⟩ := hf
  have hn := readFromCSV_pos hread hA
  obtain ⟨R, e2, hR⟩ := ModelTest.tryOnTestData_ok (mode := .functionValues) hTD hn h1.dimension hN hG
  refine ⟨t', { t' with results := R, generalizationError := meanSquare n (fun i => F i dim) g }, e, ?_⟩
  unfold ModelTest.calculateOutSampleError
  rw [if_neg (by simp [h1.named]), if_neg (by simp [hTD.hasValues])]
  rw [ModelTest.entries_eq hTD.dimension hTD.hasValues] at hR
  refine bind_eq e2 (bind_eq (a := (List.range n).map fun i => (F i dim - g i) ^ 2) ?_
    (bind_eq (a := meanSquare n (fun i => F i dim) g) ?_ rfl))
  · show getCol R ((t'.data.dimension + 2 : Nat) : Int) = _
    rw [hTD.dimension, getCol_ok hR (p := dim + 2) (by simp) (Or.inl rfl)]
    congr 1
    refine List.map_congr_left fun i _ => ?_
    have : vecFun (reportRow true (decide (TestMode.functionValues = .withVariances)) dim F g w i)
        (dim + 2) = (F i dim - g i) ^ 2 := by
      unfold reportRow vecFun
      simp [List.getD]
    exact this
  · rw [Vec.mean_ok (by simpa using hn)]
    congr 1
    unfold meanSquare
    rw [List.length_map, List.length_range]
    congr 1
    exact sum_congr rfl fun i hi => Corr.vecFun_map _ (mem_range.1 hi)

/-! ## C87 -/

section save
variable [FloorRing K]

/-- A call: a test on a file, or saving the results (with or without the variances). -/
inductive Spec.TEvent
  | test (mode : TestMode) (file : Option Str)
  | save (variances : Bool)

/-- Saving the results. -/
def Spec.saveT (variances : Bool) (s : ModelTest K × Option Str) : (ModelTest K × Option Str) × Res Unit :=
  if variances then s.1.saveTestResultsWithVariance s.2 else s.1.saveTestResults s.2

/-- The object and the content of the results file after a call, also when it throws. -/
def Spec.stepT (P : Predictor K) (s : ModelTest K × Option Str) : TEvent → ModelTest K × Option Str
  | .test mode file => ((testOn s.1 P mode file).1, s.2)
  | .save variances => (saveT variances s).1

/-- The object and the content of the results file after calls. -/
def Spec.historyT (P : Predictor K) (s : ModelTest K × Option Str) (evs : List TEvent) :
    ModelTest K × Option Str :=
  evs.foldl (stepT P) s

/-- An object that has not been tested. -/
structure Spec.Untested (t : ModelTest K) (dim : Nat) (b : Bounds K) : Prop where
  testable : Testable t dim b
  noValues : t.data.testHasValues = false
  noHeader : t.header = []
  noResults : t.results.ncols = 0
  named : t.resultsName ≠ []

/-- The file is a report: a line with the names of the columns, and the rows of the report, each entry
rounded to six decimals. -/
def Spec.ReportFile (file : Option Str) (values variances : Bool) (n dim : Nat) (F : Nat → Nat → K)
    (f v : Nat → K) : Prop :=
  ∃ (text rest : Str) (B : Mat K) (G : Nat → Nat → K), file = some text ∧
    text = [','].intercalate (reportNames values variances dim) ++ '\n' :: rest ∧
    readFromCSV (some text) true = .ok B ∧
    IsMat B n (dim + 1 + (if values then 2 else 0) + if variances then 1 else 0) G ∧
    ∀ i j, i < n → j < dim + 1 + (if values then 2 else 0) + (if variances then 1 else 0) →
      |G i j - vecFun (reportRow values variances dim F f v i) j| ≤ 1 / 2 / 10 ^ 6

/-- The full property: after every history of tests and saves, saving the results of a test writes the
report of this test. -/
def C87_full (K : Type) [Field K] [LinearOrder K] [IsStrictOrderedRing K] [FloorRing K] : Prop :=
  ∀ (t : ModelTest K) (dim : Nat) (b : Bounds K) (P : Predictor K) (old : Option Str) (evs : List TEvent)
    (mode : TestMode) (file : Option Str) (n : Nat) (F : Nat → Nat → K) (f v : Nat → K),
    Untested t dim b → TestFile file true n dim F →
    (∀ i, i < n → Estimates P mode ((List.range dim).map (normalized b dim F i)) (f i) (v i)) →
    ∃ s, saveT (decide (mode = .withVariances)) (historyT P (t, old) (evs ++ [.test mode file])) =
        (s, .ok ()) ∧
      ReportFile s.2 true (decide (mode = .withVariances)) n dim F f v

theorem reportNames_length (values variances : Bool) (dim : Nat) :
    (reportNames values variances dim).length =
      dim + 1 + (if values then 2 else 0) + if variances then 1 else 0 := by
  unfold reportNames
  cases values <;> cases variances <;> simp

theorem reportNames_lines {values variances : Bool} {dim : Nat} {h : Str}
    (hh : h ∈ reportNames values variances dim) : '\n' ∉ h := by
  have hx : ∀ i : Nat, '\n' ∉ 'x' :: natStr (i + 1) := by
    intro i hc
    rcases List.mem_cons.1 hc with h | h
    · exact absurd h (by decide)
    · have := (natStr_spec (i + 1)).1 _ h
      revert this
      decide
  unfold reportNames at hh
  simp only [List.mem_append, List.mem_map, List.mem_range, List.mem_singleton] at hh
  rcases hh with ((⟨i, -, rfl⟩ | rfl) | h1) | h1
  · exact hx i
  · decide
  · split_ifs at h1
    · simp only [List.mem_cons, List.not_mem_nil, or_false] at h1
      rcases h1 with rfl | rfl <;> decide
    · cases h1
  · split_ifs at h1
    · simp only [List.mem_singleton] at h1
      subst h1; decide
    · cases h1

theorem saveT_eq {variances : Bool} {s : ModelTest K × Option Str} (hn : s.1.resultsName ≠ [])
    {values : Bool} {dim : Nat} (h1 : s.1.data.testHasValues = values) (h2 : s.1.data.dimension = dim) :
    saveT variances s =
      (({ s.1 with header := s.1.header ++ reportNames values variances dim },
        some (s.1.results.saveAsCSV 6 (s.1.header ++ reportNames values variances dim)).1),
        (s.1.results.saveAsCSV 6 (s.1.header ++ reportNames values variances dim)).2) := by
  subst h1 h2
  unfold saveT reportNames
  cases variances
  · simp only [Bool.false_eq_true, if_false, List.append_nil]
    unfold ModelTest.saveTestResults
    rw [if_neg hn]
    rfl
  · simp only [if_true]
    unfold ModelTest.saveTestResultsWithVariance
    rw [if_neg hn]
    simp only [ModelTest.writeHeader, List.append_assoc]

/-- What is kept by all calls. -/
structure Kept (t : ModelTest K) (dim : Nat) (b : Bounds K) (h : Nat) : Prop where
  testable : Testable t dim b
  named : t.resultsName ≠ []
  columns : t.results.ncols ≤ dim + 2 + if t.data.testHasValues then 2 else 0
  header : h ≤ t.header.length

theorem testOn_kept {t : ModelTest K} {dim : Nat} {b : Bounds K} {h : Nat} (hk : Kept t dim b h)
    (P : Predictor K) (mode : TestMode) (file : Option Str) : Kept (testOn t P mode file).1 dim b h := by
  have m := testOn_moved hk.testable P mode file
  refine ⟨(testOn_keeps hk.testable P mode file).1, by rw [m.resultsName]; exact hk.named, ?_,
    by rw [m.header]; exact hk.header⟩
  rcases m.columns with e | e
  · rw [e]
    refine le_trans hk.columns ?_
    by_cases hv : t.data.testHasValues = true
    · rw [if_pos hv, if_pos (m.keepsValues hv)]
    · rw [if_neg hv]; omega
  · rw [← hk.testable.dataDimension]; exact e

theorem saveT_kept {s : ModelTest K × Option Str} {dim : Nat} {b : Bounds K} {h : Nat}
    (hk : Kept s.1 dim b h) (variances : Bool) : Kept (saveT variances s).1.1 dim b (dim + 1) := by
  rw [saveT_eq hk.named rfl hk.testable.dataDimension]
  refine ⟨⟨hk.testable.dimension, hk.testable.dataDimension, hk.testable.dimPos, hk.testable.box,
    hk.testable.proper, hk.testable.named⟩, hk.named, hk.columns, ?_⟩
  show dim + 1 ≤ (s.1.header ++ _).length
  rw [List.length_append, reportNames_length]
  omega

theorem historyT_kept (P : Predictor K) {dim : Nat} {b : Bounds K} :
    ∀ (evs : List TEvent) {s : ModelTest K × Option Str} {h : Nat}, Kept s.1 dim b h → h = 0 ∨ h = dim + 1 →
      Kept (historyT P s evs).1 dim b h ∧
      ((∃ v, TEvent.save v ∈ evs) → Kept (historyT P s evs).1 dim b (dim + 1)) := by
  intro evs
  induction evs with
  | nil => intro s h hk _; exact ⟨hk, fun ⟨v, hv⟩ => by cases hv⟩
  | cons e evs ih =>
    intro s h hk hh
    have mono : ∀ {t : ModelTest K}, Kept t dim b (dim + 1) → Kept t dim b h := fun k =>
      ⟨k.testable, k.named, k.columns, le_trans (by rcases hh with rfl | rfl <;> omega) k.header⟩
    cases e with
    | test mode file =>
      obtain ⟨h1, h2⟩ := ih (s := stepT P s (.test mode file)) (testOn_kept hk P mode file) hh
      refine ⟨h1, fun ⟨v, hv⟩ => h2 ⟨v, ?_⟩⟩
      rcases List.mem_cons.1 hv with hv | hv
      · cases hv
      · exact hv
    | save v =>
      obtain ⟨h1, -⟩ := ih (s := stepT P s (.save v)) (saveT_kept hk v) (Or.inr rfl)
      exact ⟨mono h1, fun _ => h1⟩

/-- Once the results have been saved, in whatever way, every later save, after all further tests and
saves, throws and leaves an empty file. -/
theorem C87_again {t : ModelTest K} {dim : Nat} {b : Bounds K} (ht : Untested t dim b) (P : Predictor K)
    (old : Option Str) {evs : List TEvent} (he : ∃ v, TEvent.save v ∈ evs) (variances : Bool) :
    ∃ t', saveT variances (historyT P (t, old) evs) = ((t', some []), .error .invalidArgument) := by
  have h0 : Kept t dim b 0 := ⟨ht.testable, ht.named, by rw [ht.noResults]; omega, by omega⟩
  have hk := (historyT_kept P evs (s := (t, old)) h0 (Or.inl rfl)).2 he
  set s := historyT P (t, old) evs with hs
  rw [saveT_eq hk.named rfl hk.testable.dataDimension]
  have hlen : (s.1.header ++ reportNames s.1.data.testHasValues variances dim).length ≠ s.1.results.ncols := by
    rw [List.length_append, reportNames_length]
    have h1 := hk.header
    have h2 := hk.columns
    have h3 := hk.testable.dimPos
    split_ifs at * <;> omega
  have e : s.1.results.saveAsCSV 6 (s.1.header ++ reportNames s.1.data.testHasValues variances dim) =
      ([], .error .invalidArgument) := by
    unfold saveAsCSV
    refine if_pos ⟨fun h => ?_, hlen⟩
    have h1 := congrArg List.length h
    rw [List.length_append, reportNames_length, List.length_nil] at h1
    omega
  rw [e]
  exact ⟨_, rfl⟩

theorem historyT_tests (P : Predictor K) (calls : List (TestMode × Option Str)) (t : ModelTest K)
    (old : Option Str) :
    historyT P (t, old) (calls.map fun c => .test c.1 c.2) = (afterTests t P calls, old) := by
  induction calls generalizing t with
  | nil => rfl
  | cons c calls ih => exact ih (testOn t P c.1 c.2).1

theorem afterTests_header (P : Predictor K) {dim : Nat} {b : Bounds K} :
    ∀ (calls : List (TestMode × Option Str)) {t : ModelTest K}, Testable t dim b →
      (afterTests t P calls).header = t.header ∧ (afterTests t P calls).resultsName = t.resultsName := by
  intro calls
  induction calls with
  | nil => intro t _; exact ⟨rfl, rfl⟩
  | cons c calls ih =>
    intro t h
    have m := testOn_moved h P c.1 c.2
    obtain ⟨h1, h2⟩ := ih (testOn_keeps h P c.1 c.2).1
    exact ⟨h1.trans m.header, h2.trans m.resultsName⟩

/-- The first save of a report. -/
theorem saveT_report {t : ModelTest K} {values variances : Bool} {n dim : Nat} {F : Nat → Nat → K}
    {f v : Nat → K} (hr : Reported t values variances n dim F f v) (hh : t.header = [])
    (hN : t.resultsName ≠ []) (hv : t.data.testHasValues = values) (hd : t.data.dimension = dim)
    (hn : 0 < n) (old : Option Str) :
    ∃ file, saveT variances (t, old) =
        (({ t with header := reportNames values variances dim }, file), .ok ()) ∧
      ReportFile file values variances n dim F f v := by
  rw [saveT_eq (s := (t, old)) hN hv hd]
  dsimp only
  rw [hh, List.nil_append]
  have hne : reportNames values variances dim ≠ [] := by
    intro hc
    have := congrArg List.length hc
    rw [reportNames_length] at this
    simp at this
  obtain ⟨text, B, G, e1, e2, e3, e4, -⟩ := C50_roundtrip hr.rows hn 6
    (reportNames values variances dim)
    (Or.inr (reportNames_length _ _ _)) (fun h hh => reportNames_lines hh)
  have e5 := saveAsCSV_ok hr.rows 6 (reportNames values variances dim)
    (Or.inr (reportNames_length _ _ _))
  rw [e1] at e5
  rw [e1]
  have hfirst : ∃ rest, text = [','].intercalate (reportNames values variances dim) ++ '\n' :: rest := by
    rw [(Prod.mk.inj e5).1]
    unfold csvText
    rw [if_neg hne]
    simp only [List.singleton_append, List.map_cons, List.flatten_cons, List.append_assoc]
    exact ⟨_, rfl⟩
  obtain ⟨rest, hrest⟩ := hfirst
  exact ⟨_, rfl, text, rest, B, G, rfl, hrest, by simpa [hne] using e2, e3, e4⟩

/-- What holds: after all earlier tests, also those that throw, the *first* save after a test on a file
with true values writes the report of this test: the names of the columns and the rows, to six decimals.
The same for a file without true values if no earlier test file had true values.  Missing: all later
saves (`C87_again`). -/
theorem C87_partial {t : ModelTest K} {dim : Nat} {b : Bounds K} {P : Predictor K} {old : Option Str}
    {earlier : List (TestMode × Option Str)} {mode : TestMode} {file : Option Str} {values : Bool} {n : Nat}
    {F : Nat → Nat → K} {f v : Nat → K} (ht : Untested t dim b) (hf : TestFile file values n dim F)
    (hv : values = true ∨ ∀ c ∈ earlier, ¬ ∃ n F, TestFile (K := K) c.2 true n dim F)
    (hP : ∀ i, i < n → Estimates P mode ((List.range dim).map (normalized b dim F i)) (f i) (v i)) :
    ∃ s, saveT (decide (mode = .withVariances))
        (historyT P (t, old) (earlier.map (fun c => .test c.1 c.2) ++ [.test mode file])) = (s, .ok ()) ∧
      ReportFile s.2 values (decide (mode = .withVariances)) n dim F f v := by
  obtain ⟨h1, h2⟩ := afterTests_keeps P earlier ht.testable
  obtain ⟨h3, h4⟩ := afterTests_header P earlier ht.testable
  obtain ⟨t', e, hr, hT, hh, hN, hTD, -⟩ := testOn_ok h1 (mode := mode) hf (by
    rcases hv with hv | hv
    · exact Or.inl hv
    · right
      by_contra hc
      rcases h2 (by simpa using hc) with h3 | ⟨c, hc, h3⟩
      · rw [ht.noValues] at h3; cases h3
      · exact hv c hc h3) hP
  have es : historyT P (t, old) (earlier.map (fun c => .test c.1 c.2) ++ [.test mode file]) = (t', old) := by
    have : historyT P (t, old) (earlier.map (fun c => .test c.1 c.2) ++ [.test mode file]) =
        stepT P (historyT P (t, old) (earlier.map fun c => .test c.1 c.2)) (.test mode file) := by
      unfold historyT
      rw [List.foldl_append]
      rfl
    rw [this, historyT_tests]
    show ((testOn (afterTests t P earlier) P mode file).1, old) = _
    rw [e]
  have hh' : t'.header = [] := by rw [hh, h3, ht.noHeader]
  have hN' : t'.resultsName ≠ [] := by rw [hN, h4]; exact ht.named
  obtain ⟨A, hread, hA⟩ := hf
  obtain ⟨file', e1, e2⟩ := saveT_report hr hh' hN' hTD.hasValues hTD.dimension
    (readFromCSV_pos hread hA) old
  rw [es]
  exact ⟨_, e1, e2⟩

end save

/-! ## C88 -/

section inSample
variable [FloorRing K]

/-- `readData` and `normalizeData`. -/
def Spec.loadData (d : SMData K) (file : Option Str) (perm : List Nat) : SMData K × Res Unit :=
  andThen (d.readData file perm) SMData.normalize

/-- A model of the `n` rows of the table `F` in the file, some of them (for a positive ratio) set aside
for validation by the shuffle `perm`. -/
structure Spec.LoadedModel (t : ModelTest K) (ratio : K) (n dim : Nat) (F : Nat → Nat → K) (b : Bounds K)
    (perm : List Nat) : Prop where
  box : ProperBox b dim
  dimPos : 0 < dim
  shuffle : perm.Perm (List.range n)
  dimension : t.dimension = dim
  isInitialized : t.isInitialized = true
  isRead : t.isRead = true
  loaded : ∃ d file A, DataConfig d dim b ∧ d.rawDataValidation = .empty ∧ d.ratio = ratio ∧
    readFromCSV file false = .ok A ∧ IsMat A n (dim + 1) F ∧ loadData d file perm = (t.data, .ok ())

/-- The full property: the error is the mean squared error of the estimates `f` at the training
samples. -/
def C88_full (K : Type) [Field K] [LinearOrder K] [IsStrictOrderedRing K] [FloorRing K] : Prop :=
  ∀ (t : ModelTest K) (ratio : K) (n dim : Nat) (F : Nat → Nat → K) (b : Bounds K) (perm : List Nat)
    (P : Predictor K) (f : Nat → K), LoadedModel t ratio n dim F b perm →
    (∀ r, r < n → P.value ((List.range dim).map (normalized b dim F r)) = .ok (f r)) →
    ∃ tr va, IsSplit n (SMData.validationCount n ratio) tr va ∧
      va = perm.take (SMData.validationCount n ratio) ∧
      t.calculateInSampleError P .functionValues =
        .ok ((tr.map fun r => (F r dim - f r) ^ 2).sum / (tr.length : K))

theorem inSample_ok {t : ModelTest K} {n N dim : Nat} {F : Nat → Nat → K} {b : Bounds K} {tr : List Nat}
    (h1 : t.isInitialized = true) (h2 : t.dimension = dim) (h3 : IsMat t.data.rawData n (dim + 1) F)
    (h4 : t.data.numberOfSamples = N) (h5 : IsMat t.data.X N dim (fun i => normalized b dim F (tr.getD i 0)))
    (h6 : N ≤ n) (h0 : 0 < N) {P : Predictor K} {f : Nat → K}
    (hP : ∀ i, i < N → P.value ((List.range dim).map (normalized b dim F (tr.getD i 0))) =
      .ok (f (tr.getD i 0))) :
    t.calculateInSampleError P .functionValues =
      .ok (meanSquare N (fun i => F i dim) (fun i => f (tr.getD i 0))) := by
  unfold ModelTest.calculateInSampleError
  rw [if_neg (by simp [h1])]
  refine bind_eq (a := (List.range n).map (fun i => F i dim)) ?_ ?_
  · rw [h2]; exact getCol_ok h3 (by omega) (Or.inl rfl)
  · rw [h4]
    refine bind_eq (sumLoop_ok (g := fun i => (F i dim - f (tr.getD i 0)) ^ 2) ?_) ?_
    · intro i hi
      refine bind_eq (getRow_ok h5 hi (Or.inl rfl)) (bind_eq (hP i hi) (bind_eq (a := F i dim) ?_ ?_))
      · rw [vat_ok_of_lt (by simp; omega)]; simp
      · congr 1; ring
    · unfold fdiv meanSquare
      rw [if_neg]
      exact_mod_cast h0.ne'

theorem Spec.LoadedModel.facts {t : ModelTest K} {ratio : K} {n dim : Nat} {F : Nat → Nat → K}
    {b : Bounds K} {perm : List Nat} (h : LoadedModel t ratio n dim F b perm) :
    ∃ tr va, IsSplit n (SMData.validationCount n ratio) tr va ∧
      va = perm.take (SMData.validationCount n ratio) ∧ (ratio = 0 → tr = List.range n) ∧ tr ≠ [] ∧
      IsMat t.data.rawData n (dim + 1) F ∧ t.data.numberOfSamples = tr.length ∧ t.data.dimension = dim ∧
      IsMat t.data.X tr.length dim (fun i => normalized b dim F (tr.getD i 0)) := by
  obtain ⟨d, file, A, hd, hV, hr, hread, hA, hl⟩ := h.loaded
  have hn := readFromCSV_pos hread hA
  obtain ⟨tr, va, hs, hva, hord, h3⟩ := SMData.readData_order (d := d) (R := []) hread hA hn h.dimPos
    (by simp [dataColumns, hd.noGradients, hd.noDirectional]) hd.size (by simp [hd.noGradients]) hd.ratio
    hd.stale (by rw [hV]; exact hasRows_empty _) h.shuffle
  obtain ⟨d1, e1, e2⟩ := andThen_inv hl
  have htr : tr ≠ [] := by
    intro h0
    rw [if_pos h0, e1] at h3
    cases h3
  rw [if_neg htr] at h3
  obtain ⟨d1', e1', a1, a2, a3, a0, a4, aR, a5, a6, a7, aV, a8, -, ay, aXV, -⟩ := h3
  rw [e1] at e1'
  obtain rfl : d1 = d1' := (Prod.mk.inj e1').1
  obtain ⟨d2, e2', -, b1, b2, bb, by', -, b4, b5, b6, b3, -⟩ := SMData.normalize_ok (d := d1)
    (n := tr.length) (kv := va.length)
    (Fv := fun i j => (([] ++ va.map (SMData.tableRow F (dim + 1))).getD i []).getD j 0) (G := fun _ _ => 0)
    h.dimPos a7 a2 a1 a8
    (fun hpos => (aXV (by intro hva0; rw [a3, hva0] at hpos; simp at hpos)).1)
    (by rw [a5, hd.noGradients]; simp)
    (by rw [a4, hd.box]; exact h.box.set) (by rw [a4, hd.box]; exact h.box.size)
    (by rw [a4, hd.box]; exact h.box.lb) (by rw [a4, hd.box]; exact h.box.ub)
    (by rw [a4, hd.box]; exact h.box.lt)
  rw [e2] at e2'
  obtain rfl : t.data = d2 := (Prod.mk.inj e2').1
  rw [a4, hd.box] at b3
  rw [hr] at hs hva hord
  exact ⟨tr, va, hs, hva, hord, htr, by rw [b5, a0]; exact hA, b1, b2, b3⟩

theorem Spec.IsSplit.le {n k : Nat} {tr va : List Nat} (h : IsSplit n k tr va) : tr.length ≤ n := by
  have := h.1.length_eq
  simp at this
  omega

/-- What `calculateInSampleError` returns, for every ratio: sample `i` of the training samples is
compared with the value of row `i` of the *file*. -/
theorem C88_rows {t : ModelTest K} {ratio : K} {n dim : Nat} {F : Nat → Nat → K} {b : Bounds K}
    {perm : List Nat} (h : LoadedModel t ratio n dim F b perm) {P : Predictor K} {f : Nat → K}
    (hP : ∀ r, r < n → P.value ((List.range dim).map (normalized b dim F r)) = .ok (f r)) :
    ∃ tr va, IsSplit n (SMData.validationCount n ratio) tr va ∧
      va = perm.take (SMData.validationCount n ratio) ∧ (ratio = 0 → tr = List.range n) ∧
      t.calculateInSampleError P .functionValues =
        .ok (meanSquare tr.length (fun i => F i dim) (fun i => f (tr.getD i 0))) := by
  obtain ⟨tr, va, hs, hva, hord, htr, h3, h4, -, h5⟩ := h.facts
  refine ⟨tr, va, hs, hva, hord, inSample_ok h.isInitialized h.dimension h3 h4 h5 hs.le
    (List.length_pos_iff.2 htr) fun i hi => hP _ ?_⟩
  have : tr.getD i 0 ∈ tr := by
    simp only [List.getD, List.getElem?_eq_getElem hi, Option.getD_some]
    exact List.getElem_mem hi
  exact List.mem_range.1 (hs.1.mem_iff.1 (List.mem_append_left _ this))

/-- Without validation samples the error is the mean squared error of the estimates at the samples of
the file.  Missing for the full property: models with validation samples (`C88_false`). -/
theorem C88_partial {t : ModelTest K} {n dim : Nat} {F : Nat → Nat → K} {b : Bounds K}
    {perm : List Nat} (h : LoadedModel t 0 n dim F b perm) {P : Predictor K} {f : Nat → K}
    (hP : ∀ r, r < n → P.value ((List.range dim).map (normalized b dim F r)) = .ok (f r)) :
    t.calculateInSampleError P .functionValues = .ok (meanSquare n (fun i => F i dim) f) := by
  obtain ⟨tr, va, -, -, hord, e⟩ := C88_rows h hP
  obtain rfl := hord rfl
  rw [e, List.length_range]
  congr 1
  unfold meanSquare
  congr 1
  refine sum_congr rfl fun i hi => ?_
  have hi' := mem_range.1 hi
  simp [List.getD, hi']

/-! ## C89 -/

/-- The full property: the number of samples of the file within the bounds. -/
def C89_full (K : Type) [Field K] [LinearOrder K] [IsStrictOrderedRing K] [FloorRing K] : Prop :=
  ∀ (t : ModelTest K) (ratio : K) (n dim : Nat) (F : Nat → Nat → K) (b : Bounds K) (perm : List Nat)
    (lb ub : List K), LoadedModel t ratio n dim F b perm → lb.length = dim → ub.length = dim →
    t.countWithinBounds lb ub = .ok (countInside n dim F lb ub)

theorem isBetween_ok {dim : Nat} {x : Nat → K} {lb ub : List K} (hl : lb.length = dim)
    (hu : ub.length = dim) : Vec.isBetween ((List.range dim).map x) lb ub =
      .ok (decide (∀ j, j < dim → vecFun lb j ≤ x j ∧ x j ≤ vecFun ub j)) := by
  unfold Vec.isBetween
  rw [if_neg (by simp [hl, hu])]
  rw [noneOf_eq (b := fun j => decide (x j < vecFun lb j ∨ x j > vecFun ub j))]
  · congr 1
    rw [decide_eq_decide, List.length_map, List.length_range]
    refine forall₂_congr fun j hj => ?_
    rw [decide_eq_false_iff_not, not_or, not_lt, gt_iff_lt, not_lt]
  · intro j hj
    rw [List.length_map, List.length_range] at hj
    refine bind_eq (a := x j) ?_ (bind_eq (vat_vecFun (by omega)) (bind_eq (vat_vecFun (by omega)) rfl))
    rw [Corr.rawAt_vecFun (by simpa using hj), Corr.vecFun_map _ hj]

/-- What `countHowManySamplesAreWithinBounds` returns, for every ratio: the number of rows within the
bounds among the first rows of the file, as many as there are training samples; bounds of a wrong size
are reported. -/
theorem C89_rows {t : ModelTest K} {ratio : K} {n dim : Nat} {F : Nat → Nat → K} {b : Bounds K}
    {perm : List Nat} (h : LoadedModel t ratio n dim F b perm) (lb ub : List K) :
    (lb.length = dim → ub.length = dim → ∃ tr va, IsSplit n (SMData.validationCount n ratio) tr va ∧
      va = perm.take (SMData.validationCount n ratio) ∧ (ratio = 0 → tr = List.range n) ∧
      t.countWithinBounds lb ub = .ok (countInside tr.length dim F lb ub)) ∧
    (¬ (lb.length = dim ∧ ub.length = dim) → t.countWithinBounds lb ub = .error .invalidArgument) := by
  obtain ⟨tr, va, hs, hva, hord, htr, h3, h4, h5, -⟩ := h.facts
  have hrow : ∀ i, i < tr.length → getRow t.data.rawData (i : Nat) = .ok ((List.range (dim + 1)).map (F i)) :=
    fun i hi => getRow_ok h3 (by have := hs.le; omega) (Or.inl rfl)
  have hhead : ∀ i, Vec.head ((List.range (dim + 1)).map (F i)) t.data.dimension =
      .ok ((List.range dim).map (F i)) := by
    intro i
    rw [h5, Vec.head_eq _ (by simp), ← List.map_take, List.take_range, min_eq_left (by omega)]
  unfold ModelTest.countWithinBounds
  rw [if_neg (by simp [h.isRead]), h4]
  constructor
  · intro hl hu
    refine ⟨tr, va, hs, hva, hord, ?_⟩
    obtain ⟨c, e, hc⟩ := forRange_inv (n := tr.length) (s := 0) (body := fun i c => do
        let row ← Mat.getRow t.data.rawData (i : Nat)
        let x ← Vec.head row t.data.dimension
        let inside ← Vec.isBetween x lb ub
        .ok (if inside then c + 1 else c))
      (fun k c => c = countInside k dim F lb ub) rfl (by
        rintro i c hi rfl
        refine ⟨_, bind_eq (hrow i hi) (bind_eq (hhead i) (bind_eq (isBetween_ok hl hu) rfl)), ?_⟩
        unfold countInside
        rw [List.range_succ, List.filter_append, List.length_append]
        by_cases hb : ∀ j, j < dim → vecFun lb j ≤ F i j ∧ F i j ≤ vecFun ub j
        · have hd := decide_eq_true hb
          simp only [List.filter_cons, List.filter_nil, hd, if_true, List.length_singleton]
        · have hd := decide_eq_false hb
          simp only [List.filter_cons, List.filter_nil, hd, Bool.false_eq_true, if_false, List.length_nil,
            Nat.add_zero])
    rw [e, hc]
  · intro hne
    obtain ⟨N, hN⟩ : ∃ N, tr.length = N + 1 := ⟨tr.length - 1, by have := List.length_pos_iff.2 htr; omega⟩
    have e0 : Vec.isBetween ((List.range dim).map (F 0)) lb ub = .error .invalidArgument := by
      unfold Vec.isBetween
      rw [if_pos]
      rw [List.length_map, List.length_range]
      omega
    rw [hN]
    unfold forRange loopFrom
    have : (do
        let row ← Mat.getRow t.data.rawData ((0 : Nat) : Int)
        let x ← Vec.head row t.data.dimension
        let inside ← Vec.isBetween x lb ub
        (.ok (if inside then 0 + 1 else 0) : Res Nat)) = .error .invalidArgument :=
      bind_eq (hrow 0 (by omega)) (bind_eq (hhead 0) (bind_err e0))
    simp only [this]

/-- Without validation samples: the number of the samples of the file within the bounds.  Missing for
the full property: models with validation samples (`C89_false`). -/
theorem C89_partial {t : ModelTest K} {n dim : Nat} {F : Nat → Nat → K} {b : Bounds K} {perm : List Nat}
    (h : LoadedModel t 0 n dim F b perm) {lb ub : List K} (hl : lb.length = dim) (hu : ub.length = dim) :
    t.countWithinBounds lb ub = .ok (countInside n dim F lb ub) := by
  obtain ⟨tr, va, -, -, hord, e⟩ := (C89_rows h lb ub).1 hl hu
  obtain rfl := hord rfl
  rw [e, List.length_range]

end inSample

end generic
/-! ## Kriging models -/

/-- **C86 for Kriging models.** After every history of new samples and trainings, a test of the model on
a readable file with true values reports its predictions at the points of the file, with the mean squared
error and nonnegative variances. -/
theorem C86_kriging {k : Kriging ℝ} {text : Str} {n dim : Nat} {F : Nat → Nat → ℝ} {b : Bounds ℝ}
    {lin : Bool} {eps : ℝ} (h : Built k text n dim F b lin eps) {evs : List KEvent}
    (hv : ∀ e ∈ evs, e.Valid) {k' : Kriging ℝ} (hk : (historyK (k, some text) evs).1 = k')
    {name : Str} (hname : name ≠ []) {mode : TestMode} (hm : mode = .functionValues ∨ mode = .withVariances)
    {file : Option Str} {N : Nat} {G : Nat → Nat → ℝ} (hf : TestFile file true N dim G) :
    ∃ t t' f v, k'.test.setNameOfInputFileTest name = .ok t ∧
      testOn t (k'.predictor realFns) mode file = (t', .ok ()) ∧
      Reported t' true (decide (mode = .withVariances)) N dim G f v ∧
      ∀ i, i < N → ∃ w, k'.interpolateWithVariance realFns ((List.range dim).map (normalized b dim G i)) =
        .ok (f i, w) ∧ 0 ≤ w ∧ (mode = .withVariances → w = v i) := by
  obtain ⟨text', n', H, T, h1, -, h3, -⟩ := h.history hv
  rw [hk] at h3
  have hp : ∀ i, ∃ f v, k'.interpolateWithVariance realFns ((List.range dim).map (normalized b dim G i)) =
      .ok (f, v) ∧ k'.interpolate realFns ((List.range dim).map (normalized b dim G i)) = .ok f ∧ 0 ≤ v :=
    fun i => C75_variance_nonneg h3.model (by simp)
  choose f v h4 h5 h6 using hp
  refine ⟨{ k'.test with hasTestData := true }, ?_⟩
  have hT : Testable { k'.test with hasTestData := true } dim b :=
    ⟨h3.config.size, h3.prepared.dataDim, h.dimPos, h3.config.data.box, h.box, rfl⟩
  have e0 : k'.test.setNameOfInputFileTest name = .ok { k'.test with hasTestData := true } := if_neg hname
  rcases hm with rfl | rfl
  · obtain ⟨t', e, hr, -⟩ := testOn_ok hT (P := k'.predictor realFns) (mode := .functionValues) (f := f)
      (v := fun _ => 0) hf (Or.inl rfl) (fun i _ => bind_eq (h5 i) rfl)
    exact ⟨t', f, fun _ => 0, e0, e, hr, fun i _ => ⟨v i, h4 i, h6 i, fun hc => by cases hc⟩⟩
  · obtain ⟨t', e, hr, -⟩ := testOn_ok hT (P := k'.predictor realFns) (mode := .withVariances) (f := f)
      (v := v) hf (Or.inl rfl) (fun i _ => h4 i)
    exact ⟨t', f, v, e0, e, hr, fun i _ => ⟨v i, h4 i, h6 i, fun _ => rfl⟩⟩

/-- **C88 for Kriging models.** After every history of new samples and trainings the in-sample error is
the mean squared error of the predictions at the rows of the data file. -/
theorem C88_kriging {k : Kriging ℝ} {text : Str} {n dim : Nat} {F : Nat → Nat → ℝ} {b : Bounds ℝ}
    {lin : Bool} {eps : ℝ} (h : Built k text n dim F b lin eps) {evs : List KEvent}
    (hv : ∀ e ∈ evs, e.Valid) {k' : Kriging ℝ} (hk : (historyK (k, some text) evs).1 = k') :
    ∃ n' G f, n ≤ n' ∧ DataFile (historyK (k, some text) evs).2 n' dim G ∧
      (∀ i, i < n' → k'.interpolate realFns ((List.range dim).map (normalized b dim G i)) = .ok (f i)) ∧
      k'.test.calculateInSampleError (k'.predictor realFns) .functionValues =
        .ok (meanSquare n' (fun i => G i dim) f) := by
  obtain ⟨text', n', H, T, h1, -, h3, -, -, -, -, h4⟩ := h.history hv
  rw [hk] at h3
  have hp : ∀ i, ∃ f, k'.interpolate realFns ((List.range dim).map (normalized b dim H i)) = .ok f :=
    fun i => by
      obtain ⟨f, v, -, h5, -⟩ := C75_variance_nonneg h3.model
        (x := (List.range dim).map (normalized b dim H i)) (by simp)
      exact ⟨f, h5⟩
  choose f h5 using hp
  refine ⟨n', H, f, h4.le, by rw [h1]; exact ⟨_, h3.table, h3.rows⟩, fun i _ => h5 i, ?_⟩
  have hget : ∀ i, i < n' → (List.range n').getD i 0 = i := fun i hi => by simp [List.getD, hi]
  have := inSample_ok (t := k'.test) (n := n') (N := n') (tr := List.range n') (P := k'.predictor realFns)
    (f := f) (b := b) h3.isInitialized h3.config.size h3.rows h3.prepared.dataCount
    (h3.prepared.inputs.congr fun i j hi _ => by rw [hget i hi]) le_rfl h3.prepared.countPos
    (fun i _ => h5 _)
  rw [this]
  congr 1
  unfold meanSquare
  congr 1
  refine sum_congr rfl fun i hi => ?_
  beta_reduce
  rw [hget i (mem_range.1 hi)]

/-- Without a nugget (and with a positive definite correlation matrix) the in-sample error of a Kriging
model is zero; in general it is the mean square of the nugget times the weights of the linear system. -/
theorem C88_nugget {file : Option Str} {n dim : Nat} {F : Nat → Nat → ℝ} {b : Bounds ℝ}
    {lin : Bool} {eps : ℝ} {perm permL : List Nat} (hf : DataFile file n dim F) (hb : ProperBox b dim)
    (hdim : 0 < dim) (h99 : lin = true → dim ≤ 99) (he : 0 ≤ eps) (he1 : eps < 1)
    (hP : eps = 0 → PosDef n (krigingMatrix dim (fun _ => 1) (fun _ => 9 / 5) 0 (normalized b dim F)))
    (hp : perm.Perm (List.range n)) (hpL : permL.Perm (List.range n)) :
    ∃ k T w beta, buildKriging dim lin b eps none file perm permL = (k, .ok ()) ∧
      TrendOf lin n dim b F T ∧
      Solves n (corrOf k dim (normalized b dim F)) w
        (fun i => F i dim - T ((List.range dim).map (normalized b dim F i)) - beta) ∧
      k.test.calculateInSampleError (k.predictor realFns) .functionValues =
        .ok (eps ^ 2 * ((∑ i ∈ range n, w i ^ 2) / n)) := by
  obtain ⟨k, T, e, hcur, hc, ht, hg⟩ := buildKriging_current hf hb hdim h99 he he1 hP hp hpL
  have hg0 : ∀ g ∈ k.corr.gamma, g ≠ 0 := fun g h => replicate_ne_zero (by rw [← hg]; exact h)
  obtain ⟨w, beta, h1, h2⟩ := C54_error hcur.model hg0
  refine ⟨k, T, w, beta, e, by rw [← hc.usesLinear]; exact hcur.trend, h1, ?_⟩
  have hget : ∀ i, i < n → (List.range n).getD i 0 = i := fun i hi => by simp [List.getD, hi]
  have := inSample_ok (t := k.test) (n := n) (N := n) (tr := List.range n) (P := k.predictor realFns)
    (f := fun i => F i dim - k.corr.base.epsilon * w i) (b := b) hcur.isInitialized hcur.config.size hcur.rows
    hcur.prepared.dataCount (hcur.prepared.inputs.congr fun i j hi _ => by rw [hget i hi]) le_rfl
    hcur.prepared.countPos (fun i hi => by rw [hget i hi]; exact h2 i hi)
  rw [this]
  congr 1
  unfold meanSquare
  rw [← mul_div_assoc, mul_sum]
  congr 1
  refine sum_congr rfl fun i hi => ?_
  beta_reduce
  rw [hget i (mem_range.1 hi), hc.epsilon]
  ring

/-! ## The hypotheses are met, and where the full properties fail -/

section examples

/-- A model with one parameter between 0 and 2. -/
def exTest : ModelTest ℚ :=
  ⟨{ (SMData.new : SMData ℚ) with dimension := 1, box := ⟨[0], [2], 1, true⟩ }, 1, true, true, true, false,
    false, .empty, 0, [], "r.csv".toList⟩

/-- It predicts the normalized parameter. -/
def exPredictor : Predictor ℚ :=
  ⟨fun x => .ok (x.headD 0), fun x => .ok (x.headD 0), fun x => .ok (x.headD 0, 1)⟩

theorem exTest_untested : Untested exTest 1 ⟨[0], [2], 1, true⟩ :=
  ⟨⟨rfl, rfl, by norm_num, rfl, ⟨rfl, rfl, rfl, rfl, fun j hj => by
    obtain rfl : j = 0 := by omega
    decide⟩, rfl⟩, rfl, rfl, rfl, by decide⟩

theorem isMat_one (a : ℚ) : IsMat (⟨1, 1, [a]⟩ : Mat ℚ) 1 1 (fun _ _ => a) := by
  refine isMat_iff.2 ⟨rfl, rfl, rfl, ?_⟩
  intro i j hi hj
  obtain rfl : i = 0 := by omega
  obtain rfl : j = 0 := by omega
  rfl

theorem exFile : TestFile (some "1,5\n".toList) true 1 1 (fun _ j => if j = 0 then (1 : ℚ) else 5) := by
  refine ⟨⟨1, 2, [1, 5]⟩, by decide +kernel, isMat_iff.2 ⟨rfl, rfl, rfl, ?_⟩⟩
  intro i j hi hj
  obtain rfl : i = 0 := by omega
  have : j < 2 := hj
  rcases (by omega : j = 0 ∨ j = 1) with rfl | rfl <;> rfl

theorem exPlainFile : TestFile (some "1\n".toList) false 1 1 (fun _ _ => (1 : ℚ)) :=
  ⟨⟨1, 1, [1]⟩, by decide +kernel, isMat_one 1⟩

/-- A test on a file with true values and, after it, one on a file without: the second throws. -/
theorem C86_false : ¬ C86_full ℚ := by
  intro h
  obtain ⟨t', e, -⟩ := h exTest 1 ⟨[0], [2], 1, true⟩ exPredictor
    [(.functionValues, some "1,5\n".toList)] .functionValues (some "1\n".toList) false 1 (fun _ _ => 1)
    (fun i => (((List.range 1).map (normalized (⟨[0], [2], 1, true⟩ : Bounds ℚ) 1 (fun _ _ => 1) i)).headD 0))
    (fun _ => 0) exTest_untested.testable rfl exPlainFile (fun i _ => rfl)
  have e2 : (testOn (afterTests exTest exPredictor [(.functionValues, some "1,5\n".toList)]) exPredictor
      .functionValues (some "1\n".toList)).2 = .error .outOfRange := by decide +kernel
  rw [e] at e2
  cases e2

/-- `normalizeDataTest` is not required again for a second test file: `tryOnTestData` then reports the
estimate at the parameter 1 as if 1 were the normalized parameter (it is 1/2), without an error. -/
theorem C86_unnormalized :
    ((testOn exTest exPredictor .functionValues (some "1,5\n".toList)).1.results.buf = [1, 1 / 2, 5, 81 / 4]) ∧
    ((do
      let t ← (testOn exTest exPredictor .functionValues (some "1,5\n".toList)).1.readDataTest
        (some "1,5\n".toList)
      let t ← t.tryOnTestData exPredictor .functionValues
      .ok t.results.buf) = .ok [1, 1, 5, 16]) := by
  constructor <;> decide +kernel

/-- Saving twice: the second save empties the file. -/
theorem C87_false : ¬ C87_full ℚ := by
  intro h
  obtain ⟨s, e, -⟩ := h exTest 1 ⟨[0], [2], 1, true⟩ exPredictor none
    [.test .functionValues (some "1,5\n".toList), .save false] .functionValues (some "1,5\n".toList) 1
    (fun _ j => if j = 0 then (1 : ℚ) else 5)
    (fun i => (((List.range 1).map (normalized (⟨[0], [2], 1, true⟩ : Bounds ℚ) 1
      (fun _ j => if j = 0 then (1 : ℚ) else 5) i)).headD 0))
    (fun _ => 0) exTest_untested exFile (fun i _ => rfl)
  obtain ⟨t', e'⟩ := C87_again exTest_untested exPredictor none
    (evs := [.test .functionValues (some "1,5\n".toList), .save false] ++
      [.test .functionValues (some "1,5\n".toList)]) ⟨false, by simp⟩
    (decide (TestMode.functionValues = .withVariances))
  rw [e] at e'
  cases e'

/-- Data of two rows, one of them for validation. -/
def exData : SMData ℚ := { (SMData.new : SMData ℚ) with box := ⟨[0], [2], 1, true⟩, ratio := 1 / 2 }

/-- The model of these data. -/
def exLoaded : ModelTest ℚ :=
  { exTest with data := (loadData exData (some "0,0\n2,1\n".toList) [0, 1]).1 }

/-- The two rows. -/
def exRows (i j : Nat) : ℚ := if i = 0 then 0 else if j = 0 then 2 else 1

theorem exLoaded_model : LoadedModel exLoaded (1 / 2) 2 1 exRows ⟨[0], [2], 1, true⟩ [0, 1] := by
  refine ⟨exTest_untested.testable.proper, by norm_num, by decide, rfl, rfl, rfl, exData,
    some "0,0\n2,1\n".toList, ⟨2, 2, [0, 2, 0, 1]⟩,
    ⟨rfl, rfl, rfl, Or.inl rfl, by show (0 : ℚ) ≤ 1 / 2; norm_num,
      fun h => absurd h (by show ¬ (1 / 2 : ℚ) = 0; norm_num), [], hasRows_empty _⟩, rfl, rfl, by decide +kernel,
    isMat_iff.2 ⟨rfl, rfl, rfl, ?_⟩, Prod.ext rfl (by decide +kernel)⟩
  intro i j hi hj
  rcases (by omega : i = 0 ∨ i = 1) with rfl | rfl <;>
    rcases (by omega : j = 0 ∨ j = 1) with rfl | rfl <;> decide

/-- The only training sample is the second row, at which the model is exact; it is compared with the value
of the first row. -/
theorem C88_false : ¬ C88_full ℚ := by
  intro h
  obtain ⟨tr, va, h1, h2, h3⟩ := h exLoaded (1 / 2) 2 1 exRows ⟨[0], [2], 1, true⟩ [0, 1] exPredictor
    (fun r => ((List.range 1).map (normalized (⟨[0], [2], 1, true⟩ : Bounds ℚ) 1 exRows r)).headD 0)
    exLoaded_model (fun r _ => rfl)
  have hk : SMData.validationCount 2 (1 / 2 : ℚ) = 1 := by decide +kernel
  rw [hk] at h1 h2
  have e : exLoaded.calculateInSampleError exPredictor .functionValues = .ok 1 := by decide +kernel
  rw [e] at h3
  subst h2
  obtain ⟨a, rfl⟩ := List.length_eq_one_iff.1 (show tr.length = 1 by
    have := h1.1.length_eq; simpa using this)
  have ha : a < 2 := List.mem_range.1 (h1.1.mem_iff.1 (by simp))
  have hn := h1.1.nodup_iff.2 List.nodup_range
  have ha1 : a = 1 := by
    have : a ≠ 0 := by intro h0; subst h0; simp at hn
    omega
  subst ha1
  revert h3
  decide +kernel

/-- The second row is within the bounds, and it is a training sample; the count is zero. -/
theorem C89_false : ¬ C89_full ℚ := by
  intro h
  have := h exLoaded (1 / 2) 2 1 exRows ⟨[0], [2], 1, true⟩ [0, 1] [1] [2] exLoaded_model rfl rfl
  revert this
  decide +kernel

/-- The hypotheses of `C86_partial` and `C87_partial` are met. -/
example : ∃ s, saveT false (historyT exPredictor (exTest, none)
      [.test .withVariances (some "1,5\n".toList), .test .functionValues (some "1,5\n".toList)]) =
        (s, .ok ()) ∧ s.2 = some "x1,Estimated value,True value,Squared Error\n1.000000,0.500000,5.000000,20.250000\n".toList := by
  refine ⟨(saveT false (historyT exPredictor (exTest, none)
      [.test .withVariances (some "1,5\n".toList), .test .functionValues (some "1,5\n".toList)])).1,
    Prod.ext rfl ?_, ?_⟩
  · decide +kernel
  · decide +kernel

/-- The hypotheses of `C88_partial` and `C89_partial` are met by the same file without validation. -/
example : LoadedModel { exTest with data := (loadData { exData with ratio := 0 }
      (some "0,0\n2,1\n".toList) [0, 1]).1 } 0 2 1 exRows ⟨[0], [2], 1, true⟩ [0, 1] := by
  refine ⟨exTest_untested.testable.proper, by norm_num, by decide, rfl, rfl, rfl, { exData with ratio := 0 },
    some "0,0\n2,1\n".toList, ⟨2, 2, [0, 2, 0, 1]⟩,
    ⟨rfl, rfl, rfl, Or.inl rfl, le_rfl, fun _ => rfl, [], hasRows_empty _⟩, rfl, rfl, by decide +kernel,
    isMat_iff.2 ⟨rfl, rfl, rfl, ?_⟩, Prod.ext rfl (by decide +kernel)⟩
  intro i j hi hj
  rcases (by omega : i = 0 ∨ i = 1) with rfl | rfl <;>
    rcases (by omega : j = 0 ∨ j = 1) with rfl | rfl <;> decide

/-- There is a Kriging model and a test file for `C86_kriging`. -/
example : ∃ k text file, Built k text 2 1 exampleTable ⟨[(0 : ℝ)], [2], 1, true⟩ true (1 / 10 ^ 12) ∧
    TestFile file true 2 1 exampleTable := by
  obtain ⟨k, text, h⟩ := exists_built true
  obtain ⟨A, h1, h2⟩ := h.file.table
  exact ⟨k, text, some text, h, A, h1, h2⟩

end examples

end Rodeo
