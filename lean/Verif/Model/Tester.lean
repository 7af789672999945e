import Verif.Model.ModelTest
import Verif.Model.Evaluate

/-! # Testing a model of a chosen type (`SurrogateModels/surrogate_model_tester.cpp`)

The tester holds one object of each class of models and a pointer to the one that is tested.  Log
messages and what is printed to the screen are not modelled. -/

namespace Rodeo

open Text

variable {K : Type} [Field K] [LinearOrder K] [IsStrictOrderedRing K]

/-- `enum SURROGATE_MODEL` (surrogate_model.hpp 46-52): `NONE`, `TANGENT_ENHANCED` and
`GRADIENT_ENHANCED` are `other`. -/
inductive TestedType
  | linear | ordinary | universal | other
  deriving DecidableEq

/-- The members of `SurrogateModel` that are used only to test it (surrogate_model.hpp 58-130). -/
structure TestMembers (K : Type) where
  hasTestData : Bool
  isTestRead : Bool
  isTestNormalized : Bool
  results : Mat K
  generalizationError : K
  header : List Str
  resultsName : Str

namespace TestMembers

/-- The members of a new object (surrogate_model.hpp 58-130). -/
def new : TestMembers K := ⟨false, false, false, .empty, 0, [], "surrogateTestResults.csv".toList⟩

/-- These members of an object that is tested (surrogate_model.hpp 58-130). -/
def ofTest (t : ModelTest K) : TestMembers K :=
  ⟨t.hasTestData, t.isTestRead, t.isTestNormalized, t.results, t.generalizationError, t.header,
    t.resultsName⟩

end TestMembers

/-- The members and the virtual functions of a class of models that the tester uses
(surrogate_model.hpp 108-169).  `train` gets the content of the file with the hyperparameters; the
flag to write this file is never set by the tester. -/
structure ModelClass (K M : Type) where
  data : M → SMData K
  setData : M → SMData K → M
  dimension : M → Nat
  isInitialized : M → Bool
  isRead : M → Bool
  setDimension : M → Nat → M
  setBoxConstraints : M → Bounds K → Res M
  readData : M → Option Str → M × Res Unit
  normalizeData : M → M × Res Unit
  initializeSurrogateModel : M → M × Res Unit
  setNumberOfTrainingIterations : M → Nat → M
  setReadWarmStartFileFlag : M → Bool → M
  train : M → Option Str → M × Res Unit
  predictor : M → Predictor K

/-- The class `LinearModel` (linear_regression.hpp 10-50); `perm` is the shuffle of the samples.  The
number of training iterations and the flag of the warm start are not read by this class. -/
def linearClass [FloorRing K] (perm : List Nat) : ModelClass K (LinearModel K) where
  data m := m.data
  setData m d := { m with data := d }
  dimension m := m.dimension
  isInitialized m := m.isInitialized
  isRead m := m.isRead
  setDimension m n := m.setDimension n
  setBoxConstraints m b := m.setBoxConstraints b
  readData m file := m.readData file perm
  normalizeData m := m.normalizeData
  initializeSurrogateModel m := m.init
  setNumberOfTrainingIterations m _ := m
  setReadWarmStartFileFlag m _ := m
  train m _ := commit m m.train
  predictor m := m.predictor

/-- The class `KrigingModel` (kriging_training.hpp 30-130) with the random numbers of the search for
the hyperparameters. -/
def krigingClass [FloorRing K] (F : Fns K) (E : Nat → EAEnv K) (schedule : List Nat)
    (perm permL : List Nat) : ModelClass K (Kriging K) where
  data k := k.data
  setData k d := { k with data := d }
  dimension k := k.dimension
  isInitialized k := k.isInitialized
  isRead k := k.isRead
  setDimension k n := k.setDimension n
  setBoxConstraints k b := k.setBoxConstraints b
  readData k file := k.readData file perm permL
  normalizeData k := k.normalizeData
  initializeSurrogateModel k := k.init F
  setNumberOfTrainingIterations k n := k.setNumberOfTrainingIterations n
  setReadWarmStartFileFlag k f := { k with readWarm := f }
  train k file := ((k.train F E schedule file).1.1, (k.train F E schedule file).2)
  predictor k := k.predictor F

/-- The settings of a tester (surrogate_model_tester.hpp 21-43, 68-76).  The value of
`surrogateModelType` is indeterminate in a new object; it is read only after it has been set. -/
structure TesterSettings (K : Type) where
  name : Str
  dimension : Nat
  box : Bounds K
  trainingFile : Str
  testFile : Str
  type : Option TestedType
  bound : Bool
  iterations : Nat
  readWarm : Bool
  variances : Bool

namespace ModelClass

variable {M : Type}

/-- The object as the functions of the base class see it (surrogate_model.hpp 58-130). -/
def view (V : ModelClass K M) (s : M × TestMembers K) : ModelTest K :=
  ⟨V.data s.1, V.dimension s.1, V.isInitialized s.1, V.isRead s.1, s.2.hasTestData, s.2.isTestRead,
    s.2.isTestNormalized, s.2.results, s.2.generalizationError, s.2.header, s.2.resultsName⟩

/-- The object after a function of the base class (surrogate_model.hpp 58-130). -/
def update (V : ModelClass K M) (s : M × TestMembers K) (t : ModelTest K) : M × TestMembers K :=
  (V.setData s.1 t.data, .ofTest t)

/-- A call of a function of the class itself. -/
def own (s : (M × TestMembers K) × Option Str) (p : M × Res Unit) :
    ((M × TestMembers K) × Option Str) × Res Unit :=
  (((p.1, s.1.2), s.2), p.2)

/-- A call of a function of the base class. -/
def base (V : ModelClass K M) (s : (M × TestMembers K) × Option Str) (r : Res (ModelTest K)) :
    ((M × TestMembers K) × Option Str) × Res Unit :=
  match r with
  | .ok t => ((V.update s.1 t, s.2), .ok ())
  | .error e => (s, .error e)

section run
variable [FloorRing K]

/-- `saveTestResults` and `saveTestResultsWithVariance` (surrogate_model.cpp 271-298). -/
def save (V : ModelClass K M) (variances : Bool) (s : (M × TestMembers K) × Option Str) :
    ((M × TestMembers K) × Option Str) × Res Unit :=
  let p := if variances then (V.view s.1).saveTestResultsWithVariance s.2
    else (V.view s.1).saveTestResults s.2
  ((V.update s.1 p.1.1, p.1.2), p.2)

/-- `performSurrogateModelTest` after its checks, up to the results file
(surrogate_model_tester.cpp 122-165): the object and the content of the results file.  `training`,
`test` and `hyper` are the contents of the files. -/
def report (V : ModelClass K M) (c : TesterSettings K) (training test hyper : Option Str)
    (s : (M × TestMembers K) × Option Str) : ((M × TestMembers K) × Option Str) × Res Unit :=
  let s := ((V.setDimension s.1.1 c.dimension, { s.1.2 with hasTestData := true }), s.2)
  andThen (own s (commit s.1.1 (V.setBoxConstraints s.1.1 c.box))) fun s =>
  andThen (own s (V.readData s.1.1 training)) fun s =>
  andThen (V.base s ((V.view s.1).readDataTest test)) fun s =>
  andThen (own s (commit s.1.1 (V.setBoxConstraints s.1.1 c.box))) fun s =>
  andThen (own s (V.normalizeData s.1.1)) fun s =>
  andThen (V.base s (V.view s.1).normalizeDataTest) fun s =>
  andThen (own s (V.initializeSurrogateModel s.1.1)) fun s =>
  let s := ((V.setNumberOfTrainingIterations s.1.1 c.iterations, s.1.2), s.2)
  let s := ((if c.readWarm then V.setReadWarmStartFileFlag s.1.1 true else s.1.1, s.1.2), s.2)
  andThen (own s (V.train s.1.1 hyper)) fun s =>
  andThen (V.base s ((V.view s.1).tryOnTestData (V.predictor s.1.1)
    (if c.variances then .withVariances else .functionValues))) fun s =>
  V.save c.variances s

/-- `performSurrogateModelTest` after its checks (surrogate_model_tester.cpp 122-174): the object, the
content of the results file, and the training error that is logged. -/
def perform (V : ModelClass K M) (c : TesterSettings K) (training test hyper : Option Str)
    (s : (M × TestMembers K) × Option Str) : ((M × TestMembers K) × Option Str) × Res K :=
  let p := V.report c training test hyper s
  (p.1, do
    let _ ← p.2
    (V.view p.1.1).calculateInSampleError (V.predictor p.1.1.1) .functionValues)

end run

end ModelClass

/-- What the pointer `surrogateModel` points to (surrogate_model_tester.hpp 31). -/
inductive TestedObject
  | linear | kriging
  deriving DecidableEq

/-- `class SurrogateModelTester` (surrogate_model_tester.hpp 15-78).  The pointer is not initialized:
`none`. -/
structure Tester (K : Type) where
  settings : TesterSettings K
  linear : LinearModel K × TestMembers K
  kriging : Kriging K × TestMembers K
  pointer : Option TestedObject

/-- The calls that set up a tester (surrogate_model_tester.hpp 51-76). -/
inductive TesterCall (K : Type)
  | setName (name : Str)
  | setDimension (n : Nat)
  | setNumberOfTrainingIterations (n : Nat)
  | setRatioValidationSamples (value : K)
  | setSurrogateModel (type : TestedType)
  | bindSurrogateModels
  | setBoxConstraints (b : Bounds K)
  | setFileNameTrainingData (name : Str)
  | setFileNameTestData (name : Str)
  | setReadWarmStart (flag : Bool)
  | setVariances (flag : Bool)

/-- The random numbers of a test: the search for hyperparameters and the shuffles of the samples. -/
structure TesterEnv (K : Type) where
  env : Nat → EAEnv K
  schedule : List Nat
  perm : List Nat
  permL : List Nat

namespace Tester

/-- A new object (surrogate_model_tester.hpp 15-78). -/
def new : Tester K :=
  ⟨⟨[], 0, .mk0, [], [], none, false, 10000, false, false⟩, (LinearModel.new, .new), (Kriging.new, .new), none⟩

/-- `checkFilename` (surrogate_model_tester.cpp 177-198). -/
def checkFilename (name : Str) : Res Unit :=
  if name = [] then .error .invalidArgument
  else if name.any fun c => decide (c ∈ "\\/:*?\"<>|".toList) then .error .invalidArgument
  else if name.length < 4 ∨ name.drop (name.length - 4) ≠ ".csv".toList then .error .invalidArgument
  else .ok ()

/-- `setNumberOfTrainingIterations` (surrogate_model_tester.cpp 24-30). -/
def setNumberOfTrainingIterations (t : Tester K) (n : Nat) : Tester K × Res Unit :=
  let t := { t with settings := { t.settings with iterations := n } }
  if t.settings.bound then
    match t.pointer with
    | none => (t, .error .ub)
    | some .linear => (t, .ok ())
    | some .kriging =>
      ({ t with kriging := (t.kriging.1.setNumberOfTrainingIterations n, t.kriging.2) }, .ok ())
  else (t, .ok ())

/-- `setRatioValidationSamples` (surrogate_model_tester.cpp 40-47): no value satisfies the condition of
its check.  The flag `ifHasValidationSamples` of a linear model is not modelled: nothing reads it. -/
def setRatioValidationSamples (t : Tester K) (value : K) : Tester K × Res Unit :=
  match t.pointer with
  | none => (t, .error .ub)
  | some .linear => commit t (do
      let d ← t.linear.1.data.setValidationRatio value
      .ok { t with linear := ({ t.linear.1 with data := d }, t.linear.2) })
  | some .kriging => commit t (do
      let k ← t.kriging.1.setRatioValidationSamples value
      .ok { t with kriging := (k, t.kriging.2) })

/-- `bindSurrogateModels` (surrogate_model_tester.cpp 58-90); `ifMultiLevel` is false. -/
def bindSurrogateModels (t : Tester K) : Tester K × Res Unit :=
  let done (t : Tester K) : Tester K × Res Unit :=
    ({ t with settings := { t.settings with bound := true } }, .ok ())
  match t.settings.type with
  | none => (t, .error .runtimeError)
  | some .linear => done { t with pointer := some .linear }
  | some .ordinary => done { t with pointer := some .kriging }
  | some .universal => done { t with
      kriging := (t.kriging.1.setLinearRegression true, t.kriging.2)
      pointer := some .kriging }
  | some .other => done t

/-- The calls that set up a tester (surrogate_model_tester.cpp 14-105, 202-216). -/
def call (t : Tester K) : TesterCall K → Tester K × Res Unit
  | .setName name =>
    if name = [] then (t, .error .abort)
    else ({ t with settings := { t.settings with name := name } }, .ok ())
  | .setDimension n => ({ t with settings := { t.settings with dimension := n } }, .ok ())
  | .setNumberOfTrainingIterations n => t.setNumberOfTrainingIterations n
  | .setRatioValidationSamples v => t.setRatioValidationSamples v
  | .setSurrogateModel type => ({ t with settings := { t.settings with type := some type } }, .ok ())
  | .bindSurrogateModels => t.bindSurrogateModels
  | .setBoxConstraints b =>
    ({ t with settings := { t.settings with box := b } },
      if b.isSet = false then .error .runtimeError else .ok ())
  | .setFileNameTrainingData name => commit t (do
      checkFilename name
      .ok { t with settings := { t.settings with trainingFile := name } })
  | .setFileNameTestData name => commit t (do
      checkFilename name
      .ok { t with settings := { t.settings with testFile := name } })
  | .setReadWarmStart f => ({ t with settings := { t.settings with readWarm := f } }, .ok ())
  | .setVariances f => ({ t with settings := { t.settings with variances := f } }, .ok ())

/-- The checks of `performSurrogateModelTest` (surrogate_model_tester.cpp 109-116). -/
def check (t : Tester K) : Res Unit :=
  if t.settings.box.isSet = false then .error .runtimeError
  else if t.settings.bound = false then .error .abort
  else if t.settings.name = [] then .error .abort
  else if t.settings.dimension = 0 then .error .abort
  else do
    checkFilename t.settings.trainingFile
    checkFilename t.settings.testFile

/-- `performSurrogateModelTest` (surrogate_model_tester.cpp 107-174): the tester and the files, and the
training error that is logged.  A test that does not reach the results file leaves its content. -/
def perform [FloorRing K] (t : Tester K) (F : Fns K) (R : TesterEnv K) (files : Files) :
    (Tester K × Files) × Res K :=
  match t.check with
  | .error e => ((t, files), .error e)
  | .ok () =>
    let training := files t.settings.trainingFile
    let test := files t.settings.testFile
    let hyper := files (t.settings.name ++ "_hyperparameters.csv".toList)
    match t.pointer with
    | none => ((t, files), .error .ub)
    | some .linear =>
      let p := (linearClass R.perm).perform t.settings training test hyper
        (t.linear, files t.linear.2.resultsName)
      (({ t with linear := p.1.1 }, files.put t.linear.2.resultsName p.1.2), p.2)
    | some .kriging =>
      let p := (krigingClass F R.env R.schedule R.perm R.permL).perform t.settings training test hyper
        (t.kriging, files t.kriging.2.resultsName)
      (({ t with kriging := p.1.1 }, files.put t.kriging.2.resultsName p.1.2), p.2)

end Tester
end Rodeo
