import Verif.Model.Kriging
import Verif.Model.CSV

/-! # Testing a surrogate model on data (`SurrogateModels/surrogate_model.cpp`)

The functions of the base class that compare a model with data.  The virtual functions that predict are
a parameter (`Predictor`): they do not read the members that the functions of this file change. -/

namespace Rodeo

open Text

variable {K : Type} [Field K] [LinearOrder K] [IsStrictOrderedRing K]

/-- The virtual functions `interpolate`, `interpolateUsingDerivatives` and `interpolateWithVariance`
of a model (surrogate_model.hpp 167-169). -/
structure Predictor (K : Type) where
  value : List K → Res K
  usingDerivatives : List K → Res K
  withVariance : List K → Res (K × K)

/-- The argument `mode` of `tryOnTestData` and `calculateInSampleError`: the strings
`function_values` (the default), `with_derivatives`, `with_variances`, and all other strings. -/
inductive TestMode
  | functionValues | withDerivatives | withVariances | other
  deriving DecidableEq

/-- The prediction in the loop of `tryOnTestData` (surrogate_model.cpp 406-429): estimate and
variance. -/
def Predictor.estimate (P : Predictor K) (mode : TestMode) (x : List K) : Res (K × K) :=
  match mode with
  | .functionValues => do
    let f ← P.value x
    .ok (f, 0)
  | .withDerivatives => do
    let f ← P.usingDerivatives x
    .ok (f, 0)
  | .withVariances => P.withVariance x
  | .other => .error .runtimeError

/-- `vec::is_between` (vector.cpp 775-787). -/
def Vec.isBetween (v lb ub : List K) : Res Bool :=
  if v.length ≠ lb.length ∨ v.length ≠ ub.length then .error .invalidArgument
  else noneOf v.length fun i => do
    let x ← rawAt v i
    let l ← vat lb i
    let u ← vat ub i
    .ok (decide (x < l ∨ x > u))

namespace SMData

/-- `getRowXTest` (surrogate_model_data.cpp 526-532). -/
def getRowXTest (d : SMData K) (i : Nat) : Res (List K) :=
  if i < d.XTest.nrows then Mat.getRow d.XTest (i : Nat) else .error .abort

/-- `getRowXRawTest` (surrogate_model_data.cpp 544-549). -/
def getRowXRawTest (d : SMData K) (i : Nat) : Res (List K) :=
  if i < d.XrawTest.nrows then Mat.getRow d.XrawTest (i : Nat) else .error .abort

/-- `getOutputVectorTest` (surrogate_model_data.cpp 565-570). -/
def getOutputVectorTest (d : SMData K) : Res (List K) :=
  if d.isTestRead then Mat.getCol d.XrawTest (d.dimension : Nat) else .error .abort

end SMData

/-- The members of `SurrogateModel` that are used to test it (surrogate_model.hpp 58-130).
`standardDeviationOfGeneralizationError` is left out: nothing reads it. -/
structure ModelTest (K : Type) where
  data : SMData K
  dimension : Nat
  isInitialized : Bool
  isRead : Bool
  hasTestData : Bool
  isTestRead : Bool
  isTestNormalized : Bool
  results : Mat K
  generalizationError : K
  header : List Str
  resultsName : Str

namespace ModelTest

/-- `setNameOfInputFileTest` (surrogate_model.cpp 311-317). -/
def setNameOfInputFileTest (t : ModelTest K) (name : Str) : Res (ModelTest K) :=
  if name = [] then .error .abort else .ok { t with hasTestData := true }

/-- `setNameOfOutputFileTest` (surrogate_model.cpp 319-323). -/
def setNameOfOutputFileTest (t : ModelTest K) (name : Str) : Res (ModelTest K) :=
  if name = [] then .error .abort else .ok { t with resultsName := name }

/-- `readDataTest` (surrogate_model.cpp 127-134); `file` is the content of the test file.  The object
is taken as unchanged when it throws. -/
def readDataTest [FloorRing K] (t : ModelTest K) (file : Option Str) : Res (ModelTest K) := do
  if t.hasTestData = false then .error .abort
  else do
    let d ← t.data.readDataTest file
    .ok { t with data := d, isTestRead := true }

/-- `normalizeDataTest` (surrogate_model.cpp 162-167). -/
def normalizeDataTest (t : ModelTest K) : Res (ModelTest K) := do
  let d ← t.data.normalizeTest
  .ok { t with data := d, isTestNormalized := true }

/-- `interpolateVector` (surrogate_model.cpp 174-188). -/
def interpolateVector (P : Predictor K) (X : Mat K) : Res (List K) :=
  tab X.nrows fun i => do
    let x ← Mat.getRow X (i : Nat)
    P.value x

/-- The number of columns of the results (surrogate_model.cpp 370-383). -/
def entries (t : ModelTest K) (mode : TestMode) : Nat :=
  if t.data.testHasValues then
    if mode = .withVariances then t.data.dimension + 4 else t.data.dimension + 3
  else
    if mode = .withVariances then t.data.dimension + 2 else t.data.dimension + 1

/-- The true values (surrogate_model.cpp 391-394). -/
def exactValues (t : ModelTest K) : Res (List K) :=
  if t.data.testHasValues then t.data.getOutputVectorTest else .ok []

/-- The true value and the squared error of row `i`, if the test data have values
(surrogate_model.cpp 434-439): the row and the squared errors so far.  `pow(t, 2.0)` is `t * t`. -/
def addError (t : ModelTest K) (fExact : List K) (i : Nat) (f : K) (sample errs : List K) :
    Res (List K × List K) :=
  if t.data.testHasValues then do
    let e ← vat fExact i
    let s ← Vec.pushBack sample e
    let s ← Vec.pushBack s ((e - f) * (e - f))
    .ok (s, errs ++ [(e - f) * (e - f)])
  else .ok (sample, errs)

/-- The variance of a row, in the mode with variances (surrogate_model.cpp 452-457). -/
def addVariance (mode : TestMode) (v : K) (sample : List K) : Res (List K) :=
  if mode = .withVariances then Vec.pushBack sample v else .ok sample

/-- The body of the loop of `tryOnTestData` (surrogate_model.cpp 402-460): the results and the squared
errors. -/
def tryRow (t : ModelTest K) (P : Predictor K) (mode : TestMode) (fExact : List K) (i : Nat)
    (s : Mat K × List K) : Res (Mat K × List K) := do
  let xp ← t.data.getRowXTest i
  let row ← t.data.getRowXRawTest i
  let x ← Vec.head row t.dimension
  let fv ← P.estimate mode xp
  let sample ← Vec.pushBack x fv.1
  let se ← t.addError fExact i fv.1 sample s.2
  let sample ← addVariance mode fv.2 se.1
  let R ← Mat.setRow s.1 sample i
  .ok (R, se.2)

/-- The mean of the squared errors, if the test data have values (surrogate_model.cpp 462-466). -/
def meanError (t : ModelTest K) (errs : List K) : Res K :=
  if t.data.testHasValues then Vec.mean errs else .ok t.generalizationError

/-- `SurrogateModel::tryOnTestData` (surrogate_model.cpp 363-473).  The members are assigned at the
end, so an exception leaves the object as it was. -/
def tryOnTestData (t : ModelTest K) (P : Predictor K) (mode : TestMode) : Res (ModelTest K) :=
  if t.isTestNormalized = false then .error .runtimeError
  else do
    let n := t.data.numberOfTestSamples
    let fExact ← t.exactValues
    let s ← forRange n (t.tryRow P mode fExact)
      (⟨n, t.entries mode, List.replicate (n * t.entries mode) 0⟩, [])
    let g ← t.meanError s.2
    .ok { t with results := s.1, generalizationError := g }

/-- `SurrogateModel::calculateOutSampleError` (surrogate_model.cpp 238-255): the object and the
error. -/
def calculateOutSampleError (t : ModelTest K) (P : Predictor K) : Res (ModelTest K × K) :=
  if t.hasTestData = false then .error .runtimeError
  else if t.data.testHasValues = false then .error .runtimeError
  else do
    let t ← t.tryOnTestData P .functionValues
    let c ← Mat.getCol t.results (t.data.dimension + 2 : Nat)
    let e ← Vec.mean c
    .ok (t, e)

/-- The estimate in the loop of `calculateInSampleError` (surrogate_model.cpp 212-225). -/
def inSampleEstimate (P : Predictor K) (mode : TestMode) (x : List K) : Res K :=
  match mode with
  | .functionValues => P.value x
  | .withDerivatives => P.usingDerivatives x
  | _ => .error .runtimeError

/-- `SurrogateModel::calculateInSampleError` (surrogate_model.cpp 191-234). -/
def calculateInSampleError (t : ModelTest K) (P : Predictor K) (mode : TestMode) : Res K :=
  if t.isInitialized = false then .error .runtimeError
  else do
    let fExact ← Mat.getCol t.data.rawData (t.dimension : Nat)
    let s ← Mat.sumLoop t.data.numberOfSamples fun i => do
      let x ← Mat.getRow t.data.X (i : Nat)
      let f ← inSampleEstimate P mode x
      let e ← vat fExact i
      .ok ((f - e) * (f - e))
    fdiv s (t.data.numberOfSamples : K)

/-- `SurrogateModel::countHowManySamplesAreWithinBounds` (surrogate_model.cpp 136-159). -/
def countWithinBounds (t : ModelTest K) (lb ub : List K) : Res Nat :=
  if t.isRead = false then .error .abort
  else forRange t.data.numberOfSamples (fun i c => do
    let row ← Mat.getRow t.data.rawData (i : Nat)
    let x ← Vec.head row t.data.dimension
    let inside ← Vec.isBetween x lb ub
    .ok (if inside then c + 1 else c)) 0

/-- `writeFileHeaderForTestResults` (surrogate_model.cpp 257-269): the names are appended. -/
def writeHeader (t : ModelTest K) : ModelTest K :=
  { t with header := t.header ++
      ((List.range t.data.dimension).map (fun i => 'x' :: natStr (i + 1)) ++ ["Estimated value".toList] ++
        if t.data.testHasValues then ["True value".toList, "Squared Error".toList] else []) }

section save
variable [FloorRing K]

/-- `SurrogateModel::saveTestResults` (surrogate_model.cpp 271-282): the object, the content of the
results file and the outcome.  `old` is the content of the file before. -/
def saveTestResults (t : ModelTest K) (old : Option Str) : (ModelTest K × Option Str) × Res Unit :=
  if t.resultsName = [] then ((t, old), .error .runtimeError)
  else
    let t := t.writeHeader
    let r := t.results.saveAsCSV 6 t.header
    ((t, some r.1), r.2)

/-- `SurrogateModel::saveTestResultsWithVariance` (surrogate_model.cpp 285-298). -/
def saveTestResultsWithVariance (t : ModelTest K) (old : Option Str) :
    (ModelTest K × Option Str) × Res Unit :=
  if t.resultsName = [] then ((t, old), .error .runtimeError)
  else
    let t := t.writeHeader
    let t := { t with header := t.header ++ ["Variance".toList] }
    let r := t.results.saveAsCSV 6 t.header
    ((t, some r.1), r.2)

end save

end ModelTest

/-- The predictions of a Kriging model (kriging_training.cpp 542-605); `interpolateUsingDerivatives`
throws (561-564). -/
def Kriging.predictor (F : Fns K) (k : Kriging K) : Predictor K :=
  ⟨k.interpolate F, fun _ => .error .logicError, k.interpolateWithVariance F⟩

/-- The predictions of a linear model (linear_regression.cpp 160-191); `interpolateWithVariance` and
`interpolateUsingDerivatives` throw. -/
def LinearModel.predictor (m : LinearModel K) : Predictor K :=
  ⟨m.interpolate, fun _ => .error .logicError, fun _ => .error .logicError⟩

/-- The members of a Kriging model that are used to test it, as long as it has not been tested
(surrogate_model.hpp 58-130). -/
def Kriging.test (k : Kriging K) : ModelTest K :=
  ⟨k.data, k.dimension, k.isInitialized, k.isRead, false, false, false, .empty, 0, [],
    "surrogateTestResults.csv".toList⟩

/-- The same for a linear model. -/
def LinearModel.test (m : LinearModel K) : ModelTest K :=
  ⟨m.data, m.dimension, m.isInitialized, m.isRead, false, false, false, .empty, 0, [],
    "surrogateTestResults.csv".toList⟩

end Rodeo
