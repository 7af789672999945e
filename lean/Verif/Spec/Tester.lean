import Verif.Model.Tester

/-! # What the calls that set up a test of a model ask for -/

namespace Rodeo.Spec

open Text

variable {K : Type} [Field K] [LinearOrder K] [IsStrictOrderedRing K]

/-- A name that a data file of a test can have: it ends with `.csv` and has no character that some file system
does not allow. -/
def CsvName (name : Str) : Prop :=
  ".csv".toList <:+ name ∧ ∀ c ∈ name, c ∉ ['\\', '/', ':', '*', '?', '"', '<', '>', '|']

/-- The last value that `f` finds in a list. -/
def lastOf {α β : Type} (f : α → Option β) (l : List α) : Option β := (l.filterMap f).getLast?

/-- The name that a call sets. -/
def nameSet : TesterCall K → Option Str
  | .setName n => some n
  | _ => none

/-- The dimension that a call sets. -/
def dimensionSet : TesterCall K → Option Nat
  | .setDimension n => some n
  | _ => none

/-- The number of training iterations that a call sets. -/
def iterationsSet : TesterCall K → Option Nat
  | .setNumberOfTrainingIterations n => some n
  | _ => none

/-- The box that a call sets. -/
def boxSet : TesterCall K → Option (Bounds K)
  | .setBoxConstraints b => some b
  | _ => none

/-- The name of the training data file that a call sets. -/
def trainingSet : TesterCall K → Option Str
  | .setFileNameTrainingData n => some n
  | _ => none

/-- The name of the test data file that a call sets. -/
def testSet : TesterCall K → Option Str
  | .setFileNameTestData n => some n
  | _ => none

/-- The type of the model that a call sets. -/
def typeSet : TesterCall K → Option TestedType
  | .setSurrogateModel t => some t
  | _ => none

/-- The flag of the warm start that a call sets. -/
def warmSet : TesterCall K → Option Bool
  | .setReadWarmStart f => some f
  | _ => none

/-- The flag of the variances that a call sets. -/
def variancesSet : TesterCall K → Option Bool
  | .setVariances f => some f
  | _ => none

/-- Calls one after another up to the first exception. -/
def testerCalls (t : Tester K) : List (TesterCall K) → Tester K × Res Unit
  | [] => (t, .ok ())
  | c :: cs => andThen (t.call c) fun t => testerCalls t cs

/-- The types of the model at the calls of `bindSurrogateModels`, where `type` is the type at the
beginning. -/
def boundTypes : Option TestedType → List (TesterCall K) → List TestedType
  | _, [] => []
  | type, c :: cs => (if c matches .bindSurrogateModels then type.toList else []) ++
      boundTypes ((typeSet c).or type) cs

/-- The class of the models of a type; there is none for the types that cannot be tested. -/
def objectOf : TestedType → Option TestedObject
  | .linear => some .linear
  | .ordinary => some .kriging
  | .universal => some .kriging
  | .other => none

/-- No call asks for validation samples. -/
def NoValidation (cs : List (TesterCall K)) : Prop := ∀ v, TesterCall.setRatioValidationSamples v ∉ cs

end Rodeo.Spec
