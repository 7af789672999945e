import Verif.Model.Evaluate

/-! # Model of the surrogate models of objective and constraint functions
(`ObjectiveFunctions/objective_function.cpp`, `ObjectiveFunctions/constraint_functions.cpp`)

A function of the optimization problem owns a Kriging model; its training data are in a file.  One
fidelity, values without derivatives.  The flag for a warm start is never set (objective_function.hpp 129
is its only occurrence besides the test), so that the hyperparameter file is neither read nor written. -/

namespace Rodeo

open Text

variable {K : Type} [Field K] [LinearOrder K] [IsStrictOrderedRing K]

/-- `SURROGATE_MODEL` (surrogate_model.hpp): the two types that can be bound, and the others. -/
inductive ModelKind where
  | ordinary
  | universal
  | other
  deriving DecidableEq

/-- The members of `ObjectiveFunction` for the surrogate model (objective_function.hpp 36-48, 99-135).
`bound` is whether the pointer `surrogate` has been set. -/
structure SurrogateFn (K : Type) where
  /-- `definition.name` -/
  name : Str
  /-- `definition.nameHighFidelityTrainingData` -/
  fileName : Str
  /-- `definition.modelHiFi` -/
  kind : ModelKind
  dim : Nat
  box : Bounds K
  /-- `ifParameterBoundsAreSet` -/
  boundsSet : Bool
  /-- `ifDefinitionIsSet` -/
  definitionSet : Bool
  /-- `numberOfIterationsForSurrogateTraining` -/
  iterations : Nat
  bound : Bool
  /-- `ifInitialized` -/
  initialized : Bool
  /-- `surrogateModel` -/
  krig : Kriging K

namespace SurrogateFn

/-- A call on the Kriging model. -/
def onModel (s : SurrogateFn K) (p : Kriging K × Res Unit) : SurrogateFn K × Res Unit :=
  ({ s with krig := p.1 }, p.2)

/-- `bindSurrogateModel` (objective_function.cpp 218-258): other types leave the pointer as it is. -/
def bindSurrogateModel (s : SurrogateFn K) : SurrogateFn K × Res Unit :=
  if s.definitionSet = false then (s, .error .runtimeError)
  else match s.kind with
    | .ordinary => ({ s with bound := true }, .ok ())
    | .universal => ({ s with bound := true, krig := s.krig.setLinearRegression true }, .ok ())
    | .other => (s, .ok ())

/-- The number of rows of a file, for the choice of the shuffles. -/
def fileRows [FloorRing K] (file : Option Str) : Nat :=
  match (Mat.readFromCSV file false : Res (Mat K)) with
  | .ok A => A.nrows
  | .error _ => 0

/-- `initializeSurrogate` (objective_function.cpp 342-390) with the content of the training data file;
`perm n` and `permL n` are the shuffles of `n` rows by the two data objects.  Without a bound model the
pointer is not initialised; an empty name fails an assertion (surrogate_model.cpp 31-36). -/
def initializeSurrogate [FloorRing K] (F : Fns K) (s : SurrogateFn K) (file : Option Str)
    (perm permL : Nat → List Nat) : SurrogateFn K × Res Unit :=
  if s.boundsSet = false then (s, .error .runtimeError)
  else if s.definitionSet = false then (s, .error .runtimeError)
  else if s.dim = 0 then (s, .error .runtimeError)
  else
    andThen s.bindSurrogateModel fun s =>
    if s.bound = false then (s, .error .ub)
    else if s.name = [] then (s, .error .abort)
    else
      andThen (s.onModel (s.krig.setDimension s.dim, .ok ())) fun s =>
      andThen (s.onModel (commit s.krig (s.krig.setBoxConstraints s.box))) fun s =>
      if s.fileName = [] then (s, .error .invalidArgument)
      else
        andThen (rethrow (s.onModel
          (s.krig.readData file (perm (fileRows (K := K) file)) (permL (fileRows (K := K) file))))) fun s =>
        andThen (s.onModel s.krig.normalizeData) fun s =>
        andThen (s.onModel (s.krig.init F)) fun s =>
        ({ s with krig := s.krig.setNumberOfTrainingIterations s.iterations, initialized := true }, .ok ())

/-- `trainSurrogate` (objective_function.cpp 401-412). -/
def trainSurrogate [FloorRing K] (F : Fns K) (s : SurrogateFn K) (E : Nat → EAEnv K)
    (schedule : List Nat) : SurrogateFn K × Res Unit :=
  if s.initialized = false then (s, .error .abort)
  else
    let r := s.krig.train F E schedule none
    ({ s with krig := r.1.1 }, r.2)

/-- The part of `ObjectiveFunction::addDesignToData(d, "primal")` (objective_function.cpp 612-661) and
of `ConstraintFunction::addDesignToData` (constraint_functions.cpp 235-249) after the construction of the
sample: function, training data file and outcome.  The first throws `refused`, the assertions of the second
end the program. -/
def addSample [FloorRing K] (F : Fns K) (refused : Err) (s : SurrogateFn K) (file : Option Str)
    (sample : List K) (perm permL : Nat → List Nat) : (SurrogateFn K × Option Str) × Res Unit :=
  if s.fileName = [] ∨ s.initialized = false then ((s, file), .error refused)
  else if sample = [] then ((s, file), .error .abort)
  else
    let r := s.krig.addNewSampleToData F file sample (perm (s.krig.data.rawData.nrows + 1))
      (permL (s.krig.data.rawData.nrows + 1))
    (({ s with krig := r.1.1 }, r.1.2), r.2)

end SurrogateFn

/-- The functions of the problem, the objective (`none`) and the constraints by their position in the
list, and the files. -/
structure Models (K : Type) where
  fn : Option Nat → SurrogateFn K
  files : Files

namespace Models

/-- Another function in the place `key`. -/
def set (m : Models K) (key : Option Nat) (s : SurrogateFn K) : Models K :=
  { m with fn := Function.update m.fn key s }

/-- The training data file of a function. -/
def file (m : Models K) (key : Option Nat) : Option Str := m.files (m.fn key).fileName

/-- `initializeSurrogate` of one function. -/
def init [FloorRing K] (F : Fns K) (m : Models K) (key : Option Nat) (perm permL : Nat → List Nat) :
    Models K × Res Unit :=
  let r := (m.fn key).initializeSurrogate F (m.file key) perm permL
  (m.set key r.1, r.2)

/-- `trainSurrogate` of one function. -/
def train [FloorRing K] (F : Fns K) (m : Models K) (key : Option Nat) (E : Nat → EAEnv K)
    (schedule : List Nat) : Models K × Res Unit :=
  let r := (m.fn key).trainSurrogate F E schedule
  (m.set key r.1, r.2)

/-- `addDesignToData` of one function. -/
def add [FloorRing K] (F : Fns K) (refused : Err) (m : Models K) (key : Option Nat) (sample : List K)
    (perm permL : Nat → List Nat) : Models K × Res Unit :=
  let r := (m.fn key).addSample F refused (m.file key) sample perm permL
  ({ m.set key r.1.1 with files := m.files.put (m.fn key).fileName r.1.2 }, r.2)

end Models
end Rodeo
