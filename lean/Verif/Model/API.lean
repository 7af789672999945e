import Verif.Model.Bounds
import Verif.Model.Sampling
import Verif.Model.CSV
import Verif.Model.Parse

/-! # Model of the C++ interface (`API/cppAPI.cpp`, `API/INCLUDE/rodeo.h`)

`F` is the type of function pointers; the null pointer is `none`.  What a call of a function pointer
delivers is a parameter `eval : F → List K → Res K`; an error stands for an exception derived from
`std::exception`.  The optimizer behind the interface is modelled as far as the interface writes to it. -/

namespace Rodeo.API

open Text

variable {K : Type} [Field K] [LinearOrder K] [IsStrictOrderedRing K] [FloorRing K]
variable {F : Type}

/-- The parts of an `ObjectiveFunction` (objective_function.hpp) the interface sets. -/
structure Objective (K F : Type) where
  fn : F
  name : Str
  /-- `definition.nameHighFidelityTrainingData`: the file the surrogate model reads. -/
  file : Str
  dim : Nat
  /-- `boxConstraints`, when set. -/
  box : Option (Bounds K)
  deriving DecidableEq

/-- The parts of a `ConstraintFunction` (constraint_functions.hpp) the interface sets. -/
structure Constraint (K F : Type) where
  base : Objective K F
  inequality : Str
  value : K
  id : Nat
  deriving DecidableEq

/-- The parts of an `Optimizer` (optimization.hpp) the interface sets. -/
structure Opt (K F : Type) where
  name : Str
  dimension : Nat
  lb : List K
  ub : List K
  /-- `objFun`; `none` while `ifObjectFunctionIsSpecied` is false. -/
  obj : Option (Objective K F)
  constraints : List (Constraint K F)
  numberOfConstraints : Nat
  /-- `globalOptimalDesign.dimension`. -/
  globalDim : Nat
  globalBox : Option (Bounds K)
  boxSet : Bool
  maxSamples : Nat
  deriving DecidableEq

/-- The data members of `RobustDesignOptimizer` (rodeo.h 21-46).  `samplesInput` is local to the
initial sampling. -/
structure Study (K F : Type) where
  opt : Opt K F
  dimension : Nat
  evaluations : Nat
  startWithDoE : Bool
  samplesForDoE : Nat
  file : Str
  constraintFiles : List Str
  dimSet : Bool
  objSet : Bool
  boxSet : Bool
  lb : List K
  ub : List K
  objFn : Option F
  constraintFns : List F
  cwd : Str
  doe : Str
  name : Str
  numberOfConstraints : Nat
  deriving DecidableEq

/-- The default name of a study. -/
def defaultName : Str := "OptimizationStudy".toList

/-- `RobustDesignOptimizer::RobustDesignOptimizer` (cppAPI.cpp 29-33). -/
def new : Study K F where
  opt := ⟨defaultName, 0, [], [], none, [], 0, 0, none, false, 0⟩
  dimension := 0
  evaluations := 0
  startWithDoE := false
  samplesForDoE := 0
  file := []
  constraintFiles := []
  dimSet := false
  objSet := false
  boxSet := false
  lb := []
  ub := []
  objFn := none
  constraintFns := []
  cwd := []
  doe := "random".toList
  name := defaultName
  numberOfConstraints := 0

/-- `setName` (cppAPI.cpp 44-54). -/
def setName (s : Study K F) (name : Str) : Study K F × Res Unit :=
  if name = [] then (s, .error .invalidArgument)
  else ({ s with name := name, opt := { s.opt with name := name } }, .ok ())

/-- `setCurrentWorkingDirectory` (cppAPI.cpp 57-64). -/
def setCwd (isDir : Str → Bool) (s : Study K F) (dir : Str) : Study K F × Res Unit :=
  if dir = [] ∨ isDir dir = false then (s, .error .invalidArgument)
  else ({ s with cwd := dir }, .ok ())

/-- `::tolower` in the C locale. -/
def lower (c : Char) : Char := if 65 ≤ c.toNat ∧ c.toNat ≤ 90 then Char.ofNat (c.toNat + 32) else c

/-- `setDoEStrategy` (cppAPI.cpp 67-80). -/
def setDoEStrategy (s : Study K F) (input : Str) : Study K F × Res Unit :=
  if input = [] then (s, .error .invalidArgument)
  else
    let low := input.map lower
    if low ≠ "lhs".toList ∧ low ≠ "random".toList then (s, .error .invalidArgument)
    else ({ s with doe := low }, .ok ())

/-- The loop of `setBoxConstraints` (cppAPI.cpp 91-99): the members after the loop and its outcome.
`lb` and `ub` are the caller's arrays. -/
def pushBounds (lb ub : List K) : Nat → Nat → List K → List K → List K × List K × Res Unit
  | 0, _, L, U => (L, U, .ok ())
  | n + 1, i, L, U =>
    match rawAt lb i, rawAt ub i with
    | .ok l, .ok u =>
      if l ≥ u then (L, U, .error .invalidArgument)
      else pushBounds lb ub n (i + 1) (L ++ [l]) (U ++ [u])
    | .error e, _ => (L, U, .error e)
    | _, .error e => (L, U, .error e)

/-- `ObjectiveFunction::setParameterBounds` (objective_function.cpp 323-339). -/
def Objective.setParameterBounds (o : Objective K F) (b : Bounds K) : Res (Objective K F) :=
  if o.dim > 0 ∧ o.dim ≠ b.dim then .error .invalidArgument
  else if b.isSet = false then .error .invalidArgument
  else .ok { o with box := some b }

/-- The loop over the constraints (optimization_setter_getters.cpp 66-70): the constraints afterwards
and the outcome. -/
def boundConstraints (b : Bounds K) : List (Constraint K F) → List (Constraint K F) × Res Unit
  | [] => ([], .ok ())
  | c :: cs =>
    match c.base.setParameterBounds b with
    | .error e => (c :: cs, .error e)
    | .ok o =>
      let r := boundConstraints b cs
      ({ c with base := o } :: r.1, r.2)

/-- The test of the bounds (optimization_setter_getters.cpp 57-61): is some lower bound greater than
the upper one. -/
def someAbove : List K → List K → Bool
  | l :: ls, u :: us => decide (l > u) || someAbove ls us
  | _, _ => false

/-- `Optimizer::setBoxConstraints` (optimization_setter_getters.cpp 49-74). -/
def Opt.setBoxConstraints (o : Opt K F) (b : Bounds K) : Opt K F × Res Unit :=
  let o1 := { o with lb := b.lb, ub := b.ub }
  if b.lb.length ≠ b.ub.length then (o1, .error .invalidArgument)
  else if someAbove b.lb b.ub then (o1, .error .invalidArgument)
  else
    match o.obj with
    | none => (o1, .error .abort)
    | some f =>
      match f.setParameterBounds b with
      | .error e => (o1, .error e)
      | .ok f' =>
        let o2 := { o1 with obj := some f' }
        let r := boundConstraints b o.constraints
        let o3 := { o2 with constraints := r.1 }
        match r.2 with
        | .error e => (o3, .error e)
        | .ok () =>
          -- globalOptimalDesign.setBoxConstraints (globalOptimalDesign.cpp 12-27)
          if b.isSet = false then (o3, .error .invalidArgument)
          else if o.globalDim ≠ b.dim then (o3, .error .invalidArgument)
          else ({ o3 with globalBox := some b, boxSet := true }, .ok ())

/-- `setBoxConstraints` (cppAPI.cpp 86-109). -/
def setBoxConstraints (s : Study K F) (lb ub : List K) : Study K F × Res Unit :=
  if s.dimension = 0 then (s, .error .invalidArgument)
  else
    let r := pushBounds lb ub s.dimension 0 s.lb s.ub
    let s1 := { s with lb := r.1, ub := r.2.1 }
    match r.2.2 with
    | .error e => (s1, .error e)
    | .ok () =>
      match (Bounds.mk0.setDimension s.dimension).setStd s1.lb s1.ub with
      | (_, .error e) => (s1, .error e)
      | (b, .ok ()) =>
        match s1.opt.setBoxConstraints b with
        | (o, .error e) => ({ s1 with opt := o }, .error e)
        | (o, .ok ()) => ({ s1 with opt := o, boxSet := true }, .ok ())

/-- `setNameOfTrainingDataFile` (cppAPI.cpp 111-117): assigns the name of the study. -/
def setNameOfTrainingDataFile (s : Study K F) (filename : Str) : Study K F × Res Unit :=
  if filename = [] then (s, .error .invalidArgument)
  else ({ s with file := s.name }, .ok ())

/-- `setDimension` (cppAPI.cpp 119-124) with `Optimizer::setDimension`
(optimization_setter_getters.cpp 96-108), `initializeBoundsForAcquisitionFunctionMaximization`
(optimization.cpp 38-48) and `Design::setDimension` (design.cpp 43-54). -/
def setDimension (s : Study K F) (dim : Nat) : Study K F × Res Unit :=
  let o := { s.opt with dimension := dim, lb := Vec.resize s.opt.lb dim, ub := Vec.resize s.opt.ub dim }
  if dim = 0 then ({ s with dimension := dim, opt := o }, .error .runtimeError)
  else ({ s with dimension := dim, dimSet := true, opt := { o with globalDim := dim } }, .ok ())

/-- `setObjectiveFunction` (cppAPI.cpp 126-161) with `Optimizer::addObjectFunction`
(optimization.cpp 104-116). -/
def setObjectiveFunction (s : Study K F) (fn : Option F) (functionName filename : Str) :
    Study K F × Res Unit :=
  if filename = [] then (s, .error .invalidArgument)
  else if functionName = [] then (s, .error .invalidArgument)
  else
    match fn with
    | none => (s, .error .invalidArgument)
    | some f =>
      let s1 := { s with objFn := some f, file := filename }
      if s.opt.obj.isSome then (s1, .error .abort)
      else
        ({ s1 with opt := { s.opt with obj := some ⟨f, functionName, filename, s.dimension, none⟩ },
                   objSet := true }, .ok ())

/-- `addConstraint` (cppAPI.cpp 200-262) with `Optimizer::addConstraint`
(optimization_constraint_functions.cpp 21-28) and `Design::setNumberOfConstraints` (design.cpp 58-77),
which throws for dimension 0 after the constraint has been stored.  The tests of the parsed expression
(cppAPI.cpp 221-228) cannot fail and are left out. -/
def addConstraint (s : Study K F) (fn : Option F) (expression filename : Str) : Study K F × Res Unit :=
  if filename = [] then (s, .error .invalidArgument)
  else if expression = [] then (s, .error .invalidArgument)
  else
    match fn with
    | none => (s, .error .invalidArgument)
    | some f =>
      match (Parse.parseExpression expression : Res (Parse.Expr K)) with
      | .error e => (s, .error e)
      | .ok ex =>
        let c : Constraint K F :=
          ⟨⟨f, ex.name, filename, s.dimension, none⟩, ex.inequality, ex.value, s.numberOfConstraints⟩
        let s1 := { s with
          constraintFns := s.constraintFns ++ [f]
          constraintFiles := s.constraintFiles ++ [filename]
          numberOfConstraints := s.numberOfConstraints + 1
          opt := { s.opt with
            constraints := s.opt.constraints ++ [c]
            numberOfConstraints := s.opt.numberOfConstraints + 1 } }
        if s.opt.globalDim = 0 then (s1, .error .invalidArgument) else (s1, .ok ())

/-- `setDoEOn` (cppAPI.cpp 266-270). -/
def setDoEOn (s : Study K F) (n : Nat) : Study K F × Res Unit :=
  ({ s with samplesForDoE := n, startWithDoE := true }, .ok ())

/-- `setMaxNumberOfFunctionEvaluations` (cppAPI.cpp 272-276). -/
def setMaxEvaluations (s : Study K F) (n : Nat) : Study K F × Res Unit :=
  ({ s with evaluations := n, opt := { s.opt with maxSamples := n } }, .ok ())

/-- The calls that configure a study. -/
inductive Call (K F : Type) where
  | setName (name : Str)
  | setCwd (dir : Str)
  | setDoEStrategy (input : Str)
  | setBoxConstraints (lb ub : List K)
  | setNameOfTrainingDataFile (filename : Str)
  | setDimension (dim : Nat)
  | setObjectiveFunction (fn : Option F) (functionName filename : Str)
  | addConstraint (fn : Option F) (expression filename : Str)
  | setDoEOn (n : Nat)
  | setMaxEvaluations (n : Nat)

/-- One call; an exception leaves the object in the returned state. -/
def step (isDir : Str → Bool) (s : Study K F) : Call K F → Study K F × Res Unit
  | .setName n => setName s n
  | .setCwd d => setCwd isDir s d
  | .setDoEStrategy i => setDoEStrategy s i
  | .setBoxConstraints lb ub => setBoxConstraints s lb ub
  | .setNameOfTrainingDataFile f => setNameOfTrainingDataFile s f
  | .setDimension d => setDimension s d
  | .setObjectiveFunction f n file => setObjectiveFunction s f n file
  | .addConstraint f e file => addConstraint s f e file
  | .setDoEOn n => setDoEOn s n
  | .setMaxEvaluations n => setMaxEvaluations s n

/-- A failed assertion or undefined behaviour ends the process; everything else is an exception the
caller can catch. -/
def fatal : Res Unit → Bool
  | .error .abort => true
  | .error .ub => true
  | _ => false

/-- A history of calls whose exceptions are caught by the caller; `none` if the process ended. -/
def calls (isDir : Str → Bool) (s : Study K F) : List (Call K F) → Option (Study K F)
  | [] => some s
  | c :: cs => if fatal (step isDir s c).2 then none else calls isDir (step isDir s c).1 cs

/-! ## The initial sampling -/

/-- What can be observed of a run: evaluations of the user's functions, and changes of files.  A
character is the unit of writing; a buffered stream writes several characters at once, so the states
of a file a crash can leave are among the states after a prefix of the events. -/
inductive Event (K : Type) where
  | evalObjective (x : List K)
  | evalConstraint (k : Nat) (x : List K)
  | truncate (file : Str)
  | put (file : Str) (c : Char)
  deriving DecidableEq

/-- The surroundings of a run: the user's functions, the files that can be opened for writing, the
random draws and shuffles. -/
structure Env (K F : Type) where
  eval : F → List K → Res K
  canOpen : Str → Bool
  u : Nat → Nat → K
  perm : Nat → List Nat

/-- `generateDoESamplesInput` (cppAPI.cpp 323-334); `samplesInput` is empty before the first call. -/
def generateSamples (E : Env K F) (s : Study K F) : Res (Mat K) :=
  if s.doe = "random".toList then do
    let A ← Mat.resize Mat.empty s.samplesForDoE s.dimension
    Mat.fillRandom A s.lb s.ub E.u
  else if s.doe = "lhs".toList then do
    let A ← Mat.resize Mat.empty s.samplesForDoE s.dimension
    Mat.fillRandomLHS A s.lb s.ub E.u E.perm
  else .error .invalidArgument

/-- `trainingData.saveAsCSV(file)` (matrix.cpp 945-989, precision 6, no header): the events and the
outcome. -/
def save (E : Env K F) (A : Mat K) (file : Str) : List (Event K) × Res Unit :=
  if E.canOpen file = false then ([], .error .runtimeError)
  else
    let r := A.saveAsCSV 6 []
    (.truncate file :: r.1.map (.put file), r.2)

/-- The loop of `performDoE` (cppAPI.cpp 352-373) from sample `i` on, `n` samples remaining. -/
def objectiveLoop (E : Env K F) (fn : F) (file : Str) (S : Mat K) :
    Nat → Nat → Mat K → List (Event K) × Res Unit
  | 0, _, _ => ([], .ok ())
  | n + 1, i, T =>
    match S.getRow (i : Int) with
    | .error e => ([], .error e)
    | .ok x =>
      match E.eval fn x with
      | .error _ => ([.evalObjective x], .error .runtimeError)
      | .ok f =>
        match T.addRow (x ++ [f]) (-1) with
        | .error e => ([.evalObjective x], .error e)
        | .ok T' =>
          match save E T' file with
          | (ev, .error _) => (.evalObjective x :: ev, .error .runtimeError)
          | (ev, .ok ()) =>
            let r := objectiveLoop E fn file S n (i + 1) T'
            (.evalObjective x :: ev ++ r.1, r.2)

/-- The inner loop of `performDoEForConstraints` (cppAPI.cpp 290-308): the events and the training
data. -/
def constraintRows (E : Env K F) (k : Nat) (fn : F) (S : Mat K) :
    Nat → Nat → Mat K → List (Event K) × Res (Mat K)
  | 0, _, T => ([], .ok T)
  | n + 1, i, T =>
    match S.getRow (i : Int) with
    | .error e => ([], .error e)
    | .ok x =>
      match E.eval fn x with
      | .error e => ([.evalConstraint k x], .error e)
      | .ok f =>
        match T.addRow (x ++ [f]) (-1) with
        | .error e => ([.evalConstraint k x], .error e)
        | .ok T' =>
          let r := constraintRows E k fn S n (i + 1) T'
          (.evalConstraint k x :: r.1, r.2)

/-- The outer loop of `performDoEForConstraints` (cppAPI.cpp 285-319) from constraint `k` on, `n`
constraints remaining; the vectors are indexed without a test. -/
def constraintLoop (E : Env K F) (s : Study K F) (S : Mat K) : Nat → Nat → List (Event K) × Res Unit
  | 0, _ => ([], .ok ())
  | n + 1, k =>
    match s.constraintFns[k]?, s.constraintFiles[k]? with
    | some fn, some file =>
      match constraintRows E k fn S s.samplesForDoE 0 Mat.empty with
      | (ev, .error e) => (ev, .error e)
      | (ev, .ok T) =>
        match save E T file with
        | (ev', .error e) => (ev ++ ev', .error e)
        | (ev', .ok ()) =>
          let r := constraintLoop E s S n (k + 1)
          (ev ++ ev' ++ r.1, r.2)
    | _, _ => ([], .error .ub)

/-- `performDoEForConstraints` (cppAPI.cpp 278-320), called if there are constraints
(cppAPI.cpp 376-378). -/
def constraintsDoE (E : Env K F) (s : Study K F) (S : Mat K) : List (Event K) × Res Unit :=
  if s.numberOfConstraints > 0 then
    if s.constraintFns = [] then ([], .error .runtimeError)
    else constraintLoop E s S s.numberOfConstraints 0
  else ([], .ok ())

/-- `performDoE` (cppAPI.cpp 336-379): the events and the outcome. -/
def performDoE (E : Env K F) (s : Study K F) : List (Event K) × Res Unit :=
  match generateSamples E s with
  | .error e => ([], .error e)
  | .ok S =>
    match s.objFn with
    | none => ([], .error .runtimeError)
    | some fn =>
      if s.samplesForDoE = 0 then ([], .error .runtimeError)
      else
        match objectiveLoop E fn s.file S s.samplesForDoE 0 Mat.empty with
        | (ev, .error e) => (ev, .error e)
        | (ev, .ok ()) =>
          let r := constraintsDoE E s S
          (ev ++ r.1, r.2)

/-- `checkOptimizationSettings` (cppAPI.cpp 383-397). -/
def checkSettings (s : Study K F) : Res Unit :=
  if s.evaluations = 0 then .error .invalidArgument
  else if s.dimSet = false then .error .invalidArgument
  else if s.boxSet = false then .error .invalidArgument
  else if s.objSet = false then .error .invalidArgument
  else .ok ()

/-- `run` (cppAPI.cpp 399-419) up to the start of the optimization. -/
def runDoE (isDir : Str → Bool) (E : Env K F) (s : Study K F) : List (Event K) × Res Unit :=
  match checkSettings s with
  | .error e => ([], .error e)
  | .ok () =>
    -- `chdir("")` fails
    if s.cwd = [] ∨ isDir s.cwd = false then ([], .error .invalidArgument)
    else if s.startWithDoE then
      if s.samplesForDoE = 0 then ([], .error .invalidArgument) else performDoE E s
    else ([], .ok ())

/-- The files, by name. -/
abbrev Files := Str → Option Str

/-- The effect of one event on the files. -/
def Event.apply (fs : Files) : Event K → Files
  | .truncate f => fun g => if g = f then some [] else fs g
  | .put f c => fun g => if g = f then (fs g).map (· ++ [c]) else fs g
  | _ => fs

/-- The files after a list of events. -/
def files (fs : Files) (ev : List (Event K)) : Files := ev.foldl Event.apply fs

end Rodeo.API
