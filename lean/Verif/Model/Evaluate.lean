import Verif.Model.Design
import Verif.Model.CSV
import Verif.Model.Kriging

/-! # Model of the evaluation of a design by an external program
(`ObjectiveFunctions/objective_function.cpp`, `ObjectiveFunctions/constraint_functions.cpp`,
`Optimizers/optimization_constraint_functions.cpp`)

The optimizer and a simulation program exchange files: the optimizer writes the design parameters, starts
the program, waits for it and reads a number from the output file.  The file system is a function from names
to contents.  A program is arbitrary: its exit code and the files it writes or removes may depend on all
files and on how many programs have been started before.  Programs that never end, files that change while
no program is running, and how `boost::process::child` splits the command line are not modelled. -/

namespace Rodeo

open Text

/-- The files by name; `none` is a file that does not exist. -/
abbrev Files := Str → Option Str

/-- Writing (`some`) or removing (`none`) a file. -/
def Files.put (fs : Files) (name : Str) (content : Option Str) : Files :=
  fun n => if n = name then content else fs n

/-- Several of them, in order. -/
def Files.putAll (fs : Files) (writes : List (Str × Option Str)) : Files :=
  writes.foldl (fun fs w => fs.put w.1 w.2) fs

/-- What a started program does: its exit code (`none` if it cannot be started or `child` throws for another
reason) and the files it writes or removes. -/
structure RunResult where
  exit : Option Int
  writes : List (Str × Option Str)

/-- The world outside of the optimizer. -/
structure Outside where
  /-- the program behind a command, given the number of programs started before and the files -/
  run : Nat → Str → Files → RunResult
  /-- whether a file of this name can be opened for writing -/
  writable : Str → Bool

/-- The part of the world the optimizer changes: the files, and the commands started so far. -/
structure Disk where
  files : Files
  started : List Str

/-- The exponent part of a number read by `>>`, and the text after it.  An exponent without digits is an
error of `>>` (unlike for `std::stod`). -/
def Text.streamExponent : Str → Option (Int × Str)
  | [] => some (0, [])
  | c :: s =>
    if c = 'e' ∨ c = 'E' then
      let sg := takeSign s
      let ds := takeDigits sg.2
      if ds.1 = [] then none
      else some (if sg.1 then -(digitsVal ds.1 : Int) else (digitsVal ds.1 : Int), ds.2)
    else some (0, c :: s)

section Numbers

variable {K : Type} [Field K] [LinearOrder K] [IsStrictOrderedRing K] [FloorRing K]

/-- `stream >> value` for a `double`: the number and the text left in the stream.  Over- and underflow are
not modelled; `nan` and `inf` are no numbers for `>>`. -/
def Text.streamRead (s : Str) : Option (K × Str) :=
  let sg := takeSign (skipSpace s)
  let ip := takeDigits sg.2
  let fp := takeFraction ip.2
  if ip.1 = [] ∧ fp.1 = [] then none
  else
    match streamExponent fp.2 with
    | none => none
    | some (e, rest) =>
      let v : K := (digitsVal (ip.1 ++ fp.1) : K) * (10 : K) ^ (e - (fp.1.length : Int))
      some (if sg.1 then -v else v, rest)

/-- The settings of `ObjectiveFunction` (objective_function.hpp 40-150) used by an evaluation.  The
executable path (`setExecutablePath`) is not among them: nothing reads it. -/
structure ExternalFn (K : Type) where
  /-- `dim` -/
  dim : Nat
  /-- `definition.executableName` -/
  executable : Str
  /-- `definition.designVectorFilename` -/
  designFile : Str
  /-- `definition.outputFilename` -/
  outputFile : Str
  /-- `objectiveFunctionPtr`, if `doesObjectiveFunctionPtrExist` -/
  pointer : Option (List K → K)

namespace ExternalFn

/-- `ObjectiveFunction::getExecutionCommand` (objective_function.cpp 530-547). -/
def command (exename : Str) : Str :=
  if exename.length ≥ 3 ∧ exename.drop (exename.length - 3) = ".py".toList then
    "python ".toList ++ exename
  else if '/' ∈ exename then exename
  else "./".toList ++ exename

/-- `ObjectiveFunction::readOutput` (objective_function.cpp 665-693). -/
def readOutput (fs : Files) (filename : Str) (howMany : Nat) : Res (List K) :=
  if filename = [] then .error .invalidArgument
  else
    match fs filename with
    | none => .error .runtimeError
    | some text => do
      let r ← forRange howMany (fun _ (s : List K × Str) =>
        match streamRead s.2 with
        | none => .error .runtimeError
        | some (v, rest) => .ok (s.1 ++ [v], rest)) ([], text)
      .ok r.1

/-- The loop of `ObjectiveFunction::writeDesignVariablesToFile` (objective_function.cpp 708-711): one
number per line, in the default format of a stream. -/
def designText (F : ExternalFn K) (params : List K) : Res Str :=
  forRange F.dim (fun i s => do
    let x ← vat params i
    .ok (s ++ generalStr x ++ ['\n'])) []

/-- `ObjectiveFunction::writeDesignVariablesToFile` (objective_function.cpp 697-724) in mode "primal".  With
an empty name the assertion fails; without assertions the file cannot be opened, with the same end. -/
def writeDesign (O : Outside) (F : ExternalFn K) (D : Disk) (params : List K) : Disk × Res Unit :=
  if params.length ≠ F.dim then (D, .error .abort)
  else if F.designFile = [] ∨ O.writable F.designFile = false then (D, .error .abort)
  else
    match F.designText params with
    | .error e => (D, .error e)
    | .ok text => ({ D with files := D.files.put F.designFile (some text) }, .ok ())

/-- `ObjectiveFunction::evaluateObjectiveFunction` (objective_function.cpp 823-853) in mode "primal". -/
def runProgram (O : Outside) (F : ExternalFn K) (D : Disk) : Disk × Res Unit :=
  if F.executable = [] then (D, .ok ())
  else
    let r := O.run D.started.length (command F.executable) D.files
    ({ files := D.files.putAll r.writes, started := D.started ++ [command F.executable] },
      if r.exit = some 0 then .ok () else .error .runtimeError)

/-- Writing, running and reading (objective_function.cpp 738-755, constraint_functions.cpp 210-218). -/
def externalValue (O : Outside) (F : ExternalFn K) (D : Disk) (params : List K) : Disk × Res K :=
  match writeDesign O F D params with
  | (D1, .error e) => (D1, .error e)
  | (D1, .ok ()) =>
    match runProgram O F D1 with
    | (D2, .error e) => (D2, .error e)
    | (D2, .ok ()) => (D2, do
        let result ← readOutput D2.files F.outputFile 1
        vat result 0)

/-- `ObjectiveFunction::evaluateDesign` (objective_function.cpp 726-776): the disk, the design and the
outcome. -/
def evaluateDesign (O : Outside) (F : ExternalFn K) (s : Disk × Design K) : (Disk × Design K) × Res Unit :=
  if s.2.params.length ≠ F.dim then (s, .error .invalidArgument)
  else
    match F.pointer with
    | some f => ((s.1, { s.2 with trueValue := f s.2.params }), .ok ())
    | none =>
      match externalValue O F s.1 s.2.params with
      | (D, .error e) => ((D, s.2), .error e)
      | (D, .ok v) => ((D, { s.2 with trueValue := v }), .ok ())

end ExternalFn

/-- The settings of `ConstraintFunction` (constraint_functions.hpp) used by an evaluation. -/
structure ExternalConstraint (K : Type) where
  fn : ExternalFn K
  /-- `definitionConstraint.ID` -/
  id : Int
  /-- `ifFunctionExplictlyDefined`, with the function -/
  explicit : Option (List K → K)

namespace ExternalConstraint

open ExternalFn

/-- `validateConstraintID` and the assignment (constraint_functions.cpp 198-200, 221-223, 232-235,
238-242).  A negative number passes `validateConstraintID` and is refused by the vector. -/
def store (C : ExternalConstraint K) (d : Design K) (v : K) : Design K × Res Unit :=
  if C.id ≥ (d.constraintTrueValues.length : Int) then (d, .error .outOfRange)
  else if C.id < 0 then (d, .error .outOfRange)
  else ({ d with constraintTrueValues := d.constraintTrueValues.set C.id.toNat v }, .ok ())

/-- The body of the `try` block of `ConstraintFunction::evaluateDesign` (constraint_functions.cpp
166-180). -/
def evaluateBody (O : Outside) (C : ExternalConstraint K) (s : Disk × Design K) :
    (Disk × Design K) × Res Unit :=
  match C.explicit with
  | some f => ((s.1, (C.store s.2 (f s.2.params)).1), (C.store s.2 (f s.2.params)).2)
  | none =>
    if s.2.params.length ≠ C.fn.dim then (s, .error .invalidArgument)
    else
      match C.fn.pointer with
      | some f => ((s.1, (C.store s.2 (f s.2.params)).1), (C.store s.2 (f s.2.params)).2)
      | none =>
        match externalValue O C.fn s.1 s.2.params with
        | (D, .error e) => ((D, s.2), .error e)
        | (D, .ok v) => ((D, (C.store s.2 v).1), (C.store s.2 v).2)

/-- `ConstraintFunction::evaluateDesign` (constraint_functions.cpp 164-185). -/
def evaluateDesign (O : Outside) (C : ExternalConstraint K) (s : Disk × Design K) :
    (Disk × Design K) × Res Unit :=
  rethrow (evaluateBody O C s)

/-- `Optimizer::evaluateConstraints` (optimization_constraint_functions.cpp 123-133). -/
def evaluateAll (O : Outside) : List (ExternalConstraint K) → Disk × Design K →
    (Disk × Design K) × Res Unit
  | [], s => (s, .ok ())
  | C :: Cs, s => andThen (evaluateDesign O C s) (evaluateAll O Cs)

end ExternalConstraint

/-- The two evaluations of an iteration (efficient_global_optimization.cpp 28-33). -/
def evaluateStudyDesign (O : Outside) (F : ExternalFn K) (Cs : List (ExternalConstraint K))
    (s : Disk × Design K) : (Disk × Design K) × Res Unit :=
  andThen (F.evaluateDesign O s) (ExternalConstraint.evaluateAll O Cs)

/-- The evaluations of the designs of a whole study, in order, up to the first exception: the designs as
they are after their evaluation. -/
def evaluateHistory (O : Outside) (F : ExternalFn K) (Cs : List (ExternalConstraint K)) :
    Disk → List (Design K) → Disk × List (Design K) × Res Unit
  | D, [] => (D, [], .ok ())
  | D, d :: ds =>
    match evaluateStudyDesign O F Cs (D, d) with
    | ((D1, _), .error e) => (D1, [], .error e)
    | ((D1, d1), .ok ()) =>
      let r := evaluateHistory O F Cs D1 ds
      (r.1, d1 :: r.2.1, r.2.2)

end Numbers

end Rodeo
