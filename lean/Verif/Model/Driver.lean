import Verif.Model.API
import Verif.Model.Parse

/-! # Model of the driver: from the configuration file to the settings of the optimizer
(`Driver/driver_xml.cpp`, `Driver/configkey.cpp`, `Driver/xml_functions.cpp`,
`Driver/string_functions.cpp`)

The driver object is new, as in `main` (Rodeo.cpp 48-78): it reads one file once.  Log messages are not
modelled.  Positions of `std::string::find` are `Option Nat`, with `none` for `npos`. -/

namespace Rodeo.Driver

open Text API Parse

/-! ## Strings -/

/-- The first place where `p` occurs in a text. -/
def find? (p : Str) : Str → Option Nat
  | [] => if p = [] then some 0 else none
  | c :: s => if p.isPrefixOf (c :: s) then some 0 else (find? p s).map (· + 1)

/-- `std::string::find(p, pos)`. -/
def findFrom (s p : Str) (pos : Nat) : Option Nat :=
  if pos ≤ s.length then (find? p (s.drop pos)).map (· + pos) else none

/-- `"<" + key + ">"`. -/
def tag (k : Str) : Str := '<' :: (k ++ ['>'])

/-- `"</" + key + ">"`. -/
def endTag (k : Str) : Str := '<' :: '/' :: (k ++ ['>'])

/-- `isEqual` (string_functions.cpp 10-24). -/
def isEqual (a b : Str) : Bool :=
  if a = [] ∨ b = [] then false
  else if a.length ≠ b.length then false
  else decide (a.map lower = b.map lower)

/-- `checkIfOn` (string_functions.cpp 55-66). -/
def checkIfOn (s : Str) : Bool :=
  decide (s.map lower ∈ ["yes".toList, "y".toList, "on".toList, "true".toList, "enable".toList,
    "enabled".toList])

/-- `extractContentBetweenKeys` (string_functions.cpp 91-120). -/
def extractContentBetweenKeys (s k : Str) : Res Str :=
  match findFrom s (tag k) 0 with
  | none => .error .runtimeError
  | some a =>
    match findFrom s (endTag k) (a + (tag k).length) with
    | none => .error .runtimeError
    | some e =>
      match findFrom s (tag k) (a + (tag k).length) with
      | some _ => .error .runtimeError
      | none => .ok (substr s (a + (tag k).length) (e - (a + (tag k).length)))

/-- The loop of `extractContents` (string_functions.cpp 127-140): `start` is `startPos`.  Every round moves
the position behind an end tag, so that `s.length + 1` rounds are enough. -/
def extractLoop (s k : Str) : Nat → Option Nat → List Str
  | 0, _ => []
  | _ + 1, none => []
  | n + 1, some a =>
    match findFrom s (endTag k) (a + (tag k).length) with
    | none => []
    | some e =>
      substr s (a + (tag k).length) (e - (a + (tag k).length)) ::
        extractLoop s k n (findFrom s (tag k) (e + (endTag k).length))

/-- `extractContents` (string_functions.cpp 122-143). -/
def extractContents (s k : Str) : List Str :=
  extractLoop s k (s.length + 1) (findFrom s (tag k) 0)

/-! ## Values of keywords -/

/-- The part that `getDoubleValueFromXML`, `getStringValueFromXML` and `getIntegerValueFromXML` have in
common (xml_functions.cpp 110-129, 156-177, 187-205): the text between the tags, `none` if there is no
start tag.  Differences of positions are not negative: a keyword does not contain `<`. -/
def element (s k : Str) : Res (Option Str) :=
  match findFrom s (tag k) 0 with
  | none => .ok none
  | some a =>
    match findFrom s (endTag k) a with
    | none => .error .invalidArgument
    | some e =>
      match findFrom s (tag k) e with
      | some _ => .error .invalidArgument
      | none => .ok (some (substr s (a + k.length + 2) (e - a - k.length - 2)))

/-- `getStringValueFromXML` (xml_functions.cpp 153-182). -/
def getString (s k : Str) : Res Str := do
  let v ← element s k
  match v with
  | none => .ok []
  | some v => .ok (removeSpaces v)

/-- `NONEXISTINGINTKEYWORD` (globals.hpp 11). -/
def noInt : Int := -10000000

/-- `getIntegerValueFromXML` (xml_functions.cpp 186-222). -/
def getInteger (s k : Str) : Res Int := do
  let v ← element s k
  match v with
  | none => .ok noInt
  | some v =>
    match stoi v with
    | .ok n => .ok n
    | .error _ => .error .invalidArgument

variable {K : Type} [Field K] [LinearOrder K] [IsStrictOrderedRing K] [FloorRing K]

/-- `getDoubleValueFromXML` (xml_functions.cpp 109-145); `10E-14` if the keyword is missing. -/
def getDouble (s k : Str) : Res K := do
  let v ← element s k
  match v with
  | none => .ok (10 / 10 ^ 14)
  | some v =>
    match (stod (removeSpaces v) : Res K) with
    | .ok x => .ok x
    | .error _ => .error .invalidArgument

/-- The type of a keyword (configkey.cpp 112-123), as far as the driver uses them. -/
inductive KeyType where
  | string
  | int
  | doubleVector
  deriving DecidableEq

/-- `Keyword` (configkey.hpp 33-86).  The values of the vector keywords `lower_bounds` and
`upper_bounds` are never used by the driver, and left out. -/
structure Keyword where
  name : Str
  type : KeyType
  valueString : Str
  valueInt : Int
  deriving DecidableEq

/-- `addConfigKey` (driver_xml.cpp 35-42) with the default values of `Keyword`. -/
def Keyword.new (name : Str) (type : KeyType) : Keyword := ⟨name, type, [], noInt⟩

/-- `Keyword::getValueFromXMLString` (configkey.cpp 125-168). -/
def Keyword.read (w : Keyword) (input : Str) : Res Keyword :=
  match w.type with
  | .string => do
    let v ← getString input w.name
    .ok (if v = [] then w else { w with valueString := v })
  | .int => do
    let v ← getInteger input w.name
    .ok (if v = noInt then w else { w with valueInt := v })
  | .doubleVector => if input = [] then .error .invalidArgument else .ok w

/-- The loop over a list of keywords (driver_xml.cpp 712-715, 969-984, 1002-1006). -/
def readKeywords (ws : List Keyword) (input : Str) : Res (List Keyword) :=
  mapRes (fun w => w.read input) ws

/-- `getConfigKeyValueInt` (driver_xml.cpp 795-810). -/
def intValue (ws : List Keyword) (key : Str) : Res Int :=
  match ws.find? (fun w => decide (w.name = key)) with
  | none => .ok noInt
  | some w => if w.type = .int then .ok w.valueInt else .error .invalidArgument

/-- `getConfigKeyValueString` (driver_xml.cpp 857-880). -/
def stringValue (ws : List Keyword) (key : Str) : Res Str :=
  match ws.find? (fun w => decide (w.name = key)) with
  | none => .ok []
  | some w => if w.type = .string then .ok w.valueString else .error .invalidArgument

/-- A keyword that must be there: `if (value.empty()) throw std::invalid_argument(...)`. -/
def mandatory (ws : List Keyword) (key : Str) : Res Str := do
  let v ← stringValue ws key
  if v = [] then .error .invalidArgument else .ok v

/-- `addConfigKeysGeneralSettings` (driver_xml.cpp 44-65). -/
def generalKeys : List Keyword :=
  [.new "name".toList .string, .new "type".toList .string, .new "display".toList .string,
   .new "dimension".toList .int, .new "lower_bounds".toList .doubleVector,
   .new "upper_bounds".toList .doubleVector, .new "number_of_function_evaluations".toList .int,
   .new "max_number_of_inner_iterations".toList .int, .new "number_of_threads".toList .int]

/-- `addConfigKeysConstraintFunction` (driver_xml.cpp 741-768). -/
def constraintKeys : List Keyword :=
  [.new "multi_fidelity".toList .string, .new "name".toList .string,
   .new "constraint_value".toList .string, .new "constraint_type".toList .string,
   .new "user_defined_function".toList .string, .new "design_vector_filename".toList .string,
   .new "warm_start".toList .string, .new "output_filename".toList .string,
   .new "output_filename_gradient".toList .string, .new "executable_filename".toList .string,
   .new "executable_filename_gradient".toList .string, .new "executable_filename_tangent".toList .string,
   .new "surrogate_model_type".toList .string, .new "training_data_filename".toList .string,
   .new "number_of_training_iterations".toList .int]

/-- `addConfigKeysObjectiveFunction` (driver_xml.cpp 771-793). -/
def objectiveKeys : List Keyword :=
  [.new "multi_fidelity".toList .string, .new "name".toList .string,
   .new "design_vector_filename".toList .string, .new "warm_start".toList .string,
   .new "output_filename".toList .string, .new "output_filename_gradient".toList .string,
   .new "executable_filename".toList .string, .new "executable_filename_gradient".toList .string,
   .new "executable_filename_tangent".toList .string, .new "surrogate_model_type".toList .string,
   .new "training_data_filename".toList .string, .new "number_of_training_iterations".toList .int]

/-! ## Settings -/

/-- `SURROGATE_MODEL`, as far as the driver assigns it. -/
inductive ModelKind where
  | ordinaryKriging
  | universalKriging
  | gradientEnhanced
  | tangentEnhanced
  deriving DecidableEq

/-- `getSurrogateModelID` (driver_xml.cpp 69-94).  The order of the map does not matter: keys that are
equal up to case have the same value. -/
def modelKind (s : Str) : Res ModelKind :=
  if s = [] then .ok .ordinaryKriging
  else if isEqual s "default".toList ∨ isEqual s "kriging".toList ∨ isEqual s "ordinary_kriging".toList
  then .ok .ordinaryKriging
  else if isEqual s "universal_kriging".toList then .ok .universalKriging
  else if isEqual s "gradient_enhanced".toList then .ok .gradientEnhanced
  else if isEqual s "tangent_enhanced".toList then .ok .tangentEnhanced
  else .error .invalidArgument

/-- `ObjectiveFunctionDefinition` (objective_function.hpp 52-86), as far as the driver assigns it. -/
structure FunctionDefinition where
  name : Str
  designVectorFilename : Str
  executableName : Str
  executableNameGradient : Str
  outputFilename : Str
  outputGradientFilename : Str
  trainingData : Str
  multiLevel : Bool
  model : ModelKind
  deriving DecidableEq

/-- The default values. -/
def FunctionDefinition.new : FunctionDefinition := ⟨[], [], [], [], [], [], [], false, .ordinaryKriging⟩

/-- What the driver sets of an `ObjectiveFunction`. -/
structure FunctionSettings (K : Type) where
  definition : FunctionDefinition
  dim : Nat
  trainingIterations : Nat
  box : Bounds K
  deriving DecidableEq

/-- What the driver sets of a `ConstraintFunction`. -/
structure ConstraintSettings (K : Type) where
  base : FunctionSettings K
  id : Nat
  name : Str
  inequality : Str
  value : K
  userDefined : Bool
  deriving DecidableEq

/-- What the driver sets of an `Optimizer`. -/
structure Config (K : Type) where
  name : Str
  dimension : Nat
  maxSamples : Nat
  innerIterations : Nat
  threads : Nat
  objective : FunctionSettings K
  constraints : List (ConstraintSettings K)
  lb : List K
  ub : List K
  parameterNames : List Str
  /-- `indicesForDiscreteVariables` and `incrementsForDiscreteVariables`. -/
  discrete : List (Nat × K)
  deriving DecidableEq

/-- The conversion of `int` to `unsigned int` (32 bits). -/
def toUnsigned (n : Int) : Nat := (n % 2 ^ 32).toNat

/-! ## General settings -/

/-- What `readGeneralSettings` sets in the optimizer. -/
structure General where
  dimension : Nat
  name : Str
  maxSamples : Nat
  innerIterations : Nat
  threads : Nat
  deriving DecidableEq

/-- `setDimensionOptimizationStudy` (driver_xml.cpp 575-582). -/
def setDimension (ws : List Keyword) : Res Nat := do
  let d ← intValue ws "dimension".toList
  if d ≤ 0 then .error .invalidArgument else .ok (toUnsigned d)

/-- `setNameOptimizationStudy` (driver_xml.cpp 615-622). -/
def setName (ws : List Keyword) : Res Str := do
  let n ← stringValue ws "name".toList
  .ok (if n = [] then n else defaultName)

/-- `setNumberOfFunctionEvaluationsOptimizationStudy` (driver_xml.cpp 584-592). -/
def setEvaluations (ws : List Keyword) : Res Nat := do
  let n ← intValue ws "number_of_function_evaluations".toList
  if n ≤ 0 then .error .invalidArgument else .ok (toUnsigned n)

/-- `setMaxNumberOfInnerIterationsOptimizationStudy` (driver_xml.cpp 594-602); the default
`dimension * 10000` is set by `Optimizer::setDimension` (optimization_setter_getters.cpp 102). -/
def setInner (ws : List Keyword) (dimension : Nat) : Res Nat := do
  let n ← intValue ws "max_number_of_inner_iterations".toList
  .ok (if n ≠ noInt then toUnsigned n else dimension * 10000 % 2 ^ 32)

/-- `setNumberOfThreadsOptimizationStudy` (driver_xml.cpp 604-613) with `Optimizer::setNumberOfThreads`
(optimization_setter_getters.cpp 82-92) and the default of optimization.hpp 210. -/
def setThreads (ws : List Keyword) : Res Nat := do
  let n ← intValue ws "number_of_threads".toList
  if n ≠ noInt then
    (if toUnsigned n = 0 then .error .invalidArgument else .ok (toUnsigned n))
  else .ok 1

/-- The end of `readGeneralSettings` (driver_xml.cpp 717-737): `none` if the type is not `optimization`. -/
def generalSettings (ws : List Keyword) : Res (Option General) := do
  let type ← mandatory ws "type".toList
  if isEqual type "optimization".toList then do
    let d ← setDimension ws
    let name ← setName ws
    let n ← setEvaluations ws
    let inner ← setInner ws d
    let threads ← setThreads ws
    .ok (some ⟨d, name, n, inner, threads⟩)
  else .ok none

/-! ## Parameters -/

/-- `Parameter` (driver_xml.hpp 16-34). -/
structure Parameter (K : Type) where
  name : Str
  type : Str
  lb : K
  ub : K
  increment : K
  deriving DecidableEq

/-- One round of the loop of `readOptimizationParameters` (driver_xml.cpp 484-534). -/
def readParameter (text : Str) : Res (Parameter K) := do
  let name ← getString text "name".toList
  let type0 ← getString text "type".toList
  if name = [] then .error .runtimeError
  else if type0 = [] then .error .runtimeError
  else
    let type := type0.map lower
    if type ≠ "continuous".toList ∧ type ≠ "discrete".toList ∧ type ≠ "real".toList ∧
        type ≠ "int".toList then .error .runtimeError
    else do
      let lb : K ← getDouble text "lower_bound".toList
      let ub : K ← getDouble text "upper_bound".toList
      if lb > ub then .error .runtimeError
      else do
        let inc : K ← getDouble text "increment".toList
        if type = "discrete".toList ∨ type = "int".toList then
          (if inc ≤ 0 ∨ inc > ub - lb then .error .runtimeError else .ok ⟨name, type, lb, ub, inc⟩)
        else .ok ⟨name, type, lb, ub, 0⟩

/-- `readASegmentFromXMLFile` (driver_xml.cpp 1012-1035). -/
def readSegment (file : Option Str) (k : Str) : Res Str :=
  match file with
  | none => .error .runtimeError
  | some text => extractContentBetweenKeys text k

/-- `readOptimizationParameters` (driver_xml.cpp 466-542). -/
def readParameters (file : Option Str) : Res (List (Parameter K)) := do
  let s ← readSegment file "optimization_parameters".toList
  if s = [] then .ok []
  else mapRes readParameter (extractContents s "parameter".toList)

/-- `setBoxConstraints` (driver_xml.cpp 668-696). -/
def boxOf (ws : List Keyword) (ps : List (Parameter K)) : Res (Bounds K) := do
  let d ← intValue ws "dimension".toList
  if d ≠ ps.length then .error .invalidArgument
  else
    match (Bounds.mk0 : Bounds K).setStd (ps.map (·.lb)) (ps.map (·.ub)) with
    | (_, .error e) => .error e
    | (b, .ok ()) => .ok b

/-! ## Functions -/

/-- `ObjectiveFunction::setParameterBounds` (objective_function.cpp 323-339). -/
def checkBox (dim : Nat) (b : Bounds K) : Res Unit :=
  if dim > 0 ∧ dim ≠ b.dim then .error .invalidArgument
  else if b.isSet = false then .error .invalidArgument
  else .ok ()

/-- `setObjectiveFunctionNumberOfTrainingIterations` (driver_xml.cpp 211-222); the default is that of
objective_function.hpp 117. -/
def trainingIterations (ws : List Keyword) : Res Nat := do
  let n ← intValue ws "number_of_training_iterations".toList
  .ok (if n ≠ noInt then toUnsigned n else 10000)

/-- `setObjectiveFunctionGradientExecutableName` and `setObjectiveFunctionGradientOutputFilename`
(driver_xml.cpp 162-186). -/
def gradientFiles (ws : List Keyword) (d : FunctionDefinition) : Res FunctionDefinition := do
  let e ← mandatory ws "executable_filename_gradient".toList
  let o ← mandatory ws "output_filename_gradient".toList
  if isEqual o d.outputFilename then .error .invalidArgument
  else .ok { d with executableNameGradient := e, outputGradientFilename := o }

/-- `setObjectiveFunctionDefinition` (driver_xml.cpp 188-208) with 98-160. -/
def objectiveDefinition (ws : List Keyword) : Res FunctionDefinition := do
  let name ← mandatory ws "name".toList
  let dv ← mandatory ws "design_vector_filename".toList
  let exe ← mandatory ws "executable_filename".toList
  let data ← mandatory ws "training_data_filename".toList
  let out ← mandatory ws "output_filename".toList
  let m ← stringValue ws "surrogate_model_type".toList
  let kind ← modelKind m
  let d : FunctionDefinition := ⟨name, dv, exe, [], out, [], data, false, kind⟩
  if kind = .gradientEnhanced then gradientFiles ws d else .ok d

/-- `readObjectiveFunction` (driver_xml.cpp 224-252); `ws` are the keywords of the objective function
after reading, `general` those of the general settings. -/
def readObjective (general ws : List Keyword) (b : Bounds K) : Res (FunctionSettings K) := do
  let dim ← intValue general "dimension".toList
  let n ← trainingIterations ws
  let d ← objectiveDefinition ws
  if b.isSet = false then .error .runtimeError
  else do
    checkBox (toUnsigned dim) b
    .ok ⟨d, toUnsigned dim, n, b⟩

/-- `setConstraintType` (driver_xml.cpp 263-284). -/
def constraintType (ws : List Keyword) : Res Str := do
  let t ← mandatory ws "constraint_type".toList
  if isEqual t "lt".toList ∨ isEqual t "LT".toList then .ok ['<']
  else if isEqual t "gt".toList ∨ isEqual t "TT".toList then .ok ['>']
  else .error .invalidArgument

/-- `setConstraintValue` (driver_xml.cpp 286-307). -/
def constraintValue (ws : List Keyword) : Res K := do
  let t ← mandatory ws "constraint_value".toList
  stod t

/-- `setConstraintUDF` (driver_xml.cpp 309-316) with `setUseExplicitFunctionOn`
(constraint_functions.cpp 292-301): there are four functions. -/
def userDefined (ws : List Keyword) (id : Nat) : Res Bool := do
  let t ← stringValue ws "user_defined_function".toList
  if checkIfOn t then
    (if id ≥ 20 then .error .abort else if id ≥ 4 then .error .outOfRange else .ok true)
  else .ok false

/-- `readConstraintFunctionsSingleFidelity` (driver_xml.cpp 334-393). -/
def constraintDefinition (ws : List Keyword) (d : FunctionDefinition) : Res FunctionDefinition := do
  let exe ← stringValue ws "executable_filename".toList
  let dv ← mandatory ws "design_vector_filename".toList
  let out ← mandatory ws "output_filename".toList
  let data ← mandatory ws "training_data_filename".toList
  let m ← stringValue ws "surrogate_model_type".toList
  let kind ← modelKind m
  .ok { d with executableName := exe, designVectorFilename := dv, outputFilename := out,
               trainingData := data, model := kind }

/-- The definition of the function of a constraint: more keywords are read if it is not a user defined
one (driver_xml.cpp 440-444). -/
def constraintFunction (ws : List Keyword) (udf : Bool) (d : FunctionDefinition) :
    Res FunctionDefinition :=
  if udf then .ok d else constraintDefinition ws d

/-- One round of the loop of `readConstraintFunctions` (driver_xml.cpp 407-461).  `general` and
`objective` are the keywords of the general settings and of the objective function; the number of
training iterations is taken from the latter (driver_xml.cpp 320-321). -/
def readConstraint (general objective : List Keyword) (b : Bounds K) (id : Nat) (text : Str) :
    Res (ConstraintSettings K) :=
  if text = [] then .error .runtimeError
  else do
    let ws ← readKeywords constraintKeys text
    let dim ← intValue general "dimension".toList
    let n ← trainingIterations objective
    let mf ← stringValue ws "multi_fidelity".toList
    let name ← mandatory ws "name".toList
    let type ← constraintType ws
    let value : K ← constraintValue ws
    let udf ← userDefined ws id
    let d ← constraintFunction ws udf { FunctionDefinition.new with name := name, multiLevel := checkIfOn mf }
    if b.isSet = false then .error .runtimeError
    else do
      checkBox (toUnsigned dim) b
      .ok ⟨⟨d, toUnsigned dim, n, b⟩, id, name, type, value, udf⟩

/-- Trimming of a line (driver_xml.cpp 1055-1056). -/
def trimLine (s : Str) : Str :=
  let l := s.dropWhile (fun c => c = ' ' || c = '\t')
  (l.reverse.dropWhile (fun c => c = ' ' || c = '\t')).reverse

/-- The loop of `readConstraintFunctionsFromXML` (driver_xml.cpp 1053-1074): `inside`, the text collected
so far and the lines left. -/
def constraintLines : Bool → Str → List Str → List Str
  | _, _, [] => []
  | inside, cur, line :: lines =>
    let line := trimLine line
    let start := (find? (tag "constraint_function".toList) line).isSome
    let inside1 := if start then true else inside
    let cur1 := if start then [] else cur
    if (find? (endTag "constraint_function".toList) line).isSome then
      cur1 :: constraintLines false cur1 lines
    else
      constraintLines inside1 (if inside1 then cur1 ++ line ++ ['\n'] else cur1) lines

/-- `readConstraintFunctionsFromXML` (driver_xml.cpp 1039-1078). -/
def constraintTexts (file : Option Str) : List Str :=
  match file with
  | none => []
  | some text => constraintLines false [] (pieces '\n' text)

/-- The loop of `readConstraintFunctions` (driver_xml.cpp 402-463). -/
def readConstraints (general objective : List Keyword) (b : Bounds K) :
    Nat → List Str → Res (List (ConstraintSettings K))
  | _, [] => .ok []
  | id, t :: ts => do
    let c ← readConstraint general objective b id t
    let cs ← readConstraints general objective b (id + 1) ts
    .ok (c :: cs)

/-! ## The whole file -/

/-- `setBoxConstraintsOptimizationStudy` (driver_xml.cpp 699-702) with `Optimizer::setBoxConstraints`
(optimization_setter_getters.cpp 49-74) and `GlobalOptimalDesign::setBoxConstraints`
(globalOptimalDesign.cpp 12-27). -/
def setStudyBox (dim : Nat) (f : FunctionSettings K) (cs : List (ConstraintSettings K)) (b : Bounds K) :
    Res Unit :=
  if b.lb.length ≠ b.ub.length then .error .invalidArgument
  else if someAbove b.lb b.ub then .error .invalidArgument
  else do
    checkBox f.dim b
    let _ ← mapRes (fun c : ConstraintSettings K => checkBox c.base.dim b) cs
    if b.isSet = false then .error .invalidArgument
    else if dim ≠ b.dim then .error .invalidArgument
    else .ok ()

/-- `setParameterNamesOptimizationStudy` (driver_xml.cpp 625-643) with
`OptimizationHistory::setParameterNames` (optimization_history.cpp 63-94). -/
def setParameterNames (dim : Nat) (ps : List (Parameter K)) : Res (List Str) :=
  let names := (ps.map (·.name)).filter (fun n => decide (n ≠ []))
  if names = [] then .ok []
  else if dim = 0 then .error .runtimeError
  else if names.length ≠ dim then .error .invalidArgument
  else if ¬ names.Nodup then .error .invalidArgument
  else .ok names

/-- The loop of `setDiscreteParametersOptimizationStudy` (driver_xml.cpp 656-664) with
`Optimizer::setParameterToDiscrete` (optimization.cpp 74-82). -/
def discreteLoop (dim : Nat) : Nat → List (Parameter K) → Res (List (Nat × K))
  | _, [] => .ok []
  | i, p :: ps =>
    if p.type = "discrete".toList ∨ p.type = "int".toList then
      (if i < dim then do
        let r ← discreteLoop dim (i + 1) ps
        .ok ((i, p.increment) :: r)
      else .error .abort)
    else discreteLoop dim (i + 1) ps

/-- `setDiscreteParametersOptimizationStudy` (driver_xml.cpp 646-666). -/
def setDiscrete (general : List Keyword) (dim : Nat) (ps : List (Parameter K)) : Res (List (Nat × K)) := do
  let d ← intValue general "dimension".toList
  if d ≠ ps.length then .error .invalidArgument else discreteLoop dim 0 ps

/-- The part of `readConfigurationFile` for optimizations (driver_xml.cpp 557-566). -/
def readOptimization (file : Option Str) (ws : List Keyword) (g : General) : Res (Config K) := do
  let ps : List (Parameter K) ← readParameters file
  let b ← boxOf ws ps
  let t ← readSegment file "objective_function".toList
  let os ← readKeywords objectiveKeys t
  let f ← readObjective ws os b
  let cs ← readConstraints ws os b 0 (constraintTexts file)
  setStudyBox g.dimension f cs b
  let names ← setParameterNames g.dimension ps
  let disc ← setDiscrete ws g.dimension ps
  .ok ⟨g.name, g.dimension, g.maxSamples, g.innerIterations, g.threads, f, cs, b.lb, b.ub, names, disc⟩

/-- `readConfigurationFile` (driver_xml.cpp 546-573): `none` if the type is not `optimization`. -/
def readConfigurationFile (file : Option Str) : Res (Option (Config K)) := do
  let s ← readSegment file "general_settings".toList
  let ws ← readKeywords generalKeys s
  let g ← generalSettings ws
  match g with
  | none => .ok none
  | some g => do
    let c ← readOptimization file ws g
    .ok (some c)

/-- `Driver::run` (driver_xml.cpp 1094-1108) up to the start of the optimization: the settings with which
`performEfficientGlobalOptimization` is called. -/
def run (file : Option Str) : Res (Config K) := do
  let c ← readConfigurationFile file
  match c with
  | none => .error .runtimeError
  | some c => .ok c

end Rodeo.Driver
