import Verif.Model.Design
import Verif.Model.CSV

/-! # Model of the files and log messages about a design (`Design/design.cpp`) and of headings
(`Optimizers/aux.cpp`)

The member `tag` of a design, which `Design` does not have, is an argument.  Opening a stream empties the
file; `canOpen` tells if it can be opened. -/

namespace Rodeo.DesignFile

open Text

variable {K : Type} [Field K] [LinearOrder K] [IsStrictOrderedRing K] [FloorRing K]

/-- The loop of `Design::saveDesignVectorAsCSVFile` (design.cpp 651-655): all but the last parameter with
commas, then the last.  `getSize() - 1` is unsigned with 32 bits: of an empty vector it is `2 ^ 32 - 1`. -/
def csvText (params : List K) : Res Str := do
  let s ← forRange ((params.length + (2 ^ 32 - 1)) % 2 ^ 32) (fun i s => do
    let x ← vat params i
    .ok (s ++ sigStr 9 x ++ [','])) []
  let x ← vat params ((params.length + (2 ^ 32 - 1)) % 2 ^ 32)
  .ok (s ++ sigStr 9 x)

/-- `Design::saveDesignVectorAsCSVFile` (design.cpp 642-661): the content of the file and the outcome.  Only
the first access to an empty vector throws, before anything is written. -/
def saveDesignVectorAsCSVFile (canOpen : Bool) (name : Str) (file : Option Str) (d : Design K) :
    Option Str × Res Unit :=
  if name = [] then (file, .error .invalidArgument)
  else if canOpen = false then (file, .error .runtimeError)
  else
    match csvText d.params with
    | .error e => (some [], .error e)
    | .ok text => (some text, .ok ())

/-- The loop of `Design::saveDesignVector` (design.cpp 673-675). -/
def linesText (params : List K) : Res Str :=
  forRange params.length (fun i s => do
    let x ← vat params i
    .ok (s ++ sigStr 9 x ++ ['\n'])) []

/-- `Design::saveDesignVector` (design.cpp 664-680). -/
def saveDesignVector (canOpen : Bool) (name : Str) (file : Option Str) (d : Design K) :
    Option Str × Res Unit :=
  if name = [] then (file, .error .invalidArgument)
  else if canOpen = false then (file, .error .runtimeError)
  else
    match linesText d.params with
    | .error e => (some [], .error e)
    | .ok text => (some text, .ok ())

/-- The text of `Design::saveToAFile` (design.cpp 606-636).  The parameters are written in the default
format, everything after `fixed` with six decimals; there is nothing between the numbers. -/
def reportText (tag : Str) (d : Design K) : Str :=
  tag ++ "\nDesign parameters vector:\n".toList ++ d.params.flatMap generalStr ++
    "Objective function = ".toList ++ fixedStr 6 d.trueValue ++ ['\n'] ++
    (if d.numberOfConstraints > 0 then
      "Constraint values vector:\n".toList ++ d.constraintTrueValues.flatMap (fixedStr 6) else []) ++
    (if d.feasible then "Feasibility = YES\n".toList else "Feasibility = NO\n".toList)

/-- `Design::saveToAFile` (design.cpp 599-640): it is not checked if the stream is open. -/
def saveToAFile (canOpen : Bool) (name : Str) (file : Option Str) (tag : Str) (d : Design K) :
    Option Str × Res Unit :=
  if name = [] then (file, .error .invalidArgument)
  else if canOpen = false then (file, .ok ())
  else (some (reportText tag d), .ok ())

/-! ## Log messages -/

/-- `static_cast<int>(n)`: the low 32 bits, as a signed number. -/
def toInt32 (n : Nat) : Int :=
  if n % 2 ^ 32 < 2 ^ 31 then ((n % 2 ^ 32 : Nat) : Int) else ((n % 2 ^ 32 : Nat) : Int) - 2 ^ 32

/-- The message, with a blank if its length is odd (aux.cpp 76-78). -/
def evenMessage (msg : Str) : Str := if msg.length % 2 = 1 then msg ++ [' '] else msg

/-- `numEquals` (aux.cpp 80): `totalLength - msg.length() - 2` is computed with 64 unsigned bits. -/
def borderLength (len : Nat) (totalLength : Int) : Int :=
  toInt32 (((totalLength - len - 2) % 2 ^ 64).toNat / 2)

/-- `generateFormattedString` (aux.cpp 71-91; the same in design.cpp 537-557 and objective_function.cpp
891-911).  A negative count is a huge `size_t`, for which the string constructor throws `length_error`. -/
def generateFormattedString (msg : Str) (c : Char) (totalLength : Int) : Res Str :=
  if totalLength < 0 then .error .invalidArgument
  else
    let msg := evenMessage msg
    let n := borderLength msg.length totalLength
    if n < 0 then .error .logicError
    else .ok (List.replicate n.toNat c ++ ' ' :: (msg ++ ' ' :: List.replicate n.toNat c))

/-- The parameters in a log message (design.cpp 565-568). -/
def parametersText (d : Design K) : Res Str :=
  forRange d.dimension (fun i s => do
    let x ← vat d.params i
    .ok (s ++ fixedStr 6 x ++ [' '])) []

/-- The constraint values in a log message (design.cpp 574-587). -/
def constraintsText (d : Design K) : Res Str :=
  if d.constraintTrueValues.length > 0 then do
    let s ← forRange d.constraintTrueValues.length (fun i s => do
      let x ← vat d.constraintTrueValues i
      .ok (s ++ fixedStr 6 x ++ [' '])) []
    .ok ("Constraint values = \n".toList ++ s ++ ['\n'])
  else .ok []

/-- `Design::generateOutputString` (design.cpp 560-594). -/
def generateOutputString (tag : Str) (d : Design K) : Res Str := do
  let heading ← generateFormattedString tag '-' 100
  let ps ← parametersText d
  let cs ← constraintsText d
  .ok (heading ++ "\nDesign parameters = \n".toList ++ ps ++ "\nObjective function value : ".toList ++
    fixedStr 6 d.trueValue ++ ['\n'] ++ cs ++ List.replicate 100 '-' ++ ['\n'])

end Rodeo.DesignFile
