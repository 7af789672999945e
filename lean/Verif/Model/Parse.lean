import Verif.Model.Text

/-! # Constraint expressions (`API/cppAPI.cpp`, `ObjectiveFunctions/constraint_functions.cpp`) -/

namespace Rodeo.Parse

open Text

/-- The characters of `" \t\n\r"` (cppAPI.cpp 165-166). -/
def isBlank (c : Char) : Bool := c = ' ' || c = '\t' || c = '\n' || c = '\r'

/-- `str.find_first_not_of(" \t\n\r")`; `none` is `npos`. -/
def findFirstNotOf (s : Str) : Option Nat := s.findIdx? (fun c => !isBlank c)

/-- `str.find_last_not_of(" \t\n\r")`. -/
def findLastNotOf (s : Str) : Option Nat :=
  (s.reverse.findIdx? (fun c => !isBlank c)).map (fun k => s.length - 1 - k)

/-- `str.substr(pos, count)` for `pos ≤ str.size()`. -/
def substr (s : Str) (pos count : Nat) : Str := (s.drop pos).take count

/-- `trim` (cppAPI.cpp 164-168): the second argument of `substr` is a length. -/
def trim (s : Str) : Str :=
  match findFirstNotOf s, findLastNotOf s with
  | some start, some last => substr s start (last + 1)
  | _, _ => []

/-- `stream >> word`: skips white space and reads up to the next white space; `none` if nothing is
left.  The second component is what remains in the stream. -/
def nextWord (s : Str) : Option (Str × Str) :=
  let r := skipSpace s
  if r = [] then none else some (r.takeWhile (fun c => !isSpace c), r.dropWhile (fun c => !isSpace c))

/-- `ParsedConstraintExpression` (API/INCLUDE/rodeo.h 11-15). -/
structure Expr (K : Type) where
  name : Str
  inequality : Str
  value : K
  deriving DecidableEq

section Numbers

variable {K : Type} [Field K] [LinearOrder K] [IsStrictOrderedRing K] [FloorRing K]

/-- An exponent letter that is not followed by digits. -/
def badExponent : Str → Bool
  | [] => false
  | c :: s => (c = 'e' || c = 'E') && (takeDigits (takeSign s).2).1 = []

/-- `stream >> value` for a `double`: as `std::stod`, but an exponent without digits is an error. -/
def streamNumber (s : Str) : Res K :=
  let sg := takeSign (skipSpace s)
  let ip := takeDigits sg.2
  let fp := takeFraction ip.2
  if badExponent fp.2 then .error .invalidArgument else stod s

/-- `parseExpression` (cppAPI.cpp 170-197). -/
def parseExpression (input : Str) : Res (Expr K) :=
  match nextWord (trim input) with
  | none => .error .invalidArgument
  | some (name, r1) =>
    match nextWord r1 with
    | none => .error .invalidArgument
    | some (ineq, r2) =>
      if ineq ≠ ['<'] ∧ ineq ≠ ['>'] then .error .invalidArgument
      else
        match (streamNumber r2 : Res K) with
        | .error _ => .error .invalidArgument
        | .ok v => .ok ⟨name, ineq, v⟩

/-- `ConstraintDefinition` (ObjectiveFunctions/INCLUDE/constraint_functions.hpp) without the number. -/
structure Definition (K : Type) where
  name : Str
  inequality : Str
  value : K
  deriving DecidableEq

/-- `removeSpacesFromString` (constraint_functions.cpp 18-22). -/
def removeSpaces (s : Str) : Str := s.filter (fun c => !isSpace c)

/-- The position of the inequality (constraint_functions.cpp 34-46): the first `>`, or the first `<` if
there is no `>`. -/
def inequalityPlace (s : Str) : Option Nat :=
  match s.findIdx? (· = '>') with
  | some k => some k
  | none => s.findIdx? (· = '<')

/-- `ConstraintDefinition::setDefinition` (constraint_functions.cpp 27-67): the object afterwards and
the outcome. -/
def setDefinition (d : Definition K) (s : Str) : Definition K × Res Unit :=
  if s = [] then (d, .error .invalidArgument)
  else
    match inequalityPlace s with
    | none => (d, .error .invalidArgument)
    | some place =>
      let name := removeSpaces (substr s 0 place)
      let type := substr s place 1
      let value := removeSpaces (substr s (place + 1) (s.length - name.length - type.length))
      match (stod value : Res K) with
      | .error e => (d, .error e)
      | .ok v => (⟨name, type, v⟩, .ok ())

end Numbers
end Rodeo.Parse
