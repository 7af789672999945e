import Verif.Model.Driver
import Verif.Model.History

/-! # Model of the file of the global optimum (`Optimizers/globalOptimalDesign.cpp`) and of the functions
that read lists from XML text (`Driver/xml_functions.cpp`) -/

namespace Rodeo.OptimumFile

open Text Driver Parse

/-- `out << n` for an `int`. -/
def intStr (n : Int) : Str := if n < 0 then '-' :: natStr n.natAbs else natStr n.natAbs

/-- `GlobalOptimalDesign::generateXml` (globalOptimalDesign.cpp 182-197), applied to a printed value. -/
def generateXml (name value : Str) : Str := tag name ++ value ++ endTag name

variable {K : Type} [Field K] [LinearOrder K] [IsStrictOrderedRing K] [FloorRing K]

/-- The lines of the items (globalOptimalDesign.cpp 205-207). -/
def items (data : List K) : Str :=
  data.flatMap fun x => '\t' :: (tag "item".toList ++ fixedStr 6 x ++ endTag "item".toList ++ ['\n'])

/-- `GlobalOptimalDesign::generateXmlVector` (globalOptimalDesign.cpp 199-212); no data is a failed
assertion. -/
def generateXmlVector (name : Str) (data : List K) : Res Str :=
  if data = [] then .error .abort
  else .ok (tag name ++ '\n' :: (items data ++ endTag name))

/-- The lines of the constraint values, if there are any (globalOptimalDesign.cpp 229-231). -/
def constraintXml (data : List K) : Res Str :=
  if data = [] then .ok []
  else do
    let s ← generateXmlVector "ConstraintValues".toList data
    .ok (s ++ ['\n'])

/-- `GlobalOptimalDesign::generateXmlString` (globalOptimalDesign.cpp 215-247). -/
def generateXmlString (g : GlobalDesign K) : Res Str := do
  let dv ← generateXmlVector "DesignParameters".toList g.design.params
  let cs ← constraintXml g.design.constraintTrueValues
  .ok (tag "GlobalOptimalDesign".toList ++ '\n' ::
    (generateXml "DesignID".toList (intStr g.design.id) ++ '\n' ::
    (generateXml "ObjectiveFunction".toList (fixedStr 6 g.design.trueValue) ++ '\n' ::
    (dv ++ '\n' ::
    (cs ++
    (generateXml "Feasibility".toList (if g.design.feasible then "YES".toList else "NO".toList) ++ '\n' ::
    (endTag "GlobalOptimalDesign".toList ++ ['\n'])))))))

/-- `GlobalOptimalDesign::saveToXMLFile` (globalOptimalDesign.cpp 166-179) on the file with the name
`xmlFileName`: opening the stream empties the file, then the text is written.  `none` for a file that
does not exist. -/
def saveToXMLFile (canOpen : Bool) (file : Option Str) (g : GlobalDesign K) : Option Str × Res Unit :=
  if canOpen = false then (file, .error .runtimeError)
  else
    match generateXmlString g with
    | .error e => (some [], .error e)
    | .ok text => (some text, .ok ())

/-! ## Reading lists -/

/-- What the loop of `getDoubleVectorValuesFromXML` does with a piece (xml_functions.cpp 246-259): the
number behind the first `>`, nothing if there is none or it is not a number. -/
def itemValue (item : Str) : Option K :=
  match item.findIdx? (· = '>') with
  | none => none
  | some p =>
    match (stod (item.drop (p + 1)) : Res K) with
    | .ok x => some x
    | .error _ => none

/-- `getDoubleVectorValuesFromXML` (xml_functions.cpp 225-263). -/
def getDoubles (s k : Str) : Res (List K) :=
  if s = [] then .error .invalidArgument
  else if k = [] then .error .invalidArgument
  else
    match findFrom s (tag k) 0, findFrom s (endTag k) 0 with
    | some a, some e =>
      if a < e then
        .ok ((pieces '<' (substr s (a + (tag k).length) (e - a - (tag k).length))).filterMap itemValue)
      else .ok []
    | _, _ => .ok []

/-- The loop of `getStringVectorValuesFromXML` (xml_functions.cpp 284-294) from position `pos` on.  Every
round moves the position behind an end tag, so that `s.length + 1` rounds are enough. -/
def itemLoop (s : Str) : Nat → Nat → List Str
  | 0, _ => []
  | n + 1, pos =>
    match findFrom s (tag "item".toList) pos with
    | none => []
    | some p =>
      match findFrom s (endTag "item".toList) p with
      | none => []
      | some e => removeSpaces (substr s (p + 6) (e - p - 6)) :: itemLoop s n (e + 7)

/-- `getStringVectorValuesFromXML` (xml_functions.cpp 266-297). -/
def getStrings (s k : Str) : Res (List Str) :=
  if s = [] then .error .invalidArgument
  else if k = [] then .error .invalidArgument
  else
    match findFrom s (tag k) 0, findFrom s (endTag k) 0 with
    | some a, some e =>
      if a < e then
        let sub := substr s (a + (tag k).length) (e - (a + (tag k).length))
        .ok (itemLoop sub (sub.length + 1) 0)
      else .ok []
    | _, _ => .ok []

end Rodeo.OptimumFile
