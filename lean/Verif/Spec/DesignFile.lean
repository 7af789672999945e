import Verif.Model.DesignFile
import Verif.Spec.Evaluate
import Verif.Spec.EAFile
import Verif.Spec.OptimumFile

/-! # Specification: files and log messages about designs -/

namespace Rodeo.Spec

open Text

variable {K : Type} [Field K] [LinearOrder K] [IsStrictOrderedRing K] [FloorRing K]

/-- A line that gives the numbers `xs` to six decimals, each followed by a blank. -/
def LineOf (t : Str) (xs : List K) : Prop :=
  ∃ ws : List Str, t = (ws.map (· ++ [' '])).flatten ∧
    List.Forall₂ (fun w x => ∃ y, Shows w y ∧ SixDecimals x y) ws xs

/-- A report about a design gives the objective value to six decimals and says if the design is feasible. -/
def TellsReport (text tag : Str) (d : Design K) : Prop :=
  ∃ ps o cs : Str, (∃ y, Shows o y ∧ SixDecimals d.trueValue y) ∧ '\n' ∉ ps ∧
    text = tag ++ "\nDesign parameters vector:\n".toList ++ ps ++ "Objective function = ".toList ++ o ++
      ['\n'] ++ cs ++ "Feasibility = ".toList ++ (if d.feasible then "YES\n".toList else "NO\n".toList)

/-- A heading of the given width: the message, perhaps with one blank more, between two blanks and two
borders of the same length. -/
def Centred (text msg : Str) (c : Char) (width : Nat) : Prop :=
  ∃ (k : Nat) (extra : Str), (extra = [] ∨ extra = [' ']) ∧
    text = List.replicate k c ++ [' '] ++ msg ++ extra ++ [' '] ++ List.replicate k c ∧ text.length = width

/-- The lines of a log message about a design: a heading with its tag, the parameters, the objective value
and, if there are any, the constraint values. -/
def TellsInLog (text tag : Str) (d : Design K) : Prop :=
  ∃ heading ps o cs : Str, Centred heading tag '-' 100 ∧ LineOf ps d.params ∧
    (∃ y, Shows o y ∧ SixDecimals d.trueValue y) ∧ LineOf cs d.constraintTrueValues ∧
    pieces '\n' text = [heading, "Design parameters = ".toList, ps,
      "Objective function value : ".toList ++ o] ++
      (if d.constraintTrueValues = [] then [] else ["Constraint values = ".toList, cs]) ++
      [List.replicate 100 '-']

end Rodeo.Spec
