import Verif.Model.API
import Verif.Spec.Box

/-! # Specification: what a run of the initial sampling leaves in the files -/

namespace Rodeo.Spec

open Text API

variable {K : Type} [Field K] [LinearOrder K] [IsStrictOrderedRing K] [FloorRing K]
variable {F : Type}

/-- The points at which the objective function has been called, in order. -/
def points (ev : List (Event K)) : List (List K) :=
  ev.filterMap fun e => match e with
    | .evalObjective x => some x
    | _ => none

/-- The points at which constraint `k` has been called, in order. -/
def constraintPoints (k : Nat) (ev : List (Event K)) : List (List K) :=
  ev.filterMap fun e => match e with
    | .evalConstraint j x => if j = k then some x else none
    | _ => none

/-- `rows` are the points `xs`, each followed by its own function value. -/
def Samples (value : List K → Res K) (xs rows : List (List K)) : Prop :=
  List.Forall₂ (fun x r => ∃ v, value x = .ok v ∧ r = x ++ [v]) xs rows

/-- A table as text: one line per row, numbers with six decimals separated by commas. -/
def csv (rows : List (List K)) : Str :=
  (rows.map fun r => [','].intercalate (r.map (fixedStr 6)) ++ ['\n']).flatten

/-- After the events `ev`, `file` holds the first `k` samples: nothing has been written if `k` is 0. -/
def HoldsFirst (fs : Files) (ev : List (Event K)) (value : List K → Res K) (file : Str) (k : Nat) :
    Prop :=
  k ≤ (points ev).length ∧ ∃ rows, Samples value ((points ev).take k) rows ∧
    files fs ev file = if k = 0 then fs file else some (csv rows)

/-- After the events `ev`, `file` holds exactly the samples evaluated and saved so far: all of them, or
all but the one just evaluated. -/
def HoldsSaved (fs : Files) (ev : List (Event K)) (value : List K → Res K) (file : Str) : Prop :=
  HoldsFirst fs ev value file (points ev).length ∨
    (0 < (points ev).length ∧ HoldsFirst fs ev value file ((points ev).length - 1))

end Rodeo.Spec
