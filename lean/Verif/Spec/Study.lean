import Verif.Spec.API

/-! # Specification: histories of calls of the C++ interface -/

namespace Rodeo.Spec

open Text API

variable {K : Type} [Field K] [LinearOrder K] [IsStrictOrderedRing K] [FloorRing K]
variable {F : Type}

/-- What a well-formed `addConstraint` call specifies: the function, the file and the constraint. -/
def constraintOf : Call K F → Option (F × Str × Parse.Expr K)
  | .addConstraint (some f) e file =>
    if file = [] ∨ e = [] then none
    else match (Parse.parseExpression e : Res (Parse.Expr K)) with
      | .ok ex => some (f, file, ex)
      | .error _ => none
  | _ => none

/-- The constraints a history of calls specifies, in order. -/
def constraintsOf (hist : List (Call K F)) : List (F × Str × Parse.Expr K) := hist.filterMap constraintOf

/-- The call `c` of the history has been accepted, i.e. has returned without an exception. -/
def Accepted (isDir : Str → Bool) (hist : List (Call K F)) (c : Call K F) : Prop :=
  ∃ pre post s, hist = pre ++ c :: post ∧ calls isDir new pre = some s ∧ (step isDir s c).2 = .ok ()

/-- The call names the file of the objective function. -/
def NamesFile : Call K F → Prop
  | .setNameOfTrainingDataFile _ => True
  | .setObjectiveFunction _ _ _ => True
  | _ => False

/-- The call sets bounds. -/
def SetsBox : Call K F → Prop
  | .setBoxConstraints _ _ => True
  | _ => False

/-- The call sets the dimension. -/
def SetsDimension : Call K F → Prop
  | .setDimension _ => True
  | _ => False

/-- The bounds of the study, of the objective function, of all constraints and of the design are
exactly `lb` and `ub`. -/
def HasBox (s : Study K F) (d : Nat) (lb ub : List K) : Prop :=
  s.lb = lb ∧ s.ub = ub ∧ s.opt.lb = lb ∧ s.opt.ub = ub ∧
    (∃ o, s.opt.obj = some o ∧ o.box = some ⟨lb, ub, d, true⟩) ∧
    (∀ c ∈ s.opt.constraints, c.base.box = some ⟨lb, ub, d, true⟩) ∧
    s.opt.globalBox = some ⟨lb, ub, d, true⟩

end Rodeo.Spec
