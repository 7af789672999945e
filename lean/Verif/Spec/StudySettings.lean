import Verif.Spec.Study

/-! # Specification: the settings a history of calls of the C++ interface makes -/

namespace Rodeo.Spec

open Text API

variable {K : Type} [Field K] [LinearOrder K] [IsStrictOrderedRing K] [FloorRing K]
variable {F α : Type}

/-- The setting made by the last call of the history that makes one, `d` if there is none. -/
def lastSetting (makes : Call K F → Option α) (d : α) (hist : List (Call K F)) : α :=
  (hist.filterMap makes).getLast?.getD d

/-- The names of studies: every name but the empty one. -/
def nameOf : Call K F → Option Str
  | .setName n => if n = [] then none else some n
  | _ => none

/-- The numbers of function evaluations. -/
def evaluationsOf : Call K F → Option Nat
  | .setMaxEvaluations n => some n
  | _ => none

/-- The dimensions; dimension 0 is rejected but stored. -/
def dimensionOf : Call K F → Option Nat
  | .setDimension d => some d
  | _ => none

/-- The numbers of initial samples. -/
def doeSamplesOf : Call K F → Option Nat
  | .setDoEOn n => some n
  | _ => none

/-- The directories. -/
def directoryOf (isDir : Str → Bool) : Call K F → Option Str
  | .setCwd d => if d = [] ∨ isDir d = false then none else some d
  | _ => none

/-- The sampling methods, in lower case. -/
def methodOf : Call K F → Option Str
  | .setDoEStrategy i =>
    if i.map lower = "lhs".toList then some "lhs".toList
    else if i.map lower = "random".toList then some "random".toList
    else none
  | _ => none

/-- The objective functions: the function, its name and its training data file. -/
def objectiveOf : Call K F → Option (F × Str × Str)
  | .setObjectiveFunction (some f) name file => if file = [] ∨ name = [] then none else some (f, name, file)
  | _ => none

/-- The call adds an objective function or a constraint. -/
def AddsFunction : Call K F → Prop
  | .setObjectiveFunction _ _ _ => True
  | .addConstraint _ _ _ => True
  | _ => False

/-- Every call of the history returns without an exception. -/
def AllAccepted (isDir : Str → Bool) (hist : List (Call K F)) : Prop :=
  ∀ pre c post, hist = pre ++ c :: post → ∃ s, calls isDir new pre = some s ∧ (step isDir s c).2 = .ok ()

/-- The objective function and all constraints have the dimension of the study, and bounds: the ones of
the study. -/
def FunctionsPrepared (s : Study K F) : Prop :=
  (∃ o, s.opt.obj = some o ∧ o.dim = s.dimension ∧ o.box = some ⟨s.lb, s.ub, s.dimension, true⟩) ∧
    ∀ c ∈ s.opt.constraints,
      c.base.dim = s.dimension ∧ c.base.box = some ⟨s.lb, s.ub, s.dimension, true⟩

end Rodeo.Spec
