import Verif.Model.Evaluate
import Verif.Spec.Evaluate

/-! # Specification: what a simulation program does, and what an evaluation should record

The types of the outside world (`Outside`, `RunResult`, `Files`) are those of the model. -/

namespace Rodeo.Spec

open Text

/-- The command for an executable: Python scripts are started with `python`, a path is used as it is, and a
plain name is looked up in the working directory. -/
def Command (exe cmd : Str) : Prop :=
  (".py".toList <:+ exe ∧ cmd = "python ".toList ++ exe) ∨
  (¬ ".py".toList <:+ exe ∧ '/' ∈ exe ∧ cmd = exe) ∨
  (¬ ".py".toList <:+ exe ∧ '/' ∉ exe ∧ cmd = "./".toList ++ exe)

/-- The program has written the file `name`, and `text` is what it has left in it. -/
def Wrote (r : RunResult) (name text : Str) : Prop :=
  ∃ before after, r.writes = before ++ (name, some text) :: after ∧ ∀ w ∈ after, w.1 ≠ name

/-- The program has neither written nor removed the file `name`. -/
def Untouched (r : RunResult) (name : Str) : Prop := ∀ w ∈ r.writes, w.1 ≠ name

section Numbers

variable {K : Type} [Field K] [LinearOrder K] [IsStrictOrderedRing K]

/-- The function is evaluated by an external program and the three names are given; the design file can be
written. -/
structure External (O : Outside) (F : ExternalFn K) : Prop where
  noPointer : F.pointer = none
  executable : F.executable ≠ []
  designFile : F.designFile ≠ []
  writable : O.writable F.designFile = true
  outputFile : F.outputFile ≠ []

/-- The program computes `f`: started with a design file that lists the numbers `ys`, it ends with exit code 0
and leaves an output file with `f ys` in it. -/
def Computes (O : Outside) (F : ExternalFn K) (f : List K → K) : Prop :=
  ∀ (k : Nat) (cmd : Str) (files : Files) (text : Str) (ys : List K), Command F.executable cmd →
    files F.designFile = some text → Listing text ys → ys.length = F.dim →
    (O.run k cmd files).exit = some 0 ∧
      ∃ out, Wrote (O.run k cmd files) F.outputFile out ∧ Output out (f ys)

/-- A constraint that is computed by a function in memory or by a program that computes `g`. -/
def ConstraintComputes (O : Outside) (C : ExternalConstraint K) (g : List K → K) : Prop :=
  C.explicit.isSome ∨ C.fn.pointer.isSome ∨ (External O C.fn ∧ Computes O C.fn g)

/-- The value of a constraint for the design `xs` that is handed over to programs as `ys`. -/
def ConstraintGives (C : ExternalConstraint K) (g : List K → K) (xs ys : List K) (v : K) : Prop :=
  (∀ h, C.explicit = some h → v = h xs) ∧
  (∀ h, C.explicit = none → C.fn.pointer = some h → v = h xs) ∧
  (C.explicit = none → C.fn.pointer = none → v = g ys)

/-- The design `d'` is `d` with the values of all functions in it: the objective `f` and the constraints, the
value of each constraint at the place of its number. -/
def Evaluated (f : List K → K) (Cs : List (ExternalConstraint K × (List K → K))) (d d' : Design K) : Prop :=
  ∃ ys, SixDigits ys d.params ∧
    d' = { d with trueValue := f ys, constraintTrueValues := d'.constraintTrueValues } ∧
    d'.constraintTrueValues.length = d.constraintTrueValues.length ∧
    (∀ C ∈ Cs, ∃ v, d'.constraintTrueValues[C.1.id.toNat]? = some v ∧
      ConstraintGives C.1 C.2 d.params ys v) ∧
    ∀ i : Nat, (∀ C ∈ Cs, C.1.id ≠ i) → d'.constraintTrueValues[i]? = d.constraintTrueValues[i]?

/-- One program computes several functions: started for the objective with a design file that lists the numbers
`ys`, it ends with exit code 0 and leaves each value in the file of its function. -/
def ComputesAll (O : Outside) (F : ExternalFn K) (outs : List (Str × (List K → K))) : Prop :=
  ∀ (k : Nat) (cmd : Str) (files : Files) (text : Str) (ys : List K), Command F.executable cmd →
    files F.designFile = some text → Listing text ys → ys.length = F.dim →
    (O.run k cmd files).exit = some 0 ∧
      ∀ o ∈ outs, ∃ out, Wrote (O.run k cmd files) o.1 out ∧ Output out (o.2 ys)

/-- A constraint without an executable of its own: its value is in a file written by the program of the
objective. -/
structure Passive (O : Outside) (C : ExternalConstraint K) : Prop where
  notExplicit : C.explicit = none
  noPointer : C.fn.pointer = none
  executable : C.fn.executable = []
  designFile : C.fn.designFile ≠ []
  writable : O.writable C.fn.designFile = true
  outputFile : C.fn.outputFile ≠ []

end Numbers

end Rodeo.Spec
