import Verif.Model.FnCopy

/-! # Objective functions are values

What a user expects: every objective function has its own surrogate model.  A copy starts with the
settings and the surrogate model of the original as they are at this moment; from then on the two have
nothing to do with each other. -/

namespace Rodeo.Spec.FnValue

open FnCopy (Kind Guard Behaviour Op Answer)

/-- The value of an objective function. -/
structure Val (M D : Type) where
  data : D
  isDefined : Bool
  isInitialized : Bool
  model : M

abbrev Vals (M D : Type) := Nat → Option (Val M D)

variable {M D C A : Type}

/-- The function as it is after it has been connected with the surrogate model of its definition. -/
def connected (B : Behaviour M D C A) (f : Val M D) : Option (Val M D) :=
  (B.kind f.data).map fun k =>
    { f with model := if k = .universal then B.linearOn f.model else f.model, isDefined := true }

/-- The flag that a call asks for is set. -/
def Allowed (B : Behaviour M D C A) (c : C) (f : Val M D) : Prop :=
  (B.guard c = .defined → f.isDefined = true) ∧ (B.guard c = .initialized → f.isInitialized = true)

instance (B : Behaviour M D C A) (c : C) (f : Val M D) : Decidable (Allowed B c f) := by
  unfold Allowed; infer_instance

/-- One statement of a program: it concerns the function it names, and no other one. -/
def step (B : Behaviour M D C A) (s : Vals M D) : Op D C → Vals M D × Res (Answer A)
  | .create x =>
    if (s x).isNone then (Function.update s x (some ⟨B.fresh, false, false, B.blank⟩), .ok .done)
    else (s, .ok .done)
  | .copy x y =>
    if (s x).isNone ∧ (s y).isSome then (Function.update s x (s y), .ok .done) else (s, .ok .done)
  | .assign x y =>
    if (s x).isSome ∧ (s y).isSome then (Function.update s x (s y), .ok .done) else (s, .ok .done)
  | .destroy x => (Function.update s x none, .ok .done)
  | .edit x h => (Function.update s x ((s x).map fun f => { f with data := h f.data }), .ok .done)
  | .bind x =>
    match s x with
    | none => (s, .ok .done)
    | some f =>
      match connected B f with
      | none => (s, .error .runtimeError)
      | some g => (Function.update s x (some g), .ok .done)
  | .init x =>
    match s x with
    | none => (s, .ok .done)
    | some f =>
      match connected B f with
      | none => (s, .error .runtimeError)
      | some g =>
        if B.ready f.data then
          match B.setup g.data g.model with
          | (m, .ok _) => (Function.update s x (some { g with model := m, isInitialized := true }), .ok .done)
          | (m, .error e) => (Function.update s x (some { g with model := m }), .error e)
        else (s, .error .runtimeError)
  | .call x c =>
    match s x with
    | none => (s, .ok .done)
    | some f =>
      if Allowed B c f then
        let r := B.call c f.data f.model
        (Function.update s x (some { f with model := r.1 }), r.2.map .value)
      else (s, .error .abort)

/-- A program and its answers. -/
def run (B : Behaviour M D C A) (s : Vals M D) : List (Op D C) → Vals M D × List (Res (Answer A))
  | [] => (s, [])
  | op :: ops =>
    let r := step B s op
    let t := run B r.1 ops
    (t.1, r.2 :: t.2)

/-- No function exists yet. -/
def noFunctions : Vals M D := fun _ => none

/-- The type of surrogate model of the definition of `x` is one of the two Kriging models. -/
def Kriging (B : Behaviour M D C A) (s : Vals M D) (x : Nat) : Prop :=
  ∃ f k, s x = some f ∧ B.kind f.data = some k ∧ k ≠ .other

/-- `Connected B s own ops`: in the program `ops`, started with the functions `s`, every function that is
initialized has a Kriging definition, and every function that is asked for something has been connected
with a surrogate model of its own - by `bindSurrogateModel` or `initializeSurrogate`, called for this very
object after it was created, copied or overwritten.  `own` lists the objects for which this has happened. -/
def Connected (B : Behaviour M D C A) : Vals M D → (Nat → Prop) → List (Op D C) → Prop
  | _, _, [] => True
  | s, own, op :: ops =>
    (match op with
      | .init x => s x = none ∨ (∃ f, s x = some f ∧ B.kind f.data = none) ∨ Kriging B s x
      | .call x _ => s x = none ∨ own x
      | _ => True) ∧
    Connected B (step B s op).1
      (match op with
        | .create x => fun z => own z ∧ (z = x → s x ≠ none)
        | .copy x _ => fun z => own z ∧ (z = x → s x ≠ none)
        | .assign x _ => fun z => own z ∧ z ≠ x
        | .destroy x => fun z => own z ∧ z ≠ x
        | .bind x => fun z => own z ∨ z = x ∧ Kriging B s x
        | .init x => fun z => own z ∨ z = x ∧ Kriging B s x ∧ ∃ f, s x = some f ∧ B.ready f.data = true
        | _ => own) ops

/-- `Prepared B s ops`: the condition a user would expect to be enough.  Every function that is asked for
something has a Kriging definition and is connected with a surrogate model, or is a copy of one that is. -/
def Prepared (B : Behaviour M D C A) : Vals M D → List (Op D C) → Prop
  | _, [] => True
  | s, op :: ops =>
    (match op with
      | .init x => s x = none ∨ Kriging B s x
      | .call x _ => s x = none ∨ Kriging B s x ∧ ∃ f, s x = some f ∧ f.isDefined = true
      | _ => True) ∧
    Prepared B (step B s op).1 ops

end Rodeo.Spec.FnValue
