import Verif.Basic
import Mathlib.Logic.Function.Basic

/-!
# Copies of objective and constraint functions

An `ObjectiveFunction` owns a Kriging model by value (`KrigingModel surrogateModel`) and reaches it only
through a pointer (`SurrogateModel *surrogate`, objective_function.hpp 115-116).  The class declares no
copy constructor and no assignment, so the ones of the compiler are used: they copy the model and they
copy the pointer.

The model keeps a memory of named objects.  What the Kriging model, the definition and the other members
do is left open (`Behaviour`): every theorem holds whatever they do.
-/

namespace Rodeo.FnCopy

/-- `SURROGATE_MODEL` as far as `bindSurrogateModelSingleFidelity` tells its values apart
(surrogate_model.hpp 46-52, objective_function.cpp 234-242): `other` stands for every type that is neither
ordinary nor universal Kriging, for instance `GRADIENT_ENHANCED` and `TANGENT_ENHANCED`, which the
configuration file accepts (driver_xml.cpp 70-93). -/
inductive Kind where
  | ordinary
  | universal
  | other
  deriving DecidableEq, Repr

/-- Which flag a member function asserts before it follows the pointer: `getTrainingData` asserts
`ifSurrogateModelIsDefined` (objective_function.cpp 293-298), `trainSurrogate` and `addDesignToData` assert
`ifInitialized` (objective_function.cpp 389-400), and `interpolate`, `interpolateWithVariance`,
`calculateExpectedImprovementUsingDerivatives` and `printSurrogate` check nothing. -/
inductive Guard where
  | unchecked
  | defined
  | initialized
  deriving DecidableEq, Repr

/-- What the parts of an objective function do that this model leaves open.  `D` is the state of the
members stored by value (definition, bounds, dimension, names, flags), `M` the state of a Kriging model,
`C` the calls that reach the surrogate model and `A` their answers. -/
structure Behaviour (M D C A : Type) where
  /-- A freshly constructed Kriging model. -/
  blank : M
  /-- The other members of a freshly constructed function. -/
  fresh : D
  /-- The model type of the definition; `none` before `setParametersByDefinition`. -/
  kind : D → Option Kind
  /-- Bounds are set and the dimension is positive. -/
  ready : D → Bool
  /-- `KrigingModel::setLinearRegressionOn`. -/
  linearOn : M → M
  /-- The calls of `initializeSurrogate` on the model: name, dimension, bounds, data, regression. -/
  setup : D → M → M × Res Unit
  /-- A call that ends in the surrogate model: a prediction, the training, a new sample. -/
  call : C → D → M → M × Res A
  /-- The assertion in front of it. -/
  guard : C → Guard

/-- An object of class `ObjectiveFunction` or `ConstraintFunction` (objective_function.hpp 95-140).
`ptr` is the name of the object whose `surrogateModel` the member `surrogate` points to; `none` is the
uninitialized pointer of a fresh object. -/
structure Fn (M D : Type) where
  data : D
  /-- `ifSurrogateModelIsDefined` -/
  isDefined : Bool
  /-- `ifInitialized` -/
  isInitialized : Bool
  /-- `surrogateModel` -/
  model : M
  /-- `surrogate` -/
  ptr : Option Nat

/-- The objects that are alive.  Simplification: an object is named by a number, and the name stands for
its address. -/
abbrev Mem (M D : Type) := Nat → Option (Fn M D)

/-- What a program does with objective functions. -/
inductive Op (D C : Type) where
  /-- `ObjectiveFunction x;` -/
  | create (x : Nat)
  /-- `ObjectiveFunction x(y);` - also `constraintFunctions.push_back(y)` and the move of the elements
  when the vector grows -/
  | copy (x y : Nat)
  /-- `x = y;` - also `Optimizer::addObjectFunction` -/
  | assign (x y : Nat)
  /-- The end of the life of `x`. -/
  | destroy (x : Nat)
  /-- A setter that touches no surrogate model: `setParametersByDefinition`, `setParameterBounds`,
  `setDimension`, `setFileNameTrainingData`, ... -/
  | edit (x : Nat) (f : D → D)
  /-- `x.bindSurrogateModel();` -/
  | bind (x : Nat)
  /-- `x.initializeSurrogate();` -/
  | init (x : Nat)
  /-- `x.interpolate(..)`, `x.trainSurrogate()`, `x.addDesignToData(..)`, ... -/
  | call (x : Nat) (c : C)

/-- The answer of a call. -/
inductive Answer (A : Type) where
  | done
  | value (a : A)
  deriving DecidableEq, Repr

variable {M D C A : Type}

/-- Follow the pointer `surrogate` of `f` and let the model it points to do something
(`surrogate->...`).  An uninitialized pointer, and one to an object that is no longer alive, is undefined
behaviour. -/
def through {B : Type} (s : Mem M D) (f : Fn M D) (act : M → M × Res B) : Mem M D × Res B :=
  match f.ptr with
  | none => (s, .error .ub)
  | some t =>
    match s t with
    | none => (s, .error .ub)
    | some g =>
      let r := act g.model
      (Function.update s t (some { g with model := r.1 }), r.2)

/-- `bindSurrogateModel` (objective_function.cpp 218-254) on the object `f` with name `x`; `none`: it
throws because there is no definition. -/
def bound (B : Behaviour M D C A) (x : Nat) (f : Fn M D) : Option (Fn M D) :=
  match B.kind f.data with
  | none => none
  | some .ordinary => some { f with ptr := some x, isDefined := true }
  | some .universal => some { f with model := B.linearOn f.model, ptr := some x, isDefined := true }
  | some .other => some { f with isDefined := true }

/-- Set the flag `ifInitialized` of `x`. -/
def markInitialized (s : Mem M D) (x : Nat) : Mem M D :=
  match s x with
  | none => s
  | some f => Function.update s x (some { f with isInitialized := true })

/-- `initializeSurrogate` (objective_function.cpp 340-384). -/
def initializeSurrogate (B : Behaviour M D C A) (s : Mem M D) (x : Nat) (f : Fn M D) : Mem M D × Res (Answer A) :=
  if B.ready f.data = false then (s, .error .runtimeError)
  else
    match bound B x f with
    | none => (s, .error .runtimeError)
    | some g =>
      match through (Function.update s x (some g)) g (B.setup g.data) with
      | (s', .error e) => (s', .error e)
      | (s', .ok _) => (markInitialized s' x, .ok .done)

/-- The assertion of a member function. -/
def passes (g : Guard) (f : Fn M D) : Bool :=
  match g with
  | .unchecked => true
  | .defined => f.isDefined
  | .initialized => f.isInitialized

/-- One statement of the program.  A statement about an object that does not exist (or, for a
construction, already exists) is not a program; the model ignores it. -/
def step (B : Behaviour M D C A) (s : Mem M D) : Op D C → Mem M D × Res (Answer A)
  | .create x =>
    match s x with
    | some _ => (s, .ok .done)
    | none => (Function.update s x (some ⟨B.fresh, false, false, B.blank, none⟩), .ok .done)
  | .copy x y =>
    match s x, s y with
    | none, some g => (Function.update s x (some g), .ok .done)
    | _, _ => (s, .ok .done)
  | .assign x y =>
    match s x, s y with
    | some _, some g => (Function.update s x (some g), .ok .done)
    | _, _ => (s, .ok .done)
  | .destroy x => (Function.update s x none, .ok .done)
  | .edit x h =>
    match s x with
    | none => (s, .ok .done)
    | some f => (Function.update s x (some { f with data := h f.data }), .ok .done)
  | .bind x =>
    match s x with
    | none => (s, .ok .done)
    | some f =>
      match bound B x f with
      | none => (s, .error .runtimeError)
      | some g => (Function.update s x (some g), .ok .done)
  | .init x =>
    match s x with
    | none => (s, .ok .done)
    | some f => initializeSurrogate B s x f
  | .call x c =>
    match s x with
    | none => (s, .ok .done)
    | some f =>
      if passes (B.guard c) f = false then (s, .error .abort)
      else
        match through s f (B.call c f.data) with
        | (s', .error e) => (s', .error e)
        | (s', .ok a) => (s', .ok (.value a))

/-- A program, and the answer of each of its statements.  An exception is caught by the user and the
program goes on; whatever follows an `abort` or undefined behaviour is not meaningful, and the theorems
about whole programs say where there is none. -/
def run (B : Behaviour M D C A) (s : Mem M D) : List (Op D C) → Mem M D × List (Res (Answer A))
  | [] => (s, [])
  | op :: ops =>
    let r := step B s op
    let t := run B r.1 ops
    (t.1, r.2 :: t.2)

/-- No object exists yet. -/
def noObjects : Mem M D := fun _ => none

end Rodeo.FnCopy
