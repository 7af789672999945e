import Verif.Model.Surrogates
import Verif.Model.Design

/-! # Model of the modes in which designs are added to the training data
(`ObjectiveFunctions/objective_function.cpp`)

`Model/Surrogates` has the mode of the optimizer, one fidelity and values without derivatives.  Here are all
modes and the flag for two fidelities. -/

namespace Rodeo

open Text

variable {K : Type} [Field K] [LinearOrder K] [IsStrictOrderedRing K]

/-- An objective function with the members that decide how a design is added (objective_function.hpp 72,
111). -/
structure DataFn (K : Type) where
  fn : SurrogateFn K
  /-- `definition.ifMultiLevel` -/
  multiLevel : Bool
  /-- `addDataMode` -/
  addDataMode : Str

namespace DataFn

/-- `validateDataAddMode` (objective_function.cpp 188-193). -/
def validMode (mode : Str) : Bool :=
  ["primal".toList, "adjoint".toList, "tangent".toList].contains mode

/-- `setDataAddMode` (objective_function.cpp 196-204). -/
def setDataAddMode (x : DataFn K) (mode : Str) : DataFn K × Res Unit :=
  if mode = [] then (x, .error .invalidArgument)
  else if validMode mode = false then (x, .error .invalidArgument)
  else ({ x with addDataMode := mode }, .ok ())

/-- The sample for one fidelity (objective_function.cpp 558-571 and 641-654): an unknown mode leaves the
vector empty. -/
def chooseSample (d : Design K) (mode : Str) : Res (List K) :=
  if mode = "primal".toList then d.sampleObjective
  else if mode = "tangent".toList then d.sampleObjectiveTangent
  else if mode = "adjoint".toList then d.sampleObjectiveGradient
  else if mode = "adjointWithZeroGradient".toList then d.sampleObjectiveZeroGradient
  else .ok []

/-- The end of both functions for one fidelity: the sample is built and handed to the model
(objective_function.cpp 574-575, 657-658).  Function, training data file and outcome. -/
def addOne [FloorRing K] (F : Fns K) (x : DataFn K) (file : Option Str) (d : Design K) (mode : Str)
    (perm permL : Nat → List Nat) : (DataFn K × Option Str) × Res Unit :=
  match chooseSample d mode with
  | .error e => ((x, file), .error e)
  | .ok sample =>
    let r := x.fn.addSample F .abort file sample perm permL
    (({ x with fn := r.1.1 }, r.1.2), r.2)

/-- The two modes for two fidelities (objective_function.cpp 583-607): both samples are built, then
`addNewLowFidelitySampleToData` of the Kriging model throws (kriging_training.cpp 444-449). -/
def addTwo (x : DataFn K) (file : Option Str) (hiFi lowFi : Res (List K)) :
    (DataFn K × Option Str) × Res Unit :=
  match hiFi, lowFi with
  | .error e, _ => ((x, file), .error e)
  | .ok _, .error e => ((x, file), .error e)
  | .ok h, .ok l =>
    if l = [] ∨ h = [] then ((x, file), .error .abort) else ((x, file), .error .logicError)

/-- `addDesignToData(d)` (objective_function.cpp 549-614). -/
def addDesignToData [FloorRing K] (F : Fns K) (x : DataFn K) (file : Option Str) (d : Design K)
    (perm permL : Nat → List Nat) : (DataFn K × Option Str) × Res Unit :=
  if x.fn.fileName = [] ∨ x.fn.initialized = false ∨ x.addDataMode = [] then ((x, file), .error .abort)
  else if x.multiLevel = false then addOne F x file d x.addDataMode perm permL
  else if x.addDataMode = "primalBoth".toList then
    addTwo x file d.sampleObjective d.sampleObjectiveLowFi
  else if x.addDataMode = "primalHiFiAdjointLowFi".toList then
    addTwo x file d.sampleObjective d.sampleObjectiveGradientLowFi
  else ((x, file), .ok ())

/-- `addDesignToData(d, how)` (objective_function.cpp 617-662). -/
def addDesignToDataHow [FloorRing K] (F : Fns K) (x : DataFn K) (file : Option Str) (d : Design K)
    (how : Str) (perm permL : Nat → List Nat) : (DataFn K × Option Str) × Res Unit :=
  if x.fn.fileName = [] ∨ x.fn.initialized = false ∨ how = [] then ((x, file), .error .runtimeError)
  else if x.multiLevel = false then addOne F x file d how perm permL
  else ((x, file), .ok ())

end DataFn
end Rodeo
