import Verif.Model.EGO
import Verif.Model.Acquisition
import Verif.Model.Surrogates

/-! # Model of a whole optimization with its surrogate models and files
(`Optimizers/efficient_global_optimization.cpp`, `Optimizers/optimization.cpp`,
`Optimizers/optimization_constraint_functions.cpp`)

The steps of `Model/EGO` that use the surrogate models and the training data files are replaced by calls
on the Kriging models of `Model/Surrogates`; the other steps are the same.  The simulations do not change
the training data files. -/

namespace Rodeo

open Text

variable {K : Type} [Field K] [LinearOrder K] [IsStrictOrderedRing K]

/-- Settings, simulations and random numbers.  Of `base` the members `initSurrogates`, `train`,
`surrogate` and `addSample` are not used, and the training data in `setup.problem.constraints` are
replaced by those of the models.  The numbers are those of an iteration (0 before the loop); the next
argument is the function. -/
structure CampaignEnv (K : Type) where
  base : EGOEnv K
  fns : Fns K
  erf : K → K
  /-- the shuffles of the rows by the data object and by that of the linear model, when a surrogate is
  initialised and when a sample is added -/
  permInit : Nat → Option Nat → Nat → List Nat
  permInitL : Nat → Option Nat → Nat → List Nat
  permAdd : Nat → Option Nat → Nat → List Nat
  permAddL : Nat → Option Nat → Nat → List Nat
  /-- the random numbers of the threads of a training -/
  draws : Nat → Option Nat → Nat → EAEnv K
  /-- the order in which they deliver their results -/
  schedule : Nat → Option Nat → List Nat

/-- The optimizer, the functions of the problem and the files. -/
abbrev CampaignState (K : Type) := EGOState K × Models K

/-- A step: the state it leaves and the outcome. -/
abbrev CStep (K : Type) := CampaignState K → CampaignState K × Res Unit

/-- First `f`, then, if nothing was thrown, `g`. -/
def CStep.then (f g : CStep K) : CStep K := fun p => andThen (f p) g

/-- A step of the optimizer that uses neither surrogate models nor files. -/
def CStep.lift (f : Step K) : CStep K := fun p => (((f p.1).1, p.2), (f p.1).2)

/-- A step on the surrogate models and files only. -/
def CStep.onModels (f : Models K → Models K × Res Unit) : CStep K := fun p =>
  ((p.1, (f p.2).1), (f p.2).2)

namespace Campaign

/-- The positions of the constraints that are not user defined functions. -/
def modelled (cs : List (Constraint K)) : List (Option Nat) :=
  cs.zipIdx.filterMap fun c =>
    match c.1.source with
    | .user _ => none
    | .data _ => some (some c.2)

section models
variable [FloorRing K]

/-- `initializeSurrogate` of several functions, one after the other. -/
def initList (E : CampaignEnv K) (n : Nat) : List (Option Nat) → Models K → Models K × Res Unit
  | [], m => (m, .ok ())
  | key :: l, m => andThen (m.init E.fns key (E.permInit n key) (E.permInitL n key)) (initList E n l)

/-- `Optimizer::initializeSurrogates` (optimization.cpp 197-222). -/
def initializeSurrogates (E : CampaignEnv K) (n : Nat) : Models K → Models K × Res Unit :=
  initList E n (none :: modelled E.base.setup.problem.constraints)

/-- `Optimizer::trainSurrogatesForConstraints` (optimization_constraint_functions.cpp 135-154);
`ConstraintFunction::trainSurrogate` (constraint_functions.cpp 126-131) does nothing for user defined
functions. -/
def trainList (E : CampaignEnv K) (n : Nat) : List (Option Nat) → Models K → Models K × Res Unit
  | [], m => (m, .ok ())
  | key :: l, m => andThen (swallow (m.train E.fns key (E.draws n key) (E.schedule n key)))
      (trainList E n l)

/-- `Optimizer::trainSurrogates` (optimization.cpp 227-234). -/
def trainSurrogates (E : CampaignEnv K) (n : Nat) (m : Models K) : Models K × Res Unit :=
  andThen (m.train E.fns none (E.draws n none) (E.schedule n none))
    (trainList E n (modelled E.base.setup.problem.constraints))

/-- The training data of the constraints, as `ConstraintFunction::getTrainingData` delivers them. -/
def withData (m : Models K) (cs : List (Constraint K)) : List (Constraint K) :=
  cs.zipIdx.map fun c =>
    match c.1.source with
    | .user _ => c.1
    | .data _ => { c.1 with source := .data (m.fn (some c.2)).krig.data.rawData }

/-- The optimizer after `initializeSurrogates`, which reads the training data of the constraints from
their models. -/
def filled (E : CampaignEnv K) (m : Models K) : CampaignEnv K :=
  { E with base := { E.base with setup := { E.base.setup with problem := { E.base.setup.problem with
      constraints := withData m E.base.setup.problem.constraints } } } }

/-- efficient_global_optimization.cpp 18-21. -/
def trainStep (E : CampaignEnv K) : CStep K := fun p =>
  if E.base.howOften = 0 then (p, .error .ub)
  else if p.1.iteration % E.base.howOften = 1 then
    CStep.onModels (fun m => andThen (initializeSurrogates E p.1.iteration m)
      (trainSurrogates E p.1.iteration))
      ({ p.1 with trained := p.1.trained ++ [p.1.iteration] }, p.2)
  else (p, .ok ())

/-- `objFun.addDesignToData(currentBestDesign, "primal")` (objective_function.cpp 612-661). -/
def dataStep (E : CampaignEnv K) : CStep K := fun p =>
  match p.1.current.sampleObjective with
  | .error e => (p, .error e)
  | .ok x =>
    CStep.onModels (fun m => m.add E.fns .runtimeError none x (E.permAdd p.1.iteration none)
      (E.permAddL p.1.iteration none)) ({ p.1 with samples := p.1.samples ++ [(none, x)] }, p.2)

/-- `ConstraintFunction::addDesignToData` (constraint_functions.cpp 235-249) for the constraint at
position `k`. -/
def constraintData (E : CampaignEnv K) (k : Nat) (c : Constraint K) : CStep K := fun p =>
  match c.source with
  | .user _ => (p, .ok ())
  | .data _ =>
    if c.id < 0 then (p, .error .abort)
    else match p.1.current.sampleConstraint c.id.toNat with
      | .error e => (p, .error e)
      | .ok x =>
        CStep.onModels (fun m => m.add E.fns .abort (some k) x (E.permAdd p.1.iteration (some k))
          (E.permAddL p.1.iteration (some k)))
          ({ p.1 with samples := p.1.samples ++ [(some c.id.toNat, x)] }, p.2)

/-- `addConstraintValuesToData` (optimization_constraint_functions.cpp 178-186) from position `k` on. -/
def constraintDataStep (E : CampaignEnv K) : Nat → List (Constraint K) → CStep K
  | _, [] => fun p => (p, .ok ())
  | k, c :: cs => CStep.then (constraintData E k c) (constraintDataStep E (k + 1) cs)

end models

/-! ## The acquisition function -/

/-- The constraints as the acquisition function uses them. -/
def acqConstraints (E : CampaignEnv K) (m : Models K) : List (AcqConstraint K) :=
  E.base.setup.problem.constraints.zipIdx.map fun c =>
    ⟨c.1.id, c.1.type, c.1.target,
      match c.1.source with
      | .user f => some f
      | .data _ => none,
      (m.fn (some c.2)).krig.interpolateWithVariance E.fns⟩

/-- The minimum given to the objective function (optimization.cpp 755-766); `LARGE` is `1e15`. -/
def feasibleMinimum (s : EGOState K) : K :=
  if s.global.design.feasible then s.global.design.trueValue else 10 ^ 15

/-- The objective function as the acquisition function uses it, with the factor `sigma`. -/
def acqObjective (E : CampaignEnv K) (m : Models K) (minimum sigma : K) : AcqObjective K :=
  ⟨(m.fn none).krig.interpolateWithVariance E.fns, minimum, sigma⟩

/-- A value that was computed, 0 otherwise (`C90_acquisition` shows that it is always computed). -/
def valueOf (r : Res (AcqDesign K)) : K :=
  match r with
  | .ok d => d.value
  | .error _ => 0

/-- The answers of the surrogate models in one search (optimization.cpp 237-247, 683-690, 724-729,
745-784).  With a factor that is not a number the test `fabs(sigma) > EPSILON` fails and the expected
improvement is 0 (objective_function.cpp 468-489); infinite factors do not occur (`sigmaFactorOf` limits
them). -/
def acqOf (E : CampaignEnv K) (m : Models K) (s : EGOState K) : Acq K where
  ei dv := match s.sigma with
    | .fin x => valueOf ((acqObjective E m (feasibleMinimum s) x).calculateExpectedImprovement E.fns E.erf
        (AcqDesign.new dv E.base.setup.problem.constraints.length))
    | _ => 0
  penalty dv := valueOf (addPenalty E.fns E.erf E.base.setup.problem.lb E.base.setup.problem.ub
    (acqConstraints E m)
    { AcqDesign.new dv E.base.setup.problem.constraints.length with value := 1 })

section round
variable [FloorRing K]

/-- `findTheMostPromisingDesignToBeSimulated` (optimization.cpp 1179-1211). -/
def proposeStep (E : CampaignEnv K) : CStep K := fun p =>
  CStep.lift (Step.ofRes fun s => do
    let r ← findDesignToSimulate (acqOf E p.2 s) E.base.setup E.base.fuel s.global.design.paramsNormalized
      s.tr.length (E.base.search s.iteration)
    .ok { s with current := { s.current with params := r.2, paramsNormalized := r.1 } }) p

/-- One iteration (efficient_global_optimization.cpp 10-113). -/
def iterate (E : CampaignEnv K) : CStep K :=
  CStep.then (.lift EGO.countStep) <| CStep.then (trainStep E) <| CStep.then (proposeStep E) <|
  CStep.then (.lift (EGO.evaluateStep E.base)) <| CStep.then (.lift (EGO.constraintStep E.base)) <|
  CStep.then (.lift EGO.improvementStep) <| CStep.then (.lift (EGO.nanStep E.base)) <|
  CStep.then (dataStep E) <| CStep.then (constraintDataStep E 0 E.base.setup.problem.constraints) <|
  CStep.then (.lift EGO.historyStep) <| CStep.then (.lift EGO.successStep) <|
  CStep.then (.lift (EGO.sigmaStep E.base)) (.lift (EGO.globalStep E.base))

/-- `performEfficientGlobalOptimizationOnlyWithFunctionalValues` (efficient_global_optimization.cpp
8-127), at most `n` rounds. -/
def loop (E : CampaignEnv K) : Nat → CStep K
  | 0 => fun p => (p, .error .outOfFuel)
  | n + 1 => CStep.then (iterate E) fun p =>
      if p.1.iteration ≥ E.base.maxSamples then (p, .ok ()) else loop E n p

/-- The part after `initializeSurrogates` (efficient_global_optimization.cpp 153-166): the history starts
with the training data of the objective function. -/
def afterInit (E : CampaignEnv K) (n : Nat) : CStep K := fun p =>
  CStep.then (.lift (EGO.initStep (filled E p.2).base (p.2.fn none).krig.data.rawData))
    (loop (filled E p.2) n) p

/-- `performEfficientGlobalOptimization` (efficient_global_optimization.cpp 131-167), at most `n` rounds
of the loop. -/
def perform (E : CampaignEnv K) (objSet : Bool) (n : Nat) : CStep K :=
  CStep.then (.lift (EGO.checkStep { E.base with initSurrogates := .ok () } objSet)) <|
  CStep.then (.onModels (initializeSurrogates E 0)) (afterInit E n)

end round
end Campaign
end Rodeo
