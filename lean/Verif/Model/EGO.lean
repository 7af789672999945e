import Verif.Model.AcqSearch

/-! # Model of the optimization loop
(`Optimizers/efficient_global_optimization.cpp`, `Optimizers/optimization.cpp`,
`Optimizers/optimization_constraint_functions.cpp`)

Objectives without gradients, one fidelity.  Every step delivers the optimizer as it is left together with
the outcome, so that what happened before an exception stays visible.  Logging, timing and the XML file of
the global optimum are left out. -/

namespace Rodeo

open Text

/-- A `double` that may be infinite or NaN. -/
inductive Ext (K : Type) where
  | fin (x : K)
  | pinf
  | ninf
  | nan
  deriving DecidableEq

variable {K : Type} [Field K] [LinearOrder K] [IsStrictOrderedRing K]

namespace Ext

/-- `a / b` in IEEE arithmetic, where `b = 0` is a positive zero. -/
def div (a b : K) : Ext K :=
  if b ≠ 0 then .fin (a / b) else if a > 0 then .pinf else if a < 0 then .ninf else .nan

/-- `m * x` in IEEE arithmetic. -/
def scale (m : K) : Ext K → Ext K
  | .fin x => .fin (m * x)
  | .pinf => if m > 0 then .pinf else if m < 0 then .ninf else .nan
  | .ninf => if m > 0 then .ninf else if m < 0 then .pinf else .nan
  | .nan => .nan

/-- `x < a` in IEEE arithmetic. -/
def lt : Ext K → K → Bool
  | .fin x, a => decide (x < a)
  | .pinf, _ => false
  | .ninf, _ => true
  | .nan, _ => false

/-- `x > a` in IEEE arithmetic. -/
def gt : Ext K → K → Bool
  | .fin x, a => decide (x > a)
  | .pinf, _ => true
  | .ninf, _ => false
  | .nan, _ => false

end Ext

/-- The factor computed in `Optimizer::adjustSigmaFactor` (optimization.cpp 1260-1289) from the crowding
coefficient, the crowding factor, the multiplier, the two random draws (an integer, and a number between
2 and 3) and the limits. -/
def sigmaFactorOf (coefficient crowding multiplier : K) (draw : Int × K) (lo hi : K) : Ext K :=
  let s := Ext.scale multiplier (Ext.div coefficient crowding)
  let s := if draw.1 % 5 = 0 then Ext.scale draw.2 s else s
  let s := if s.lt lo then .fin lo else s
  if s.gt hi then .fin hi else s

/-- Everything around the optimizer and its settings.  The functions indexed by an iteration number are
arbitrary: simulations, surrogate models, training and random numbers may behave differently in every
iteration. -/
structure EGOEnv (K : Type) where
  setup : SearchSetup K
  /-- `maxNumberOfSamples` -/
  maxSamples : Nat
  /-- `howOftenTrainModels` -/
  howOften : Nat
  /-- `ifVariableSigmaStrategy` -/
  variableSigma : Bool
  /-- names of the constraints -/
  constraintNames : List Str
  /-- the simulation of the objective function -/
  objective : Nat → List K → Res K
  /-- the simulation of constraint number `k` of the list, if it is not a user defined function -/
  constraint : Nat → Nat → List K → Res K
  /-- which numbers are NaN -/
  isNan : K → Bool
  /-- outcome of `initializeSurrogates` before the loop -/
  initSurrogates : Res Unit
  /-- outcome of `initializeSurrogates` and `trainSurrogates` -/
  train : Nat → Res Unit
  /-- answers of the surrogates -/
  surrogate : Nat → Acq K
  search : Nat → SearchOracle K
  /-- outcome of `addNewSampleToData` of the objective (`none`) or of a constraint -/
  addSample : Nat → Option Nat → List K → Res Unit
  sigmaDraw : Nat → Int × K
  /-- bound on the rounds of a line search -/
  fuel : Nat

/-- The members of `Optimizer` (Optimizers/INCLUDE/optimization.hpp) used by the loop, and the effects on
the outside. -/
structure EGOState (K : Type) where
  /-- `outerIterationNumber` -/
  iteration : Nat
  current : Design K
  global : GlobalDesign K
  history : History K
  /-- `bestFeasibleInitialValue` -/
  best : K
  tr : TrustRegion K
  /-- `sigmaFactor`, also that of the objective function -/
  sigma : Ext K
  sigmaMultiplier : K
  /-- `bestDeltaImprovementValueAchieved` -/
  bestDelta : K
  crowdingCoefficient : K
  /-- `statistics.numberOfObjectiveFunctionEvaluations` -/
  evaluations : Nat
  /-- iterations in which the surrogates were trained -/
  trained : List Nat
  /-- arguments of the simulations of the objective -/
  calls : List (List K)
  /-- samples handed over to the training data: of the objective (`none`) or of a constraint -/
  samples : List (Option Nat × List K)

/-- A step of the optimizer: the state it leaves and the outcome. -/
abbrev Step (K : Type) := EGOState K → EGOState K × Res Unit

/-- First `f`, then, if nothing was thrown, `g`. -/
def Step.then (f g : Step K) : Step K := fun s =>
  match f s with
  | (s', .ok _) => g s'
  | (s', .error e) => (s', .error e)

/-- A step that throws or changes the state. -/
def Step.ofRes (f : EGOState K → Res (EGOState K)) : Step K := fun s =>
  match f s with
  | .ok s' => (s', .ok ())
  | .error e => (s, .error e)

namespace EGO

/-- `outerIterationNumber++` (efficient_global_optimization.cpp 14); the `unsigned` counter does not
wrap around. -/
def countStep : Step K := fun s => ({ s with iteration := s.iteration + 1 }, .ok ())

/-- efficient_global_optimization.cpp 18-21.  `n % 0` is undefined. -/
def trainStep (E : EGOEnv K) : Step K := fun s =>
  if E.howOften = 0 then (s, .error .ub)
  else if s.iteration % E.howOften = 1 then
    ({ s with trained := s.trained ++ [s.iteration] }, E.train s.iteration)
  else (s, .ok ())

/-- `objFun.evaluateDesign(currentBestDesign)` (objective_function.cpp 716-760) and the counter
(efficient_global_optimization.cpp 28-29). -/
def evaluateStep (E : EGOEnv K) : Step K := fun s =>
  if s.current.params.length ≠ E.setup.problem.dimension then (s, .error .invalidArgument)
  else
    let s1 := { s with calls := s.calls ++ [s.current.params] }
    match E.objective s.iteration s.current.params with
    | .error e => (s1, .error e)
    | .ok v => ({ s1 with current := { s.current with trueValue := v },
                          evaluations := s.evaluations + 1 }, .ok ())

/-- The value of constraint number `k` of the list (constraint_functions.cpp 163-228). -/
def constraintValue (E : EGOEnv K) (n k : Nat) (c : Constraint K) (params : List K) : Res K :=
  match c.source with
  | .user f => .ok (f params)
  | .data _ => if params.length ≠ E.setup.problem.dimension then .error .invalidArgument
      else E.constraint n k params

/-- `ConstraintFunction::evaluateDesign` (constraint_functions.cpp 163-190): every exception becomes a
`runtime_error`; the value goes to the position of the constraint's number, which
`validateConstraintID` and the vector itself check. -/
def evaluateConstraint (E : EGOEnv K) (n k : Nat) (c : Constraint K) (d : Design K) : Res (Design K) :=
  match constraintValue E n k c d.params with
  | .error _ => .error .runtimeError
  | .ok v =>
    if c.id < 0 ∨ c.id ≥ d.constraintTrueValues.length then .error .runtimeError
    else .ok { d with constraintTrueValues := d.constraintTrueValues.set c.id.toNat v }

/-- `Optimizer::evaluateConstraints` (optimization_constraint_functions.cpp 123-133) from constraint
number `k` of the list on. -/
def evaluateConstraints (E : EGOEnv K) (n : Nat) : Nat → List (Constraint K) → Design K → Res (Design K)
  | _, [], d => .ok d
  | k, c :: cs, d => do
    let d1 ← evaluateConstraint E n k c d
    evaluateConstraints E n (k + 1) cs d1

/-- `computeConstraintsandPenaltyTerm` (optimization_constraint_functions.cpp 156-176), called for
constrained problems (efficient_global_optimization.cpp 31-33).  When a constraint throws, the values
written before it are not modelled. -/
def constraintStep (E : EGOEnv K) : Step K := Step.ofRes fun s =>
  if E.setup.problem.constraints.length > 0 then do
    let d ← evaluateConstraints E s.iteration 0 E.setup.problem.constraints s.current
    let b ← E.setup.problem.checkConstraintFeasibility d.constraintTrueValues
    .ok { s with current := { d with feasible := b } }
  else .ok s

/-- `calculateImprovementValue(currentBestDesign)` (optimization.cpp 1378-1399). -/
def improvementStep : Step K := fun s =>
  let r := improvementValue s.best s.current.feasible s.current.trueValue
  ({ s with best := r.1, current := { s.current with improvement := r.2 } }, .ok ())

/-- `abortIfCurrentDesignHasANaN` (optimization.cpp 1226-1230). -/
def nanStep (E : EGOEnv K) : Step K := fun s =>
  (s, if s.current.checkIfHasNan E.isNan then .error .runtimeError else .ok ())

/-- `objFun.addDesignToData(currentBestDesign, "primal")` (objective_function.cpp 612-661). -/
def dataStep (E : EGOEnv K) : Step K := fun s =>
  match s.current.sampleObjective with
  | .error e => (s, .error e)
  | .ok x => ({ s with samples := s.samples ++ [(none, x)] }, E.addSample s.iteration none x)

/-- `ConstraintFunction::addDesignToData` (constraint_functions.cpp 235-249). -/
def constraintData (E : EGOEnv K) (c : Constraint K) : Step K := fun s =>
  match c.source with
  | .user _ => (s, .ok ())
  | .data _ =>
    if c.id < 0 then (s, .error .abort)
    else match s.current.sampleConstraint c.id.toNat with
      | .error e => (s, .error e)
      | .ok x => ({ s with samples := s.samples ++ [(some c.id.toNat, x)] },
          E.addSample s.iteration (some c.id.toNat) x)

/-- `addConstraintValuesToData` (optimization_constraint_functions.cpp 178-186). -/
def constraintDataStep (E : EGOEnv K) : List (Constraint K) → Step K
  | [] => fun s => (s, .ok ())
  | c :: cs => Step.then (constraintData E c) (constraintDataStep E cs)

/-- The trust region and the multiplier after the comparison of the improvement values
(efficient_global_optimization.cpp 49-100). -/
def successStep : Step K := fun s =>
  let improved := decide (s.current.improvement > s.global.design.improvement)
  let s1 := { s with tr := s.tr.step improved }
  if improved then
    let delta := s.current.improvement - s.global.design.improvement
    let bestDelta := if delta > s.bestDelta then delta else s.bestDelta
    ({ s1 with bestDelta := bestDelta,
               sigmaMultiplier := if delta / bestDelta * 100 > 10 then 1 else s.sigmaMultiplier }, .ok ())
  else (s1, .ok ())

/-- The variable sigma strategy (efficient_global_optimization.cpp 102-106, optimization.cpp
1260-1289).  The limits 1 and 100 are those of `initializeOptimizerSettings` (59-60), the growth factor is
the member initialiser (Optimizers/INCLUDE/optimization.hpp 202). -/
def sigmaStep (E : EGOEnv K) : Step K := Step.ofRes fun s =>
  if E.variableSigma then do
    let h ← s.history.calculateCrowdingFactor
    .ok { s with
      history := h
      sigma := sigmaFactorOf s.crowdingCoefficient h.crowding s.sigmaMultiplier (E.sigmaDraw s.iteration)
        1 100
      sigmaMultiplier := s.sigmaMultiplier * (101 / 100) }
  else .ok s

/-- `findTheGlobalOptimalDesign` (optimization.cpp 306-331). -/
def globalStep (E : EGOEnv K) : Step K := Step.ofRes fun s =>
  if E.setup.problem.boxSet = false then .error .runtimeError
  else if s.history.data.nrows = 0 ∨ s.history.data.ncols = 0 then .error .runtimeError
  else do
    let g ← s.global.setFromHistory s.history.data
    .ok { s with global := g }

section round
variable [FloorRing K]

/-- `findTheMostPromisingDesignToBeSimulated` (optimization.cpp 1179-1211). -/
def proposeStep (E : EGOEnv K) : Step K := Step.ofRes fun s => do
  let r ← findDesignToSimulate (E.surrogate s.iteration) E.setup E.fuel s.global.design.paramsNormalized
    s.tr.length (E.search s.iteration)
  .ok { s with current := { s.current with params := r.2, paramsNormalized := r.1 } }

/-- `history.updateOptimizationHistory(currentBestDesign)` (efficient_global_optimization.cpp 47). -/
def historyStep : Step K := fun s =>
  let r := s.history.update s.current
  ({ s with history := r.1 }, r.2)

/-- The part of an iteration before anything is recorded (efficient_global_optimization.cpp 12-36). -/
def beforeRecording (E : EGOEnv K) : Step K :=
  Step.then countStep <| Step.then (trainStep E) <| Step.then (proposeStep E) <|
  Step.then (evaluateStep E) <| Step.then (constraintStep E) <| Step.then improvementStep (nanStep E)

/-- The rest of the iteration (efficient_global_optimization.cpp 38-113). -/
def recording (E : EGOEnv K) : Step K :=
  Step.then (dataStep E) <| Step.then (constraintDataStep E E.setup.problem.constraints) <|
  Step.then historyStep <| Step.then successStep <| Step.then (sigmaStep E) (globalStep E)

/-- One iteration (efficient_global_optimization.cpp 10-113). -/
def iterate (E : EGOEnv K) : Step K := Step.then (beforeRecording E) (recording E)

/-- `performEfficientGlobalOptimizationOnlyWithFunctionalValues` (efficient_global_optimization.cpp
8-127), at most `n` rounds. -/
def loop (E : EGOEnv K) : Nat → Step K
  | 0 => fun s => (s, .error .outOfFuel)
  | n + 1 => Step.then (iterate E) fun s =>
      if s.iteration ≥ E.maxSamples then (s, .ok ()) else loop E n s

/-- `checkBoxConstraints` (optimization.cpp 121-129). -/
def checkBoxConstraints (p : Problem K) : Res Bool :=
  noneOf p.dimension fun i =>
    match vat p.lb i, vat p.ub i with
    | .ok l, .ok u => .ok (decide (l ≥ u))
    | .error e, _ => .error e
    | _, .error e => .error e

/-- `performEfficientGlobalOptimization` up to `initializeSurrogates`
(efficient_global_optimization.cpp 136-152, optimization.cpp 50-67, 292-303); `objSet` is
`ifObjectFunctionIsSpecied`. -/
def checkStep (E : EGOEnv K) (objSet : Bool) : Step K := Step.ofRes fun s =>
  if objSet = false then .error .runtimeError
  else if E.setup.problem.boxSet = false then .error .runtimeError
  else if E.maxSamples = 0 then .error .runtimeError
  else do
    let b ← checkBoxConstraints E.setup.problem
    if b = false then .error .runtimeError
    else do
      let _ ← E.initSurrogates
      let d := E.setup.problem.dimension
      .ok { s with sigma := .fin 1, tr := { s.tr with lengthMin := (1 / 2) ^ 8 * (1 / (d : K)), lengthMax := 1 / (d : K) } }

/-- The constraint names are added to the history one after the other (optimization.cpp 1101-1105);
every constraint has a name, so that there are none in an unconstrained problem. -/
def addNames (h : History K) (names : List Str) : Res (History K) :=
  foldRes (fun h n => h.addConstraintName n) h names

/-- The crowding factor at the end of `initializeOptimizationHistory` (optimization.cpp 1110-1113). -/
def initialCrowding (E : EGOEnv K) (s : EGOState K) : Res (EGOState K) :=
  if E.variableSigma then do
    let h ← s.history.calculateCrowdingFactor
    match s.sigma with
    | .fin x => .ok { s with history := h, crowdingCoefficient := h.crowding * x }
    | _ => .error .nonFinite
  else .ok s

/-- `initializeCurrentBestDesign` and `initializeOptimizationHistory` (optimization.cpp 1213-1223,
1079-1114); `T` is the training data of the objective function. -/
def initStep (E : EGOEnv K) (T : Mat K) : Step K := Step.ofRes fun s => do
  let c ← s.current.setNumberOfConstraints E.setup.problem.constraints.length
  if E.setup.problem.dimension = 0 then .error .runtimeError
  else do
    let h ← addNames { s.history with dimension := E.setup.problem.dimension } E.constraintNames
    let r ← E.setup.problem.setHistoryData h s.global T
    initialCrowding E
      { s with current := { c with feasible := true }, history := r.1, best := r.2.1, global := r.2.2 }

/-- A new optimizer after the constructor with the dimension (optimization.cpp 26-35,
optimization_setter_getters.cpp 96-108), `addConstraint` for every constraint
(optimization_constraint_functions.cpp 21-28), `setBoxConstraints` (optimization_setter_getters.cpp 49-74)
and, if `names` is not empty, `setParameterNames` (125-127).  Members that are not initialised are 0. -/
def fresh (p : Problem K) (names : List Str) : Res (EGOState K) :=
  if p.dimension = 0 then .error .runtimeError
  else do
  let c ← (Design.new : Design K).setDimension p.dimension
  let g ← forRange p.constraints.length (fun k (g : Design K) => g.setNumberOfConstraints (k + 1)) c
  .ok {
    iteration := 0
    current := c
    global := ⟨g, ⟨p.lb, p.ub, p.dimension, true⟩⟩
    history := { (History.new : History K) with dimension := p.dimension, parameterNames := names }
    best := 0
    tr := { (TrustRegion.start p.dimension : TrustRegion K) with lengthMin := 0, lengthMax := 0 }
    sigma := .fin 1
    sigmaMultiplier := 1
    bestDelta := 0
    crowdingCoefficient := 0
    evaluations := 0
    trained := []
    calls := []
    samples := [] }

/-- `performEfficientGlobalOptimization` (efficient_global_optimization.cpp 131-167), at most `n`
rounds of the loop. -/
def perform (E : EGOEnv K) (objSet : Bool) (T : Mat K) (n : Nat) : Step K :=
  Step.then (checkStep E objSet) <| Step.then (initStep E T) (loop E n)

end round

end EGO
end Rodeo
