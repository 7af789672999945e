import Verif.Model.AcqSearch
import Verif.Model.OptimumGradient
import Verif.Model.Kriging
import Verif.Model.VecStat

/-! # Model of the gradient-based search step (`Optimizers/optimization.cpp` 457-663)

The loop over the trials is an OpenMP loop whose threads share the trial design, the best design and the
best value, without a critical section.  The steps of a thread are the statements of the loop body; a
schedule is an interleaving of these steps.  (The data race is undefined behaviour in C++; interleavings
of whole statements are its most benign outcomes.)  An exception that leaves the body is an error of the
search; with OpenMP it terminates the program. -/

namespace Rodeo

variable {K : Type} [Field K] [LinearOrder K] [IsStrictOrderedRing K]

/-- One round of the loop in `scaleGradientVector` (optimization.cpp 459-464). -/
def scaleGradientBody (dim : Nat) (lb ub : List K) (i : Nat) (g : List K) : Res (List K) := do
  let u ← vat ub i
  let l ← vat lb i
  let factor := (u - l) * (dim : K)
  if factor ≤ 0 then .error .runtimeError
  else do
    let a ← vat g i
    .ok (g.set i (a * factor))

/-- `Optimizer::scaleGradientVector` (optimization.cpp 457-465); `lb`, `ub` are the bounds of the
problem. -/
def scaleGradient (dim : Nat) (lb ub g : List K) : Res (List K) :=
  forRange dim (scaleGradientBody dim lb ub) g

/-- What the surrogates answer for a trial: the value stored by
`calculateExpectedImprovementUsingDerivatives` (objective_function.cpp 412-447), or its exception, and the
product of the feasibility probabilities. -/
structure GradAcq (K : Type) where
  ei : List K → Res K
  penalty : List K → K

/-- The answers of the surrogate models of the library: `KrigingModel::interpolateUsingDerivatives`
(kriging_training.cpp 561-564) and `LinearModel::interpolateUsingDerivatives` (linear_regression.cpp
187-190) throw `std::logic_error`, so `calculateExpectedImprovementUsingDerivatives`
(objective_function.cpp 412-447, line 421) throws it for every design.  (For the model type
`GRADIENT_ENHANCED` no surrogate is bound at all, objective_function.cpp 234-242.) -/
def libraryAcq : GradAcq K := ⟨fun _ => .error .logicError, fun _ => 1⟩

/-- The place of a thread in the loop body (optimization.cpp 526-542, 579-603). -/
inductive GradPc (K : Type) where
  | generate
  | test
  | evaluate
  | compare (v : K)
  | record (v : K)
  | copy
  deriving DecidableEq

/-- A thread: the trials it has still to draw, and its place. -/
structure GradThread (K : Type) where
  todo : List (List K)
  pc : GradPc K
  deriving DecidableEq

/-- The shared variables `designToBeTried`, `designWithMaxImprovement` and `maxEI`
(`maxImprovement`), and the threads. -/
structure GradSearch (K : Type) where
  trial : BODesign K
  best : BODesign K
  top : K
  threads : List (GradThread K)

namespace GradSearch

/-- The test `gradDotDv < 0` (optimization.cpp 529-532, 582-585). -/
def downhill (g incumbent dv : List K) : Res Bool := do
  let d ← Vec.sub dv incumbent
  let p ← Vec.dot d g
  .ok (decide (p < 0))

/-- The next statement of a thread (optimization.cpp 526-542 for `constrained = false`, 579-603 for
`constrained = true`).  The value compared and recorded is the shared member of the trial design without
constraints and the local variable `ExpectedImprovement` with constraints. -/
def threadStep (constrained : Bool) (E : GradAcq K) (g incumbent : List K) (s : GradSearch K)
    (t : GradThread K) : Res (GradSearch K × GradThread K) :=
  match t.pc, t.todo with
  | .generate, [] => .ok (s, t)
  | .generate, x :: xs => .ok ({ s with trial := { s.trial with dv := x } }, ⟨xs, .test⟩)
  | .test, _ => do
    let b ← downhill g incumbent s.trial.dv
    .ok (s, { t with pc := if b then .evaluate else .generate })
  | .evaluate, _ => do
    let v ← E.ei s.trial.dv
    .ok ({ s with trial := { s.trial with value := v } },
      { t with pc := .compare (if constrained then v * E.penalty s.trial.dv else v) })
  | .compare v, _ =>
    let w := if constrained then v else s.trial.value
    .ok (s, { t with pc := if w > s.top then .record v else .generate })
  | .record v, _ =>
    let w := if constrained then v else s.trial.value
    .ok ({ s with top := w }, { t with pc := .copy })
  | .copy, _ => .ok ({ s with best := s.trial }, { t with pc := .generate })

/-- Thread number `i` makes a step. -/
def step (constrained : Bool) (E : GradAcq K) (g incumbent : List K) (s : GradSearch K) (i : Nat) :
    Res (GradSearch K) :=
  match s.threads[i]? with
  | none => .ok s
  | some t => do
    let r ← threadStep constrained E g incumbent s t
    .ok { r.1 with threads := s.threads.set i r.2 }

/-- All threads have reached the end of the loop. -/
def Finished (s : GradSearch K) : Prop := ∀ t ∈ s.threads, t.todo = [] ∧ t.pc = .generate

/-- The trials of each thread. -/
def share (x : Execution) (cs : List (List K)) : List (List (List K)) :=
  (List.range x.threads).map (fun t => (cs.zipIdx.filter (fun c => x.owner c.2 = t)).map (fun c => c.1))

/-- The state at the beginning of the loop (optimization.cpp 515-517, 562-563).  The constructor with one
argument does not give the design vector a size (design_bo.cpp 35-40), the one with two does
(design_bo.cpp 24-33). -/
def start (constrained : Bool) (dim : Nat) (x : Execution) (cs : List (List K)) : GradSearch K where
  trial := ⟨List.replicate dim 0, 0⟩
  best := ⟨if constrained then List.replicate dim 0 else [], 0⟩
  top := -10 ^ 15
  threads := (share x cs).map (fun c => ⟨c, .generate⟩)

end GradSearch

/-- What a gradient-based step works on: the problem, the number of trials
(`iterMaxAcquisitionFunction`), `factorForGradientStepWindow` and `maximumIterationGradientStep`
(optimization.cpp 50-67: 0.01 and 5), and whether there are constraints. -/
structure GradSetup (K : Type) where
  dim : Nat
  lb : List K
  ub : List K
  constrained : Bool
  trials : Nat
  factor : K
  maximum : Nat

/-- `Optimizer::findPromisingDesignUnconstrainedGradientStep` (optimization.cpp 500-545) and
`Optimizer::findPromisingDesignConstrainedGradientStep` (547-609) in the window `w`. -/
def gradientSearch (S : GradSetup K) (E : GradAcq K) (gradient incumbent : List K)
    (w : List K × List K) (x : Execution) (u : Nat → Nat → K) : Res (BODesign K) :=
  if gradient.length ≠ S.dim then .error .runtimeError
  else do
    let g ← scaleGradient S.dim S.lb S.ub gradient
    if w.1.length ≠ S.dim then .error .runtimeError
    else if w.2.length ≠ S.dim then .error .runtimeError
    else do
      let cs ← tab S.trials fun i => Vec.fillRandom S.dim w.1 w.2 (u i)
      let s ← foldRes (GradSearch.step S.constrained E g incumbent)
        (GradSearch.start S.constrained S.dim x cs) x.schedule
      .ok s.best

/-- The members that steer the gradient-based steps (Optimizers/INCLUDE/optimization.hpp 149, 169-171):
`WillGradientStepBePerformed`, `iterationNumberGradientStep`, `trustRegionFactorGradientStep`,
`numberOfLocalSearchSteps`. -/
structure GradMode (K : Type) where
  will : Bool
  iteration : Nat
  window : K
  localSteps : Nat
  deriving DecidableEq

namespace GradMode

/-- A new optimizer (optimization.hpp 149, 169-171). -/
def new : GradMode K := ⟨false, 0, 1, 0⟩

/-- `Optimizer::decideIfNextStepWouldBeAGradientStep` (optimization.cpp 487-496). -/
def decideNext (maximum : Nat) (m : GradMode K) : GradMode K :=
  if m.iteration = maximum then { m with window := 1, iteration := 0, will := false } else m

/-- The updates after a gradient-based search (optimization.cpp 650-656). -/
def afterSearch (maximum : Nat) (m : GradMode K) : GradMode K :=
  let m := decideNext maximum { m with iteration := m.iteration + 1, window := m.window * (1 / 2) }
  { m with localSteps := m.localSteps + 1 }

end GradMode

/-- `GlobalOptimalDesign::checkIfGlobalOptimaHasGradientVector` (globalOptimalDesign.cpp 249-261);
`vec::is_zero` has the default tolerance `10E-9`. -/
def hasGradient (gradient : List K) : Res Bool :=
  if gradient = [] then .ok false
  else do
    let z ← Vec.isZero gradient (1 / 10 ^ 8)
    .ok (!z)

/-- `Optimizer::findTheMostPromisingDesignGradientStep` (optimization.cpp 611-663) after the gradient of
the global optimum has been read; `ego` is the outcome of `findTheMostPromisingDesignEGO`. -/
def gradientStep (S : GradSetup K) (E : GradAcq K) (gradient incumbent : List K) (x : Execution)
    (u : Nat → Nat → K) (ego : Res (BODesign K)) (m : GradMode K) : Res (BODesign K × GradMode K) := do
  let has ← hasGradient gradient
  let m := if has then m else { m with will := false }
  if m.will then do
    let w ← gradientStepWindow S.dim incumbent S.factor m.window
    let d ← gradientSearch S E gradient incumbent w x u
    .ok (d, m.afterSearch S.maximum)
  else do
    let d ← ego
    .ok (d, m)

section optimum
variable [FloorRing K]

/-- The first two lines of `Optimizer::findTheMostPromisingDesignGradientStep` (optimization.cpp 615,
the gradient is read from the training data) and the rest of it; `incumbent` are the normalized
parameters of the global optimum. -/
def gradientStepFromFile (S : GradSetup K) (E : GradAcq K) (g : GlobalDesign K) (incumbent : List K)
    (name : Text.Str) (file : Option Text.Str) (x : Execution) (u : Nat → Nat → K)
    (ego : Res (BODesign K)) (m : GradMode K) : Res (BODesign K × GradMode K) := do
  let g ← g.setGradient name file
  gradientStep S E g.design.gradient incumbent x u ego m

/-- The choice of the search in `Optimizer::findTheMostPromisingDesignToBeSimulated` (optimization.cpp
1185-1200): the normalized design and the members.  `enhanced` is
`doesObjectiveFunctionHaveGradients()` (optimization.cpp 250-263), `improve` is
`maximizeAcqusitionFunctionGradientBased`. -/
def chooseSearch (enhanced : Bool) (S : GradSetup K) (E : GradAcq K) (g : GlobalDesign K)
    (incumbent : List K) (name : Text.Str) (file : Option Text.Str) (x : Execution)
    (u : Nat → Nat → K) (ego : Res (BODesign K)) (improve : BODesign K → Res (BODesign K))
    (m : GradMode K) : Res (BODesign K × GradMode K) :=
  if enhanced = true ∧ m.will = true then
    gradientStepFromFile S E g incumbent name file x u ego m
  else do
    let d ← ego
    let d ← improve d
    .ok (d, m)

/-- What one call of `findTheMostPromisingDesignToBeSimulated` works on. -/
structure SearchCall (K : Type) where
  enhanced : Bool
  setup : GradSetup K
  acq : GradAcq K
  optimum : GlobalDesign K
  incumbent : List K
  name : Text.Str
  file : Option Text.Str
  exec : Execution
  draws : Nat → Nat → K
  ego : Res (BODesign K)
  improve : BODesign K → Res (BODesign K)

/-- One call of the loop of `EfficientGlobalOptimization` (efficient_global_optimization.cpp 10-130);
nothing else in it touches the members of `GradMode`:
`decideIfAGradientStepShouldBeTakenForTheFirstIteration` (optimization.cpp 1234-1257), which would switch
the mode on, is not called. -/
def searchCall (s : List (BODesign K) × GradMode K) (c : SearchCall K) :
    Res (List (BODesign K) × GradMode K) := do
  let r ← chooseSearch c.enhanced c.setup c.acq c.optimum c.incumbent c.name c.file c.exec c.draws
    c.ego c.improve s.2
  .ok (s.1 ++ [r.1], r.2)

end optimum

end Rodeo
