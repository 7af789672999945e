import Verif.Model.TrustRegion
import Verif.Model.Rounding
import Verif.Model.InitHistory
import Verif.Model.GradOpt

/-! # Model of the search for the most promising design
(`Optimizers/optimization.cpp`, `Design/design_bo.cpp`)

The surrogate models are the functions of `Acq`: they answer for every design.  Threads of an OpenMP
loop are interleavings of atomic steps. -/

namespace Rodeo

variable {K : Type} [Field K] [LinearOrder K] [IsStrictOrderedRing K]

/-- `DesignForBayesianOptimization` (Design/INCLUDE/design.hpp 11-32): the design vector and the stored
acquisition value; `dim` is the length of the vector. -/
structure BODesign (K : Type) where
  dv : List K
  value : K
  deriving DecidableEq

/-- What the surrogates answer: the value stored by `ObjectiveFunction::calculateExpectedImprovement`
(objective_function.cpp 433-483) and the factor by which
`addPenaltyToAcqusitionFunctionForConstraints` (optimization.cpp 230-240) multiplies it: 1 without
constraints, the product of the feasibility probabilities with constraints. -/
structure Acq (K : Type) where
  ei : List K → K
  penalty : List K → K

namespace Acq

/-- The acquisition value of a design: both calls one after the other. -/
def value (E : Acq K) (dv : List K) : K := E.ei dv * E.penalty dv

end Acq

/-! ## Gradient based improvement -/

/-- One round of the clamping loop (design_bo.cpp 69-75). -/
def clampBody (lb ub : List K) (k : Nat) (dv : List K) : Res (List K) := do
  let a ← vat dv k
  let l ← vat lb k
  let dv1 := if a < l then dv.set k l else dv
  let b ← vat dv1 k
  let u ← vat ub k
  .ok (if b > u then dv1.set k u else dv1)

/-- `DesignForBayesianOptimization::gradientUpdateDesignVector` (design_bo.cpp 62-77). -/
def gradientUpdate (dim : Nat) (dv gradient lb ub : List K) (step : K) : Res (List K) := do
  let dv ← Vec.add dv (Vec.scale gradient step)
  forRange dim (clampBody lb ub) dv

/-- State of the loop in `calculateGradientOfAcquisitionFunction`: the design, the entries found so
far and the number of evaluations. -/
structure AcqGrad (K : Type) where
  design : BODesign K
  grad : List K
  evals : Nat

/-- One round of that loop (optimization.cpp 804-826).  The quotient's denominator is positive. -/
def acqGradBody (E : Acq K) (i : Nat) (s : AcqGrad K) : Res (AcqGrad K) := do
  let save ← vat s.design.dv i
  let eps := max (save * (1 / 10 ^ 5)) (1 / 10 ^ 8)
  let dv1 := s.design.dv.set i (save + eps)
  let plus := E.ei dv1
  let dv2 := dv1.set i (save + eps - 2 * eps)
  let minus := E.ei dv2
  .ok ⟨⟨dv2.set i save, minus⟩, s.grad ++ [(plus - minus) / (2 * eps)], s.evals + 2⟩

/-- `Optimizer::calculateGradientOfAcquisitionFunction` (optimization.cpp 792-830).  The penalty is
not applied, and the stored value of the design is that of the last evaluation. -/
def acqGradient (E : Acq K) (dim : Nat) (d : BODesign K) (evals : Nat) : Res (AcqGrad K) :=
  if dim = 0 then .error .runtimeError
  else forRange dim (acqGradBody E) ⟨d, [], evals⟩

/-- Outcome of a line search: the design, `f0`, the number of evaluations, `breakOptimization`. -/
structure AcqLine (K : Type) where
  design : BODesign K
  f0 : K
  evals : Nat
  stop : Bool

/-- The line search loop (optimization.cpp 868-901) from step size `step`, at most `fuel` rounds;
`save` is `dvLineSearchSave`. -/
def acqLineSearch (E : Acq K) (dim : Nat) (grad lb ub : List K) (save : BODesign K) (f0 : K) :
    Nat → Nat → K → Res (AcqLine K)
  | 0, _, _ => .error .outOfFuel
  | fuel + 1, evals, step => do
    let dv ← gradientUpdate dim save.dv grad lb ub step
    let d : BODesign K := ⟨dv, E.value dv⟩
    if d.value > f0 then .ok ⟨d, d.value, evals + 1, false⟩
    else
      let step := step * (1 / 2)
      if step < 1 / 10 ^ 11 then .ok ⟨save, f0, evals + 1, true⟩
      else acqLineSearch E dim grad lb ub save f0 fuel (evals + 1) step

/-- The gradient search loop (optimization.cpp 855-905) with `rounds` rounds left. -/
def acqLoop (E : Acq K) (dim : Nat) (lb ub : List K) (fuel : Nat) :
    Nat → AcqLine K → Res (AcqLine K)
  | 0, s => .ok s
  | rounds + 1, s => do
    let g ← acqGradient E dim s.design s.evals
    let r ← acqLineSearch E dim g.grad lb ub g.design s.f0 fuel g.evals (1 / 10 ^ 3)
    if r.stop then .ok r else acqLoop E dim lb ub fuel rounds r

/-- `Optimizer::maximizeAcqusitionFunctionGradientBased` (optimization.cpp 834-910): the design
returned and the number of evaluations of the acquisition function. -/
def maximizeAcq (E : Acq K) (dim : Nat) (lb ub : List K) (iterations fuel : Nat) (start : List K) :
    Res (BODesign K × Nat) := do
  let d : BODesign K := ⟨start, E.value start⟩
  let r ← acqLoop E dim lb ub fuel iterations ⟨d, d.value, 1, false⟩
  .ok (r.design, r.evals)

/-! ## Parallel search -/

/-- A thread of the loop in `searchCompleteDesignSpace` or `searchAroundGlobalOptima`: the candidates
it has still to compare, and the one that has passed the test but is not yet assigned. -/
structure SearchThread (K : Type) where
  todo : List (BODesign K)
  pending : Option (BODesign K)

/-- The threads and the shared variable `designWithMaxAcqusition`. -/
structure SearchState (K : Type) where
  shared : BODesign K
  threads : List (SearchThread K)

namespace SearchState

/-- The next atomic step of a thread (optimization.cpp 690-697, 729-737): the assignment of a candidate
that has passed the test (in the critical section), or the test of the next candidate against the
shared value (outside the critical section). -/
def threadStep (shared : BODesign K) (t : SearchThread K) : BODesign K × SearchThread K :=
  match t.pending, t.todo with
  | some c, _ => (c, { t with pending := none })
  | none, c :: cs => (shared, ⟨cs, if c.value > shared.value then some c else none⟩)
  | none, [] => (shared, t)

/-- Thread number `i` makes a step. -/
def step (s : SearchState K) (i : Nat) : SearchState K :=
  match s.threads[i]? with
  | none => s
  | some t =>
    let r := threadStep s.shared t
    ⟨r.1, s.threads.set i r.2⟩

/-- A schedule: the numbers of the threads in the order in which they make their steps. -/
def run (s : SearchState K) : List Nat → SearchState K
  | [] => s
  | i :: l => run (s.step i) l

/-- All threads have reached the end of the parallel loop. -/
def Finished (s : SearchState K) : Prop := ∀ t ∈ s.threads, t.todo = [] ∧ t.pending = none

/-- The state at the beginning of the loop; `chunks` are the candidates of the threads. -/
def start (best : BODesign K) (chunks : List (List (BODesign K))) : SearchState K :=
  ⟨best, chunks.map (fun c => ⟨c, none⟩)⟩

end SearchState

/-- The candidate of round `i` of `searchCompleteDesignSpace` (optimization.cpp 724-728). -/
def candidate (E : Acq K) (dim : Nat) (lb ub : List K) (u : Nat → K) : Res (BODesign K) := do
  let dv ← Vec.fillRandom dim lb ub u
  .ok ⟨dv, E.value dv⟩

/-- The bounds computed in `generateRandomDesignVectorAroundASample` (design_bo.cpp 95-111). -/
def aroundBounds (dim : Nat) (sample lb ub : List K) (factor : K) : Res (List K × List K) :=
  if sample.length ≠ dim then .error .invalidArgument
  else do
    let dx := factor / (dim : K)
    let l ← tab dim fun i => do
      let s ← vat sample i
      let l ← vat lb i
      .ok (max (s - dx) l)
    let h ← tab dim fun i => do
      let s ← vat sample i
      let h ← vat ub i
      .ok (min (s + dx) h)
    .ok (l, h)

/-- The candidate of round `i` of `searchAroundGlobalOptima` (optimization.cpp 683-689); the default
factor is 0.01 (design.hpp 41). -/
def candidateAround (E : Acq K) (dim : Nat) (sample lb ub : List K) (u : Nat → K) :
    Res (BODesign K) := do
  let b ← aroundBounds dim sample lb ub (1 / 100)
  let dv ← Vec.fillRandom dim b.1 b.2 u
  .ok ⟨dv, E.value dv⟩

/-- How a parallel loop is executed: the number of threads, the thread of each round, the schedule. -/
structure Execution where
  threads : Nat
  owner : Nat → Nat
  schedule : List Nat

/-- The candidates of each thread. -/
def chunks (x : Execution) (cs : List (BODesign K)) : List (List (BODesign K)) :=
  (List.range x.threads).map (fun t => (cs.zipIdx.filter (fun c => x.owner c.2 = t)).map (fun c => c.1))

/-- The random numbers and executions of the two parallel loops of one search. -/
structure SearchOracle (K : Type) where
  complete : Nat → Nat → K
  around : Nat → Nat → K
  execComplete : Execution
  execAround : Execution

/-- The members of `Optimizer` used by the search (Optimizers/INCLUDE/optimization.hpp). -/
structure SearchSetup (K : Type) where
  problem : Problem K
  increments : List K
  indices : List Nat
  innerIterations : Nat
  gradientIterations : Nat

/-- The box and the discrete parameters. -/
def SearchSetup.discrete (s : SearchSetup K) : DiscreteSetup K :=
  ⟨s.problem.lb, s.problem.ub, s.increments, s.indices⟩

/-- `Optimizer::searchCompleteDesignSpace` (optimization.cpp 707-740). -/
def searchComplete (E : Acq K) (dim n : Nat) (lb ub : List K) (x : Execution) (u : Nat → Nat → K)
    (best : BODesign K) : Res (BODesign K) :=
  if lb.length ≠ ub.length ∨ lb.length ≠ dim then .error .runtimeError
  else do
    let cs ← tab n fun i => candidate E dim lb ub (u i)
    .ok ((SearchState.start best (chunks x cs)).run x.schedule).shared

/-- `Optimizer::searchAroundGlobalOptima` (optimization.cpp 666-705). -/
def searchAround (E : Acq K) (p : Problem K) (n : Nat) (incumbent lb ub : List K) (x : Execution)
    (u : Nat → Nat → K) (best : BODesign K) : Res (BODesign K) := do
  let dv ← Vec.denormalizeVector incumbent p.lb p.ub
  let inside ← p.checkBox dv
  if inside then do
    let cs ← tab n fun i => candidateAround E p.dimension incumbent lb ub (u i)
    .ok ((SearchState.start best (chunks x cs)).run x.schedule).shared
  else .ok best

/-- `Optimizer::findTheMostPromisingDesignEGO` (optimization.cpp 745-784) after the surrogates have been
initialized: the most promising design and the bounds of the search. -/
def mostPromising (E : Acq K) (s : SearchSetup K) (incumbent : List K) (trLength : K)
    (o : SearchOracle K) : Res (BODesign K × List K × List K) :=
  if incumbent.length = 0 then .error .runtimeError
  else do
    let w ← defineTrustRegion s.problem.dimension incumbent trLength
    let d0 : BODesign K := ⟨List.replicate s.problem.dimension 0, -10 ^ 15⟩
    let d1 ← searchComplete E s.problem.dimension s.innerIterations w.1 w.2 o.execComplete o.complete d0
    let d2 ← searchAround E s.problem s.innerIterations incumbent w.1 w.2 o.execAround o.around d1
    .ok (d2, w.1, w.2)

section round
variable [FloorRing K]

/-- `Optimizer::findTheMostPromisingDesignToBeSimulated` (optimization.cpp 1179-1211) for an objective
without gradients: normalized and actual parameters of the design to be simulated. -/
def findDesignToSimulate (E : Acq K) (s : SearchSetup K) (fuel : Nat) (incumbent : List K)
    (trLength : K) (o : SearchOracle K) : Res (List K × List K) := do
  let m ← mostPromising E s incumbent trLength o
  let r ← maximizeAcq E s.problem.dimension m.2.1 m.2.2 s.gradientIterations fuel m.1.dv
  designToSimulate s.discrete r.1.dv

end round

end Rodeo
