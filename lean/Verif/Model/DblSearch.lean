import Verif.Model.Dbl
import Verif.Model.AcqSearch

/-! # The search for the next design in double arithmetic
(`Optimizers/optimization.cpp`, `Design/design_bo.cpp`, `LinearAlgebra/vector.cpp`)

The functions of `Verif.Model.AcqSearch`, `Verif.Model.TrustRegion` and `Verif.Model.Rounding` with every
sum, difference, product and quotient rounded as the hardware does it.  Comparisons, assignments and the
parallel loops are the same as there. -/

namespace Rodeo.Dbl

variable {K : Type} [Field K] [LinearOrder K] [IsStrictOrderedRing K] [FloorRing K]

/-! ## Vectors -/

/-- `std::uniform_real_distribution<double>(a, b)` (libstdc++ bits/random.h: `__aurng() * (b - a) + a`);
`u` is the number in [0,1) that the generator yields. -/
def uniformReal (a b u : K) : Res K := do
  let d ← sub b a
  let t ← mul u d
  add t a

/-- `vec::fillRandom(const vec& a, const vec& b)` (vector.cpp 410-427) on a vector of size `n`. -/
def fillRandom (n : Nat) (a b : List K) (u : Nat → K) : Res (List K) :=
  if a.length ≠ n ∨ b.length ≠ n then .error .invalidArgument
  else tab n fun i => do
    let l ← vat a i
    let h ← vat b i
    if l > h then .error .invalidArgument else uniformReal l h (u i)

/-- `vec::operator*(double)` (vector.cpp 200-207). -/
def scale (v : List K) (a : K) : Res (List K) := mapRes (fun x => mul x a) v

/-- `vec::operator+(double)` (vector.cpp 210-217). -/
def addScalar (v : List K) (a : K) : Res (List K) := mapRes (fun x => add x a) v

/-- `vec::operator-(double)` (vector.cpp 219-226). -/
def subScalar (v : List K) (a : K) : Res (List K) := mapRes (fun x => sub x a) v

/-- `vec::operator+(const vec&)` (vector.cpp 133-143). -/
def addVec (v w : List K) : Res (List K) :=
  if v.length ≠ w.length then .error .invalidArgument
  else tab v.length fun i => do
    let a ← rawAt v i
    let b ← rawAt w i
    add a b

/-- `vec::normalizeVector(const vec&, const vec&)` (vector.cpp 813-824). -/
def normalizeVector (x xmin xmax : List K) : Res (List K) := do
  let fac ← div 1 (x.length : K)
  tab x.length fun i => do
    let v ← rawAt x i
    let l ← vat xmin i
    let h ← vat xmax i
    let a ← sub v l
    let a ← mul fac a
    let d ← sub h l
    div a d

/-- `vec::denormalizeVector` (vector.cpp 843-852). -/
def denormalizeVector (x xmin xmax : List K) : Res (List K) :=
  tab x.length fun i => do
    let v ← rawAt x i
    let h ← vat xmax i
    let l ← vat xmin i
    let t ← mul v (x.length : K)
    let d ← sub h l
    let p ← mul t d
    add p l

/-! ## The window of the search -/

/-- `Optimizer::trimVectorSoThatItStaysWithinTheBounds` (optimization.cpp 443-455). -/
def trimVector (dim : Nat) (x : List K) : Res (List K) :=
  if dim = 0 then .error .runtimeError
  else do
    let top ← div 1 (dim : K)
    forRange dim (trimBody top) x

/-- `Optimizer::defineTrustRegion` (optimization.cpp 346-369). -/
def defineTrustRegion (dim : Nat) (incumbent : List K) (trLength : K) : Res (List K × List K) :=
  if dim = 0 then .error .runtimeError
  else if incumbent.length ≠ dim then .error .runtimeError
  else do
    let one ← div 1 (dim : K)
    let delta ← mul one trLength
    let lb ← subScalar incumbent delta
    let ub ← addScalar incumbent delta
    let lb ← trimVector dim lb
    let ub ← trimVector dim ub
    .ok (lb, ub)

/-! ## Candidates -/

/-- What the surrogates answer: the expected improvement and the acquisition value (expected improvement
times feasibility), both as computed in double arithmetic. -/
structure Answers (K : Type) where
  ei : List K → K
  value : List K → K

/-- The candidate of round `i` of `searchCompleteDesignSpace` (optimization.cpp 724-728). -/
def candidate (E : Answers K) (dim : Nat) (lb ub : List K) (u : Nat → K) : Res (BODesign K) := do
  let dv ← fillRandom dim lb ub u
  .ok ⟨dv, E.value dv⟩

/-- The bounds computed in `generateRandomDesignVectorAroundASample` (design_bo.cpp 95-111). -/
def aroundBounds (dim : Nat) (sample lb ub : List K) (factor : K) : Res (List K × List K) :=
  if sample.length ≠ dim then .error .invalidArgument
  else do
    let dx ← div factor (dim : K)
    let l ← tab dim fun i => do
      let s ← vat sample i
      let l ← vat lb i
      let a ← sub s dx
      .ok (max a l)
    let h ← tab dim fun i => do
      let s ← vat sample i
      let h ← vat ub i
      let a ← add s dx
      .ok (min a h)
    .ok (l, h)

/-- The candidate of round `i` of `searchAroundGlobalOptima` (optimization.cpp 683-689); the default
factor is 0.01 (design.hpp 41). -/
def candidateAround (E : Answers K) (dim : Nat) (sample lb ub : List K) (u : Nat → K) :
    Res (BODesign K) := do
  let b ← aroundBounds dim sample lb ub (lit (1 / 100))
  let dv ← fillRandom dim b.1 b.2 u
  .ok ⟨dv, E.value dv⟩

/-- `Optimizer::searchCompleteDesignSpace` (optimization.cpp 707-740). -/
def searchComplete (E : Answers K) (dim n : Nat) (lb ub : List K) (x : Execution) (u : Nat → Nat → K)
    (best : BODesign K) : Res (BODesign K) :=
  if lb.length ≠ ub.length ∨ lb.length ≠ dim then .error .runtimeError
  else do
    let cs ← tab n fun i => candidate E dim lb ub (u i)
    .ok ((SearchState.start best (chunks x cs)).run x.schedule).shared

/-- `Optimizer::searchAroundGlobalOptima` (optimization.cpp 666-705). -/
def searchAround (E : Answers K) (p : Problem K) (n : Nat) (incumbent lb ub : List K) (x : Execution)
    (u : Nat → Nat → K) (best : BODesign K) : Res (BODesign K) := do
  let dv ← denormalizeVector incumbent p.lb p.ub
  let inside ← p.checkBox dv
  if inside then do
    let cs ← tab n fun i => candidateAround E p.dimension incumbent lb ub (u i)
    .ok ((SearchState.start best (chunks x cs)).run x.schedule).shared
  else .ok best

/-- `Optimizer::findTheMostPromisingDesignEGO` (optimization.cpp 745-784) after the surrogates have been
initialized: the most promising design and the bounds of the search. -/
def mostPromising (E : Answers K) (s : SearchSetup K) (incumbent : List K) (trLength : K)
    (o : SearchOracle K) : Res (BODesign K × List K × List K) :=
  if incumbent.length = 0 then .error .runtimeError
  else do
    let w ← defineTrustRegion s.problem.dimension incumbent trLength
    let d0 : BODesign K := ⟨List.replicate s.problem.dimension 0, -10 ^ 15⟩
    let d1 ← searchComplete E s.problem.dimension s.innerIterations w.1 w.2 o.execComplete o.complete d0
    let d2 ← searchAround E s.problem s.innerIterations incumbent w.1 w.2 o.execAround o.around d1
    .ok (d2, w.1, w.2)

/-! ## Gradient based improvement -/

/-- `DesignForBayesianOptimization::gradientUpdateDesignVector` (design_bo.cpp 62-77). -/
def gradientUpdate (dim : Nat) (dv gradient lb ub : List K) (step : K) : Res (List K) := do
  let g ← scale gradient step
  let dv ← addVec dv g
  forRange dim (clampBody lb ub) dv

/-- One round of the loop of `calculateGradientOfAcquisitionFunction` (optimization.cpp 804-826). -/
def acqGradBody (E : Answers K) (i : Nat) (s : AcqGrad K) : Res (AcqGrad K) := do
  let save ← vat s.design.dv i
  let p ← mul save (lit (1 / 10 ^ 5))
  let eps := max p (lit (1 / 10 ^ 8))
  let up ← add save eps
  let dv1 := s.design.dv.set i up
  let plus := E.ei dv1
  let two ← mul 2 eps
  let down ← sub up two
  let dv2 := dv1.set i down
  let minus := E.ei dv2
  let diff ← sub plus minus
  let q ← div diff two
  .ok ⟨⟨dv2.set i save, minus⟩, s.grad ++ [q], s.evals + 2⟩

/-- `Optimizer::calculateGradientOfAcquisitionFunction` (optimization.cpp 792-830). -/
def acqGradient (E : Answers K) (dim : Nat) (d : BODesign K) (evals : Nat) : Res (AcqGrad K) :=
  if dim = 0 then .error .runtimeError
  else forRange dim (acqGradBody E) ⟨d, [], evals⟩

/-- The line search loop (optimization.cpp 868-901) from step size `step`, at most `fuel` rounds. -/
def acqLineSearch (E : Answers K) (dim : Nat) (grad lb ub : List K) (save : BODesign K) (f0 : K) :
    Nat → Nat → K → Res (AcqLine K)
  | 0, _, _ => .error .outOfFuel
  | fuel + 1, evals, step => do
    let dv ← gradientUpdate dim save.dv grad lb ub step
    let d : BODesign K := ⟨dv, E.value dv⟩
    if d.value > f0 then .ok ⟨d, d.value, evals + 1, false⟩
    else do
      let step ← mul step (1 / 2)
      if step < lit (1 / 10 ^ 11) then .ok ⟨save, f0, evals + 1, true⟩
      else acqLineSearch E dim grad lb ub save f0 fuel (evals + 1) step

/-- The gradient search loop (optimization.cpp 855-905) with `rounds` rounds left. -/
def acqLoop (E : Answers K) (dim : Nat) (lb ub : List K) (fuel : Nat) :
    Nat → AcqLine K → Res (AcqLine K)
  | 0, s => .ok s
  | rounds + 1, s => do
    let g ← acqGradient E dim s.design s.evals
    let r ← acqLineSearch E dim g.grad lb ub g.design s.f0 fuel g.evals (lit (1 / 10 ^ 3))
    if r.stop then .ok r else acqLoop E dim lb ub fuel rounds r

/-- `Optimizer::maximizeAcqusitionFunctionGradientBased` (optimization.cpp 834-910). -/
def maximizeAcq (E : Answers K) (dim : Nat) (lb ub : List K) (iterations fuel : Nat)
    (start : List K) : Res (BODesign K × Nat) := do
  let d : BODesign K := ⟨start, E.value start⟩
  let r ← acqLoop E dim lb ub fuel iterations ⟨d, d.value, 1, false⟩
  .ok (r.design, r.evals)

/-! ## Discrete parameters -/

/-- `Optimizer::generateDiscreteValues` (optimization.cpp 1348-1357).  `k * dx` converts `k` to double,
which is exact. -/
def generateDiscreteValues (s : DiscreteSetup K) (index : Nat) (dx : K) : Res (List K) := do
  let u ← vat s.ub index
  let l ← vat s.lb index
  if dx = 0 then .error .ub
  else do
    let d ← sub u l
    let q ← div d dx
    let n ← toU32 q
    tab ((n + 1) % 2 ^ 32) fun k => do
      let l ← vat s.lb index
      let p ← mul (k : K) dx
      add l p

/-- `Optimizer::findClosestDiscreteValue` (optimization.cpp 1332-1346). -/
def findClosestDiscreteValue (value : K) (values : List K) : Res Nat := do
  let v0 ← vat values 0
  let d0 ← sub value v0
  let s ← loopFrom (fun i (s : K × Nat) => do
    let v ← vat values i
    let d ← sub value v
    .ok (if |d| < s.1 then (|d|, i) else s)) 1 (values.length - 1) (|d0|, 0)
  .ok s.2

/-- One round of the loop in `roundDiscreteParameters` (optimization.cpp 1362-1373). -/
def roundOne (s : DiscreteSetup K) (j : Nat) (dv : List K) : Res (List K) := do
  let index ← rawAt s.indices j
  let value ← vat dv index
  let dx ← rawAt s.increments j
  let values ← generateDiscreteValues s index dx
  let k ← findClosestDiscreteValue value values
  let v ← vat values k
  Vec.put dv index v

/-- `if(areDiscreteParametersUsed()) roundDiscreteParameters(best_dv);` (optimization.cpp 1202-1204,
1360-1375). -/
def roundIfDiscrete (s : DiscreteSetup K) (dv : List K) : Res (List K) :=
  if s.indices.length > 0 then forRange s.indices.length (roundOne s) dv else .ok dv

/-- The end of `Optimizer::findTheMostPromisingDesignToBeSimulated` (optimization.cpp 1199-1210). -/
def designToSimulate (s : DiscreteSetup K) (dvNorm : List K) : Res (List K × List K) := do
  let dv ← denormalizeVector dvNorm s.lb s.ub
  let dv ← roundIfDiscrete s dv
  .ok (dvNorm, dv)

/-- `Optimizer::findTheMostPromisingDesignToBeSimulated` (optimization.cpp 1179-1211) for an objective
without gradients: normalized and actual parameters of the design to be simulated. -/
def findDesignToSimulate (E : Answers K) (s : SearchSetup K) (fuel : Nat) (incumbent : List K)
    (trLength : K) (o : SearchOracle K) : Res (List K × List K) := do
  let m ← mostPromising E s incumbent trLength o
  let r ← maximizeAcq E s.problem.dimension m.2.1 m.2.2 s.gradientIterations fuel m.1.dv
  designToSimulate s.discrete r.1.dv

end Rodeo.Dbl
