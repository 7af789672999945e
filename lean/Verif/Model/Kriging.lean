import Verif.Model.Linear
import Verif.Model.Corr
import Verif.Model.EA
import Verif.Model.TrustRegion

/-! # Model of the Kriging model (`SurrogateModels/kriging_training.cpp`)

`exp`, `pow`, `sqrt` and `log` are parameters (`Fns`).  The content of the training data file and of
the hyperparameter file are arguments and results.  Methods that change the object and can throw
half way deliver the object as it is left together with the outcome.  Logging and printing are left
out. -/

namespace Rodeo

open Text Corr

/-- The functions of `<cmath>` that the model uses. -/
structure Fns (K : Type) where
  exp : K → K
  pow : K → K → Res K
  sqrt : K → K
  log : K → K

/-- The real functions. -/
noncomputable def realFns : Fns ℝ := ⟨Real.exp, realPow, Real.sqrt, Real.log⟩

/-- Is the outcome a `std::exception` (which `catch (const std::exception&)` catches)?  A failed
assertion ends the program, undefined behaviour and numbers that are not finite are not
exceptions. -/
def Err.isException : Err → Bool
  | .invalidArgument | .outOfRange | .runtimeError | .logicError => true
  | _ => false

/-- `try { f(); } catch (const std::exception&) { throw std::runtime_error(..); }`. -/
def rethrow {σ : Type} (p : σ × Res Unit) : σ × Res Unit :=
  match p with
  | (s, .error e) => (s, .error (if e.isException then .runtimeError else e))
  | (s, .ok ()) => (s, .ok ())

/-- `try { f(); } catch (const std::exception&) { log }`. -/
def swallow {σ : Type} (p : σ × Res Unit) : σ × Res Unit :=
  match p with
  | (s, .error e) => (s, if e.isException then .ok () else .error e)
  | (s, .ok ()) => (s, .ok ())

variable {K : Type} [Field K] [LinearOrder K] [IsStrictOrderedRing K]

namespace Vec

/-- `vec::dot` (vector.cpp 522-542) without OpenBLAS. -/
def dot (v w : List K) : Res K :=
  if v.length ≠ w.length then .error .invalidArgument
  else Mat.sumLoop v.length fun i => do
    let a ← rawAt v i
    let b ← rawAt w i
    .ok (a * b)

/-- `vec::mean` (vector.cpp 1141-1150). -/
def mean (v : List K) : Res K :=
  if v.length = 0 then .error .runtimeError
  else do
    let s ← Mat.sumLoop v.length fun i => rawAt v i
    .ok (s / (v.length : K))

end Vec

/-- `enum KrigingObjectiveType` (kriging_training.hpp 18). -/
inductive KrigingObjective where
  | validationError
  | maximumLikelihood
  deriving DecidableEq

/-- Data members of `KrigingModel` (kriging_training.hpp 36-55) and of `SurrogateModel`
(surrogate_model.hpp 60-102) that the methods below use, without file names. -/
structure Kriging (K : Type) where
  dimension : Nat
  numberOfSamples : Nat
  numberOfHyperParameters : Nat
  iterations : Nat
  threads : Nat
  data : SMData K
  linear : LinearModel K
  usesLinear : Bool
  corr : ExpCorr K
  corrInitialized : Bool
  chol : CholeskySystem K
  RinvYs : List K
  RinvI : List K
  RinvYsMinBeta : List K
  ones : List K
  beta0 : K
  sigmaSquared : K
  averageBeta0 : Bool
  objective : KrigingObjective
  hasValidation : Bool
  writeWarm : Bool
  readWarm : Bool
  isRead : Bool
  isNormalized : Bool
  isInitialized : Bool
  isTrained : Bool

namespace Kriging

/-- A new object. -/
def new : Kriging K :=
  ⟨0, 0, 0, 10000, 1, SMData.new, LinearModel.new, false, ExpCorr.new, false, CholeskySystem.new,
    [], [], [], [], 0, 0, false, .maximumLikelihood, false, false, false, false, false, false, false⟩

/-- `KrigingModel::setDimension` (kriging_training.cpp 22-27). -/
def setDimension (k : Kriging K) (dim : Nat) : Kriging K :=
  { k with dimension := dim, linear := k.linear.setDimension dim,
           data := { k.data with dimension := dim } }

/-- The call for the linear model (kriging_training.cpp 72-74). -/
def linearBox (k : Kriging K) (b : Bounds K) : Res (LinearModel K) :=
  if k.usesLinear then k.linear.setBoxConstraints b else .ok k.linear

/-- `KrigingModel::setBoxConstraints` (kriging_training.cpp 57-78). -/
def setBoxConstraints (k : Kriging K) (b : Bounds K) : Res (Kriging K) :=
  if b.isSet = false then .error .invalidArgument
  else if k.dimension = 0 then .error .runtimeError
  else if b.dim ≠ k.dimension then .error .runtimeError
  else do
    let l ← k.linearBox b
    let d ← k.data.setBoxConstraints b
    .ok { k with linear := l, data := d }

/-- `setLinearRegressionOn` and `setLinearRegressionOff` (kriging_training.cpp 403-413). -/
def setLinearRegression (k : Kriging K) (on : Bool) : Kriging K := { k with usesLinear := on }

/-- `KrigingModel::setNumberOfTrainingIterations` (kriging_training.cpp 41-45). -/
def setNumberOfTrainingIterations (k : Kriging K) (n : Nat) : Kriging K := { k with iterations := n }

/-- `SurrogateModel::setNumberOfThreads` (surrogate_model.cpp 37-41). -/
def setNumberOfThreads (k : Kriging K) (n : Nat) : Kriging K := { k with threads := n }

/-- `SurrogateModel::setRatioValidationSamples` (surrogate_model.cpp 74-77). -/
def setRatioValidationSamples (k : Kriging K) (v : K) : Res (Kriging K) := do
  let d ← k.data.setValidationRatio v
  .ok { k with data := d, hasValidation := true }

/-- `KrigingModel::setEpsilon` (kriging_training.cpp 390-401). -/
def setEpsilon (k : Kriging K) (value : K) : Res (Kriging K) :=
  if value < 0 then .error .invalidArgument
  else do
    let b ← k.corr.base.setEpsilon value
    .ok { k with corr := { k.corr with base := b } }

/-- A call that changes the data object only. -/
def onData (k : Kriging K) (p : SMData K × Res Unit) : Kriging K × Res Unit :=
  ({ k with data := p.1 }, p.2)

/-- A call that changes the linear model only. -/
def onLinear (k : Kriging K) (p : LinearModel K × Res Unit) : Kriging K × Res Unit :=
  ({ k with linear := p.1 }, p.2)

/-- `KrigingModel::readData` (kriging_training.cpp 85-115) with a nonempty file name; `perm` and
`permL` are the shuffles of the two data objects. -/
def readData [FloorRing K] (k : Kriging K) (file : Option Str) (perm permL : List Nat) :
    Kriging K × Res Unit :=
  if k.dimension = 0 then (k, .error .runtimeError)
  else
    andThen (rethrow (k.onData (k.data.readData file perm))) fun k =>
    andThen (if k.usesLinear then rethrow (k.onLinear (k.linear.readData file permL))
      else (k, .ok ())) fun k =>
    ({ k with numberOfSamples := k.data.numberOfSamples, isRead := true }, .ok ())

/-- `KrigingModel::normalizeData` (kriging_training.cpp 118-129). -/
def normalizeData (k : Kriging K) : Kriging K × Res Unit :=
  if k.isRead = false then (k, .error .runtimeError)
  else
    andThen (k.onData k.data.normalize) fun k =>
    andThen (if k.usesLinear then k.onLinear k.linear.normalizeData else (k, .ok ())) fun k =>
    ({ k with isNormalized := true }, .ok ())

/-- `resetDataObjects` (kriging_training.cpp 494-501). -/
def resetDataObjects (k : Kriging K) : Kriging K :=
  { k with RinvYs := [], RinvI := [], RinvYsMinBeta := [], ones := [], beta0 := 0,
           sigmaSquared := 0 }

/-- `resizeDataObjects` (kriging_training.cpp 503-515). -/
def resizeDataObjects (k : Kriging K) : Res (Kriging K) :=
  if k.numberOfSamples = 0 then .error .logicError
  else
    .ok { k with
      RinvYsMinBeta := Vec.resize k.RinvYsMinBeta k.numberOfSamples
      RinvI := Vec.resize k.RinvI k.numberOfSamples
      RinvYs := Vec.resize k.RinvYs k.numberOfSamples
      ones := List.replicate k.numberOfSamples 1 }

/-- The choice of `beta0` (kriging_training.cpp 243-247). -/
def chooseBeta (k : Kriging K) (gls : K) : Res K :=
  if k.averageBeta0 then Vec.mean k.data.y else .ok gls

/-- The part of `updateAuxilliaryFields` for a successful factorization (kriging_training.cpp
231-256).  Where one of the calls throws, the members assigned before keep their new values in C++;
here the object is left as it was before the first of them. -/
def solveAll (k : Kriging K) : Res (Kriging K) := do
  let a ← k.chol.solveLinearSystem k.data.y
  let b ← k.chol.solveLinearSystem k.ones
  let oneB ← Vec.dot k.ones b
  let inv ← fdiv 1 oneB
  let oneA ← Vec.dot k.ones a
  let beta ← k.chooseBeta (inv * oneA)
  let c ← k.chol.solveLinearSystem (Vec.subScalar k.data.y beta)
  let s ← Vec.dot (Vec.subScalar k.data.y beta) c
  .ok { k with RinvYs := a, RinvI := b, beta0 := beta, RinvYsMinBeta := c,
               sigmaSquared := 1 / (k.numberOfSamples : K) * s }

/-- `KrigingModel::updateAuxilliaryFields` (kriging_training.cpp 202-258). -/
def updateAuxilliaryFields (F : Fns K) (k : Kriging K) : Kriging K × Res Unit :=
  if k.isRead = false then (k, .error .runtimeError)
  else if k.isNormalized = false then (k, .error .runtimeError)
  else if k.corrInitialized = false then (k, .error .runtimeError)
  else if k.numberOfSamples = 0 then (k, .error .invalidArgument)
  else if k.dimension = 0 then (k, .error .runtimeError)
  else
    andThen (commit k (do
      let c ← k.corr.computeCorrelationMatrix F.exp F.pow
      .ok { k with corr := c })) fun k =>
    andThen (commit k (do
      let c ← (k.chol.setMatrix k.corr.base.matrix).factorize F.sqrt
      .ok { k with chol := c })) fun k =>
    andThen (commit k.resetDataObjects k.resetDataObjects.resizeDataObjects) fun k =>
    if k.chol.done then commit k k.solveAll else (k, .ok ())

/-- The linear part of `initializeSurrogateModel` (kriging_training.cpp 168-178): the outputs are
replaced by their differences to the linear model. -/
def subtractLinear (k : Kriging K) : Res (Kriging K) := do
  let l ← k.linear.interpolateAll k.data.X
  let ys ← Vec.sub k.data.y l
  let d ← k.data.setOutputVector ys
  .ok { k with data := d }

/-- The initialization of the correlation function (kriging_training.cpp 153-160). -/
def setupCorr (k : Kriging K) : Kriging K × Res Unit :=
  andThen (commit k (do
    let b ← k.corr.base.setInputSampleMatrix k.data.X
    .ok { k with corr := { k.corr with base := b } })) fun k =>
  if k.corrInitialized = false then
    commit k (do
      let c ← k.corr.init
      .ok { k with corr := c, corrInitialized := true })
  else (k, .ok ())

/-- `KrigingModel::initializeSurrogateModel` (kriging_training.cpp 139-184). -/
def init (F : Fns K) (k : Kriging K) : Kriging K × Res Unit :=
  if k.dimension = 0 then (k, .error .runtimeError)
  else if k.numberOfSamples = 0 then (k, .error .invalidArgument)
  else if k.isRead = false then (k, .error .runtimeError)
  else if k.isNormalized = false then (k, .error .runtimeError)
  else
    andThen k.setupCorr fun k =>
    let k := { k with numberOfHyperParameters := 2 * k.dimension }
    andThen (if k.usesLinear then
        andThen (k.onLinear k.linear.init) fun k => commit k k.subtractLinear
      else (k, .ok ())) fun k =>
    andThen (k.updateAuxilliaryFields F) fun k =>
    ({ k with isInitialized := true }, .ok ())

/-- `KrigingModel::setHyperParameters` (kriging_training.cpp 311-320). -/
def setHyperParameters (k : Kriging K) (h : List K) : Res (Kriging K) :=
  if h.length ≠ k.numberOfHyperParameters then .error .invalidArgument
  else do
    let c ← k.corr.setHyperParameters h
    .ok { k with corr := c }

/-- `KrigingModel::saveHyperParameters` (kriging_training.cpp 336-346) with a nonempty file name: the
content of the file. -/
def saveHyperParameters [FloorRing K] (k : Kriging K) : Res Str := do
  let h ← k.corr.getHyperParameters
  Vec.saveToCSV h

/-- `KrigingModel::loadHyperParameters` (kriging_training.cpp 348-380) with a nonempty file name.  A
file with another number of entries is ignored. -/
def loadHyperParameters [FloorRing K] (k : Kriging K) (file : Option Str) : Res (Kriging K) :=
  if k.dimension = 0 then .error .runtimeError
  else do
    let buf ← Vec.readFromCSV file
    if buf.length = k.numberOfHyperParameters then do
      let theta ← Vec.head buf k.data.dimension
      let gamma ← Vec.tail buf k.data.dimension
      let c ← k.corr.setTheta theta
      let c ← c.setGamma gamma
      .ok { k with corr := c }
    else .ok k

/-- The linear part of `interpolate` (kriging_training.cpp 545-550). -/
def linearPart (k : Kriging K) (xp : List K) : Res K :=
  if k.usesLinear then k.linear.interpolate xp else .ok 0

/-- `KrigingModel::interpolate` (kriging_training.cpp 542-559). -/
def interpolate (F : Fns K) (k : Kriging K) (xp : List K) : Res K := do
  let lin ← k.linearPart xp
  let r ← k.corr.computeCorrelationVector F.exp F.pow xp
  let s ← Vec.dot r k.RinvYsMinBeta
  .ok (lin + (k.beta0 + s))

/-- `KrigingModel::interpolateWithVariance` (kriging_training.cpp 569-605): estimate and variance.
`pow(t, 2.0)` is `t * t`; `10E-10` is `10^(-9)`. -/
def interpolateWithVariance (F : Fns K) (k : Kriging K) (xp : List K) : Res (K × K) := do
  let ftilde ← k.interpolate F xp
  let r ← k.corr.computeCorrelationVector F.exp F.pow xp
  let Rr ← k.chol.solveLinearSystem r
  let rRr ← Vec.dot r Rr
  let rR1 ← Vec.dot r k.RinvI
  let oneR1 ← Vec.dot k.ones k.RinvI
  let q ← fdiv ((rR1 - 1) * (rR1 - 1)) oneR1
  let term1 := if |rR1 - 1| < 1 / 10 ^ 9 then 0 else q
  let term2 := if |rRr - 1| < 1 / 10 ^ 9 then 0 else 1 - rRr
  .ok (ftilde, k.sigmaSquared * (term2 + term1))

/-- `SurrogateModel::calculateValidationError` (surrogate_model.cpp 326-359) for this model. -/
def calculateValidationError (F : Fns K) (k : Kriging K) : Res K :=
  if k.data.numberOfValidationSamples > 0 then
    if k.isNormalized = false then .error .runtimeError
    else do
      let e ← Mat.sumLoop k.data.numberOfValidationSamples fun i => do
        let x ← Mat.getRow k.data.XValidation (i : Nat)
        let f ← k.interpolate F x
        let y ← vat k.data.yValidation i
        .ok |f - y|
      .ok (e / (k.data.numberOfValidationSamples : K))
  else .ok dblMax

/-- The checks and the common steps of the two objective functions (kriging_training.cpp 619-640,
649-669): set the hyperparameters and update. -/
def evaluateAt (F : Fns K) (k : Kriging K) (h : List K) : Kriging K × Res Unit :=
  andThen (commit k (do
    let c ← k.corr.setHyperParameters h
    .ok { k with corr := c })) fun k => k.updateAuxilliaryFields F

/-- `calculateValidationErrorForGivenHyperparameters` (kriging_training.cpp 619-645). -/
def validationErrorAt (F : Fns K) (k : Kriging K) (h : List K) : Kriging K × Res K :=
  if k.isRead = false then (k, .error .runtimeError)
  else if k.isNormalized = false then (k, .error .runtimeError)
  else if k.numberOfSamples = 0 then (k, .error .invalidArgument)
  else if k.data.numberOfValidationSamples = 0 then (k, .error .invalidArgument)
  else
    match k.evaluateAt F h with
    | (k, .error e) => (k, .error e)
    | (k, .ok ()) => (k, if k.chol.done = false then .ok (-dblMax) else k.calculateValidationError F)

/-- The value at the end of `calculateLikelihoodFunction` (kriging_training.cpp 671-684). -/
def likelihoodValue (F : Fns K) (k : Kriging K) : Res K :=
  if k.chol.done = false then .ok (-dblMax)
  else do
    let logdet ← k.chol.calculateLogDeterminant F.log
    if k.sigmaSquared > 0 then
      .ok (-((k.numberOfSamples : K) / 2) * F.log k.sigmaSquared - 1 / 2 * logdet)
    else .ok (-dblMax)

/-- `calculateLikelihoodFunction` (kriging_training.cpp 649-685). -/
def likelihoodAt (F : Fns K) (k : Kriging K) (h : List K) : Kriging K × Res K :=
  if k.isRead = false then (k, .error .runtimeError)
  else if k.isNormalized = false then (k, .error .runtimeError)
  else if k.numberOfSamples = 0 then (k, .error .invalidArgument)
  else
    match k.evaluateAt F h with
    | (k, .error e) => (k, .error e)
    | (k, .ok ()) => (k, k.likelihoodValue F)

/-- `KrigingHyperParameterOptimizer::calculateObjectiveFunctionInternal` (kriging_training.cpp
846-858) on the optimizer's own copy `k` of the model; the copy is changed by the call. -/
def score (F : Fns K) (obj : KrigingObjective) (k : Kriging K) (h : List K) : Kriging K × Res K :=
  match obj with
  | .validationError => k.validationErrorAt F h
  | .maximumLikelihood =>
    match k.likelihoodAt F h with
    | (k, .ok v) => (k, .ok (-1 * v))
    | (k, .error e) => (k, .error e)

/-- Lower bounds of the hyperparameters (kriging_training.cpp 712-719). -/
def hyperLb (dim : Nat) : List K := List.replicate dim 0 ++ List.replicate dim 1

/-- Upper bounds of the hyperparameters (kriging_training.cpp 712-719). -/
def hyperUb (dim : Nat) : List K := List.replicate dim 20 ++ List.replicate dim 2

/-- The number of generations (kriging_training.cpp 728-731). -/
def generations (iterations dim : Nat) : Nat :=
  if iterations / (200 * dim) = 0 then 1 else iterations / (200 * dim)

/-- The optimizer of one thread before `optimize` (kriging_training.cpp 748-764): `maxEvals` is the
number of iterations per thread. -/
def threadOptimizer (dim generations maxEvals : Nat) : Res (EA K) :=
  let o := (EA.new : EA K).setDimension (2 * dim)
  do
    let up ← Vec.gt (hyperUb dim : List K) (hyperLb dim)
    if up = false then .error .invalidArgument
    else do
      let o ← ({ o with lb := hyperLb dim, ub := hyperUb dim, boundsSet := true, births := 200 * dim,
                        deaths := 180 * dim, sizeInit := min (2 * dim * 100) 5000 } : EA K).setMutationProbability
        (1 / 10)
      if maxEvals = 0 then .error .invalidArgument
      else .ok { o with maxEvals := maxEvals, gens := generations }

/-- One thread of the search (kriging_training.cpp 747-769): genes and objective value of its
solution.  The checks of `initializeKrigingModelObject` (827-844) come first.  `E` has the random numbers of the
thread; its objective is `score` on a copy of the model (`Kriging.score_stateless` in
`Lemmas/KrigingTrain` shows that the changes of the copy by one evaluation have no effect on later
values). -/
def threadSearch [FloorRing K] (F : Fns K) (k : Kriging K) (generations maxEvals : Nat)
    (E : EAEnv K) : Res (List K × K) :=
  if k.isRead = false ∨ k.isNormalized = false ∨ k.isInitialized = false then .error .runtimeError
  else do
    let o ← threadOptimizer k.dimension generations maxEvals
    let o ← EA.optimize { E with f := fun h => (score F k.objective k h).2 } o
    let x ← o.getSolution
    .ok (x.genes, x.obj)

/-- The critical section (kriging_training.cpp 773-781): `(bestSolution, globalBestError)`. -/
def merge (s : List K × K) (r : List K × K) : List K × K := if r.2 < s.2 then r else s

/-- The parallel loop (kriging_training.cpp 742-783).  The threads work on their own objects and
touch the shared pair only in the critical section, so a schedule is the order in which they enter
it.  An exception in any thread ends the loop (with OpenMP it ends the program). -/
def searchAll [FloorRing K] (F : Fns K) (k : Kriging K) (generations maxEvals : Nat)
    (E : Nat → EAEnv K) (schedule : List Nat) : Res (List K × K) := do
  let rs ← mapRes (fun t => threadSearch F k generations maxEvals (E t)) schedule
  .ok (rs.foldl merge ([], dblMax))

/-- The part of `train` without warm start (kriging_training.cpp 700-800).  The division by
`numberOfThreads` is undefined for zero.  The second component of the result is the hyperparameter
file, if it is written. -/
def searchHyperParameters [FloorRing K] (F : Fns K) (k : Kriging K) (E : Nat → EAEnv K)
    (schedule : List Nat) (hyperFile : Option Str) : (Kriging K × Option Str) × Res Unit :=
  if k.dimension = 0 then ((k, hyperFile), .error .runtimeError)
  else
    let k := if k.hasValidation then { k with objective := .validationError } else k
    let gens := generations k.iterations k.dimension
    if k.threads = 0 then ((k, hyperFile), .error .ub)
    else
      let k := { k with iterations := k.iterations / k.threads }
      andThen (commit (k, hyperFile) (do
        let best ← searchAll F k gens k.iterations E schedule
        let _ ← Vec.head best.1 k.dimension
        let _ ← Vec.tail best.1 k.dimension
        let c ← k.corr.setHyperParameters best.1
        .ok ({ k with corr := c }, hyperFile))) fun p =>
      if p.1.writeWarm then
        commit p (do
          let t ← p.1.saveHyperParameters
          .ok (p.1, some t))
      else (p, .ok ())

/-- The return to the full data after a search by validation error (kriging_training.cpp
803-818). -/
def revertToFullData (k : Kriging K) : Kriging K × Res Unit :=
  andThen (k.onData k.data.revertBackToFullData) fun k =>
  let k := { k with numberOfSamples := k.data.numberOfSamples }
  andThen (commit k (do
    let b ← k.corr.base.setInputSampleMatrix k.data.X
    .ok { k with corr := { k.corr with base := b } })) fun k =>
  andThen (if k.usesLinear then commit k k.subtractLinear else (k, .ok ())) fun k =>
  commit k k.resizeDataObjects

/-- Lift a step on the object to the object together with the hyperparameter file. -/
def withFile (p : Kriging K × Option Str) (q : Kriging K × Res Unit) :
    (Kriging K × Option Str) × Res Unit := ((q.1, p.2), q.2)

/-- `KrigingModel::train` (kriging_training.cpp 687-824): object, hyperparameter file and
outcome. -/
def train [FloorRing K] (F : Fns K) (k : Kriging K) (E : Nat → EAEnv K) (schedule : List Nat)
    (hyperFile : Option Str) : (Kriging K × Option Str) × Res Unit :=
  if k.isInitialized = false then ((k, hyperFile), .error .runtimeError)
  else
    andThen (if k.readWarm then
        withFile (k, hyperFile) (commit k (k.loadHyperParameters hyperFile))
      else searchHyperParameters F k E schedule hyperFile) fun p =>
    andThen (if p.1.objective = .validationError then withFile p p.1.revertToFullData
      else (p, .ok ())) fun p =>
    andThen (withFile p (p.1.updateAuxilliaryFields F)) fun p =>
    (({ p.1 with isTrained := true }, p.2), .ok ())

/-- `KrigingModel::updateModelWithNewData` (kriging_training.cpp 533-540). -/
def updateModelWithNewData [FloorRing K] (F : Fns K) (k : Kriging K) (file : Option Str)
    (perm permL : List Nat) : Kriging K × Res Unit :=
  andThen (k.resetDataObjects.readData file perm permL) fun k =>
  andThen k.normalizeData fun k => k.init F

/-- `KrigingModel::addNewSampleToData` (kriging_training.cpp 415-441): object and training data
file. -/
def addNewSampleToData [FloorRing K] (F : Fns K) (k : Kriging K) (file : Option Str)
    (sample : List K) (perm permL : List Nat) : (Kriging K × Option Str) × Res Unit :=
  if sample.length ≠ k.data.dimension + 1 then ((k, file), .error .runtimeError)
  else
    match Mat.findRowIndex k.data.rawData sample (1 / 10 ^ 4) with
    | .error e => ((k, file), .error e)
    | .ok i =>
      if i = -1 then
        swallow (andThen (commit (k, file) (do
          let t ← Vec.appendToCSV sample file 12
          .ok (k, some t))) fun p =>
        withFile p (p.1.updateModelWithNewData F p.2 perm permL))
      else ((k, file), .ok ())

end Kriging
end Rodeo
