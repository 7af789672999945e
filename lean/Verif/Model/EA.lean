import Verif.Model.EAPop

/-! # Model of `InternalOptimizers/ea_optimizer.cpp` -/

namespace Rodeo

/-- What is fixed during a run: the objective (an exception is a possible outcome), the numbers
delivered by the random generators, and the bound on parent selection rounds.
`pick i`: draw `i` of `EAPopulation::gen`; `vecs k j`: entry `j` draw of the `k`-th random vector;
`muts i`: draw `i` of the mutation decision; `nrm i`: draw `i` of a standard normal variable, of
which `std::normal_distribution(mu, sigma)` delivers `mu + sigma * nrm i`. -/
structure EAEnv (K : Type) where
  f : List K → Res K
  pick : Nat → K
  vecs : Nat → Nat → K
  muts : Nat → K
  nrm : Nat → K
  fuel : Nat

/-- The data members of `EAOptimizer` and of its base class that the algorithm uses
(ea_optimizer.hpp 25-50, general_purpose_optimizer.hpp).  `evaluated` is a ghost log: the designs
handed to the objective function so far, in order.  `nPick`, `nVec`, `nMut`, `nNrm` are the positions
in the random streams. -/
structure EA (K : Type) where
  dim : Nat
  lb : List K
  ub : List K
  boundsSet : Bool
  maxEvals : Nat
  sizeInit : Nat
  births : Nat
  deaths : Nat
  gens : Nat
  mutProb : K
  total : Nat
  initialized : Bool
  population : Pop K
  generated : Pop K
  removed : Pop K
  history : Pop K
  evaluated : List (List K)
  nPick : Nat
  nVec : Nat
  nMut : Nat
  nNrm : Nat

namespace EA

variable {K : Type} [Field K] [LinearOrder K] [IsStrictOrderedRing K]

/-- A new `EAOptimizer` (ea_optimizer.hpp 34-50). -/
def new : EA K :=
  ⟨0, [], [], false, 0, 0, 0, 0, 0, 0, 0, false, Pop.new, Pop.new, Pop.new, Pop.new, [], 0, 0, 0, 0⟩

/-- `EAOptimizer::setDimension` (ea_optimizer.cpp 21-28). -/
def setDimension (o : EA K) (d : Nat) : EA K :=
  { o with dim := d, population := o.population.setDimension d,
           generated := o.generated.setDimension d, removed := o.removed.setDimension d,
           history := o.history.setDimension d }

/-- `EAOptimizer::setMutationProbability` (ea_optimizer.cpp 31-38). -/
def setMutationProbability (o : EA K) (v : K) : Res (EA K) :=
  if v ≤ 0 ∨ v ≥ 1 then .error .invalidArgument else .ok { o with mutProb := v }

/-- `EAOptimizer::callObjectiveFunction` (ea_optimizer.cpp 73-93). -/
def callObjective (E : EAEnv K) (o : EA K) (x : Indiv K) : Res (EA K × Indiv K) :=
  if o.dim = 0 then .error .runtimeError
  else if x.genes.length ≠ o.dim then .error .runtimeError
  else do
    let J ← E.f x.genes
    .ok ({ o with evaluated := o.evaluated ++ [x.genes] }, { x with obj := J })

/-- `vec::generateRandomVectorBetween(lowerBounds, upperBounds)` with the next random vector. -/
def randomGenes (E : EAEnv K) (o : EA K) : Res (EA K × List K) := do
  let g ← Vec.generateRandomVectorBetween o.lb o.ub (E.vecs o.nVec)
  .ok ({ o with nVec := o.nVec + 1 }, g)

/-- `EAOptimizer::generateRandomIndividual` (ea_optimizer.cpp 96-118). -/
def generateRandomIndividual (E : EAEnv K) (o : EA K) : Res (EA K × Indiv K) :=
  if o.boundsSet = false then .error .runtimeError
  else do
    let (o1, g) ← randomGenes E o
    let x ← (Indiv.new o.dim).initializeGenes g
    let o2 := { o1 with total := o1.total + 1 }
    callObjective E o2 { x with id := o2.total }

/-- The loop of `initializePopulation` (ea_optimizer.cpp 140-143). -/
def generateInitial (E : EAEnv K) : Nat → EA K → List (Indiv K) → Res (EA K × List (Indiv K))
  | 0, o, xs => .ok (o, xs)
  | k + 1, o, xs => do
    let (o1, x) ← generateRandomIndividual E o
    generateInitial E k o1 (xs ++ [x])

/-- `EAOptimizer::initializePopulation` (ea_optimizer.cpp 121-157). -/
def initializePopulation [FloorRing K] (E : EAEnv K) (o : EA K) : Res (EA K) :=
  let o := { o with population := o.population.reset }
  if o.sizeInit ≤ 0 then .error .runtimeError
  else if o.boundsSet = false then .error .runtimeError
  else do
    let (o1, xs) ← generateInitial E o.sizeInit o []
    let p ← o1.population.addGroup xs
    let h ← o1.history.addGroup xs
    let p' ← p.updateProperties
    let o2 := { o1 with population := p', history := h, initialized := true }
    if o2.population.hasRepeatedIDs then .error .runtimeError else .ok o2

/-- `EAOptimizer::generateRandomParents` (ea_optimizer.cpp 202-208). -/
def generateRandomParents (E : EAEnv K) (o : EA K) : Res (EA K × (Indiv K × Indiv K)) :=
  if o.initialized = false then .error .runtimeError
  else do
    let (par, j) ← o.population.generateRandomParents E.pick E.fuel o.nPick
    .ok ({ o with nPick := j }, par)

/-- The loop of `applyMutation` (ea_optimizer.cpp 226-232): `m i` is the draw for gene `i`. -/
def mutateGenes (m : Nat → K) (prob : K) (genes random : List K) : Res (List K) :=
  tab genes.length fun i => do
    let g ← rawAt genes i
    if m i < prob then vat random i else .ok g

/-- `EAOptimizer::applyMutation` (ea_optimizer.cpp 210-233). -/
def applyMutation (E : EAEnv K) (o : EA K) (genes : List K) : Res (EA K × List K) :=
  if o.mutProb ≤ 0 ∨ o.mutProb ≥ 1 then .error .invalidArgument
  else if o.boundsSet = false then .error .runtimeError
  else do
    let (o1, r) ← randomGenes E o
    let g ← mutateGenes (fun i => E.muts (o1.nMut + i)) o1.mutProb genes r
    .ok ({ o1 with nMut := o1.nMut + genes.length }, g)

/-- `EAOptimizer::generateRandomDoubleFromNormalDist` (ea_optimizer.cpp 236-246) with
`sigma_factor = 6.0` (ea_optimizer.hpp 34). -/
def normalDraw (xs xe z : K) : K :=
  let sigma := |xe - xs| / 6
  let mu := (xe + xs) / 2
  mu + (if sigma = 0 then 1 else sigma) * z

/-- The clamping loop of `crossOver` (ea_optimizer.cpp 276-279). -/
def clampGenes (dim : Nat) (lb ub genes : List K) : Res (List K) :=
  forRange dim (fun i g => do
    let v ← vat g i
    let l ← vat lb i
    let v1 := if v < l then l else v
    let u ← vat ub i
    let v2 := if v1 > u then u else v1
    .ok (g.set i v2)) genes

/-- `EAOptimizer::crossOver` (ea_optimizer.cpp 250-282). -/
def crossOver (E : EAEnv K) (o : EA K) (par : Indiv K × Indiv K) : Res (EA K × List K) :=
  if par.1.id = par.2.id then .error .invalidArgument
  else if par.1.genes.length ≠ par.2.genes.length then .error .invalidArgument
  else do
    let g ← tab par.1.genes.length fun i => do
      let a ← vat par.1.genes i
      let b ← vat par.2.genes i
      .ok (normalDraw a b (E.nrm (o.nNrm + i)))
    let o1 := { o with nNrm := o.nNrm + par.1.genes.length }
    let (o2, g2) ← applyMutation E o1 g
    let g3 ← clampGenes o2.dim o2.lb o2.ub g2
    .ok (o2, g3)

/-- `EAOptimizer::generateIndividualByReproduction` (ea_optimizer.cpp 285-299): the child gets the
current value of the counter as its ID, then the counter is incremented. -/
def generateIndividualByReproduction (E : EAEnv K) (o : EA K) (par : Indiv K × Indiv K) :
    Res (EA K × Indiv K) :=
  if o.boundsSet = false then .error .runtimeError
  else do
    let child : Indiv K := Indiv.new o.dim
    let (o1, g) ← crossOver E o par
    let child := child.setGenes g
    let child := { child with id := o1.total }
    .ok ({ o1 with total := o1.total + 1 }, child)

/-- `EAOptimizer::generateAGroupOfIndividualsForReproduction` (ea_optimizer.cpp 310-317). -/
def generateGroup (E : EAEnv K) : Nat → EA K → List (Indiv K) → Res (EA K × List (Indiv K))
  | 0, o, xs => .ok (o, xs)
  | k + 1, o, xs => do
    let (o1, par) ← generateRandomParents E o
    let (o2, c) ← generateIndividualByReproduction E o1 par
    generateGroup E k o2 (xs ++ [c])

/-- `EAOptimizer::callObjectiveFunctionForAGroup` (ea_optimizer.cpp 302-307). -/
def callObjectiveGroup (E : EAEnv K) : EA K → List (Indiv K) → Res (EA K × List (Indiv K))
  | o, [] => .ok (o, [])
  | o, x :: xs => do
    let (o1, x1) ← callObjective E o x
    let (o2, xs2) ← callObjectiveGroup E o1 xs
    .ok (o2, x1 :: xs2)

/-- `EAOptimizer::addNewIndividualsToPopulation` (ea_optimizer.cpp 319-342). -/
def addNewIndividuals (E : EAEnv K) (o : EA K) : Res (EA K) :=
  if o.births = 0 then .error .abort
  else do
    let (o1, xs) ← generateGroup E o.births o []
    let (o2, ys) ← callObjectiveGroup E o1 xs
    let p ← o2.population.addGroup ys
    let g ← o2.generated.addGroup ys
    let h ← o2.history.addGroup ys
    .ok { o2 with population := p, generated := g, history := h }

/-- One round of `removeIndividualsFromPopulation` (ea_optimizer.cpp 350-360). -/
def removeOne [FloorRing K] (E : EAEnv K) (o : EA K) : Res (EA K) := do
  let x ← o.population.pickDeath (E.pick o.nPick)
  let r ← o.removed.addIndividual x
  let p ← o.population.removeById x.id
  let p' ← p.updateProperties
  .ok { o with population := p', removed := r, nPick := o.nPick + 1 }

/-- `EAOptimizer::removeIndividualsFromPopulation` (ea_optimizer.cpp 345-365): `k` deaths. -/
def removeIndividuals [FloorRing K] (E : EAEnv K) : Nat → EA K → Res (EA K)
  | 0, o => .ok o
  | k + 1, o => do
    let o1 ← removeOne E o
    removeIndividuals E k o1

/-- `EAOptimizer::generateANewGeneration` (ea_optimizer.cpp 368-388). -/
def newGeneration [FloorRing K] (E : EAEnv K) (o : EA K) : Res (EA K) := do
  let o1 ← addNewIndividuals E o
  let p1 ← o1.population.updateProperties
  let o2 := { o1 with population := p1 }
  let o3 ← removeIndividuals E o2.deaths o2
  let p3 ← o3.population.updateProperties
  .ok { o3 with population := p3.updateMinMax }

/-- `EAOptimizer::checkIfSettingsAreOk` (ea_optimizer.cpp 391-429) without warm start. -/
def checkSettings (o : EA K) : Res Unit :=
  if o.boundsSet = false then .error .runtimeError
  else if o.births ≤ 0 then .error .invalidArgument
  else if o.sizeInit ≤ 0 then .error .invalidArgument
  else if o.dim ≤ 0 then .error .invalidArgument
  else if o.gens ≤ 0 then .error .invalidArgument
  else if o.maxEvals ≤ 0 then .error .invalidArgument
  else if o.deaths ≥ o.sizeInit + o.births then .error .invalidArgument
  else .ok ()

/-- The generation loop of `optimize` (ea_optimizer.cpp 465-476), `k` rounds left. -/
def generationLoop [FloorRing K] (E : EAEnv K) : Nat → EA K → Res (EA K)
  | 0, o => .ok o
  | k + 1, o => do
    let o1 ← newGeneration E o
    if o1.total ≥ o1.maxEvals then .ok o1 else generationLoop E k o1

/-- `EAOptimizer::optimize` (ea_optimizer.cpp 440-507) without warm start: `printSolution` (510-521)
looks up the best individual and fails if there is none.  Screen output and the warm start file are
not part of this definition. -/
def optimize [FloorRing K] (E : EAEnv K) (o : EA K) : Res (EA K) := do
  let o0 := { o with total := 0 }
  checkSettings o0
  let o1 ← initializePopulation E o0
  let o2 ← generationLoop E o1.gens o1
  let _ ← o2.population.best
  .ok o2

/-- `EAOptimizer::getSolution` (ea_optimizer.cpp 182-186). -/
def getSolution (o : EA K) : Res (Indiv K) := o.population.best

/-- `EAOptimizer::getBestDesignVector` (ea_optimizer.cpp 188-193). -/
def getBestDesignVector (o : EA K) : Res (List K) := do
  let x ← o.getSolution
  .ok x.genes

/-- `EAOptimizer::getBestObjectiveFunctionValue` (ea_optimizer.cpp 195-200). -/
def getBestObjectiveFunctionValue (o : EA K) : Res K := do
  let x ← o.getSolution
  .ok x.obj

end EA
end Rodeo
