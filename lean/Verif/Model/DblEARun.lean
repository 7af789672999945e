import Verif.Model.EA
import Verif.Model.DblEA
import Verif.Model.DblSearch

/-! # A run of the evolutionary optimizer in double arithmetic (`InternalOptimizers/ea_optimizer.cpp`)

The functions of `Model/EA` with every operation on genes, fitness values and probabilities rounded.  What does
not compute is used as it is: `callObjective`, `callObjectiveGroup`, `mutateGenes`, `clampGenes`, `checkSettings`. -/

namespace Rodeo.DblEA

variable {K : Type} [Field K] [LinearOrder K] [IsStrictOrderedRing K] [FloorRing K]

/-- `vec::generateRandomVectorBetween` (vector.cpp 430-445). -/
def randomVectorBetween (a b : List K) (u : Nat → K) : Res (List K) :=
  if a.length ≠ b.length then .error .invalidArgument
  else tab a.length fun i => do
    let l ← rawAt a i
    let h ← rawAt b i
    if l > h then .error .ub else Dbl.uniformReal l h (u i)

/-- The next random vector between the bounds (ea_optimizer.cpp 103, 225). -/
def randomGenes (E : EAEnv K) (o : EA K) : Res (EA K × List K) := do
  let g ← randomVectorBetween o.lb o.ub (E.vecs o.nVec)
  .ok ({ o with nVec := o.nVec + 1 }, g)

/-- `EAOptimizer::generateRandomIndividual` (ea_optimizer.cpp 96-118). -/
def generateRandomIndividual (E : EAEnv K) (o : EA K) : Res (EA K × Indiv K) :=
  if o.boundsSet = false then .error .runtimeError
  else do
    let (o1, g) ← randomGenes E o
    let x ← (Indiv.new o.dim).initializeGenes g
    let o2 := { o1 with total := o1.total + 1 }
    EA.callObjective E o2 { x with id := o2.total }

/-- The loop of `initializePopulation` (ea_optimizer.cpp 140-143). -/
def generateInitial (E : EAEnv K) : Nat → EA K → List (Indiv K) → Res (EA K × List (Indiv K))
  | 0, o, xs => .ok (o, xs)
  | k + 1, o, xs => do
    let (o1, x) ← generateRandomIndividual E o
    generateInitial E k o1 (xs ++ [x])

/-- `EAOptimizer::initializePopulation` (ea_optimizer.cpp 121-157). -/
def initializePopulation (E : EAEnv K) (o : EA K) : Res (EA K) :=
  let o := { o with population := o.population.reset }
  if o.sizeInit ≤ 0 then .error .runtimeError
  else if o.boundsSet = false then .error .runtimeError
  else do
    let (o1, xs) ← generateInitial E o.sizeInit o []
    let p ← o1.population.addGroup xs
    let h ← o1.history.addGroup xs
    let p' ← Dbl.updateProperties p
    let o2 := { o1 with population := p', history := h, initialized := true }
    if o2.population.hasRepeatedIDs then .error .runtimeError else .ok o2

/-- The loop that picks a father other than the mother (ea_population.cpp 617-619), at most `fuel` rounds. -/
def pickFather (p : Pop K) (u : Nat → K) (mother : Indiv K) : Nat → Nat → Res (Indiv K × Nat)
  | 0, _ => .error .outOfFuel
  | fuel + 1, i => do
    let father ← Dbl.pickRep p (u i)
    if mother.id = father.id then pickFather p u mother fuel (i + 1) else .ok (father, i + 1)

/-- `EAPopulation::generateRandomParents` (ea_population.cpp 608-622), starting with draw `i`. -/
def popParents (p : Pop K) (u : Nat → K) (fuel i : Nat) : Res ((Indiv K × Indiv K) × Nat) :=
  if p.inds.length < 2 then .error .runtimeError
  else do
    let mother ← Dbl.pickRep p (u i)
    let (father, j) ← pickFather p u mother fuel (i + 1)
    .ok ((mother, father), j)

/-- `EAOptimizer::generateRandomParents` (ea_optimizer.cpp 202-208). -/
def generateRandomParents (E : EAEnv K) (o : EA K) : Res (EA K × (Indiv K × Indiv K)) :=
  if o.initialized = false then .error .runtimeError
  else do
    let (par, j) ← popParents o.population E.pick E.fuel o.nPick
    .ok ({ o with nPick := j }, par)

/-- `EAOptimizer::applyMutation` (ea_optimizer.cpp 210-233). -/
def applyMutation (E : EAEnv K) (o : EA K) (genes : List K) : Res (EA K × List K) :=
  if o.mutProb ≤ 0 ∨ o.mutProb ≥ 1 then .error .invalidArgument
  else if o.boundsSet = false then .error .runtimeError
  else do
    let (o1, r) ← randomGenes E o
    let g ← EA.mutateGenes (fun i => E.muts (o1.nMut + i)) o1.mutProb genes r
    .ok ({ o1 with nMut := o1.nMut + genes.length }, g)

/-- `EAOptimizer::generateRandomDoubleFromNormalDist` (ea_optimizer.cpp 236-246) with `sigma_factor = 6.0`
(ea_optimizer.hpp 34); `std::normal_distribution(mu, sigma)` delivers `z * sigma + mu` (libstdc++
bits/random.tcc). -/
def normalDraw (xs xe z : K) : Res K := do
  let d ← Dbl.sub xe xs
  let q ← Dbl.div |d| 6
  let s ← Dbl.add xe xs
  let mu ← Dbl.div s 2
  let t ← Dbl.mul z (if q = 0 then 1 else q)
  Dbl.add t mu

/-- `EAOptimizer::crossOver` (ea_optimizer.cpp 250-282). -/
def crossOver (E : EAEnv K) (o : EA K) (par : Indiv K × Indiv K) : Res (EA K × List K) :=
  if par.1.id = par.2.id then .error .invalidArgument
  else if par.1.genes.length ≠ par.2.genes.length then .error .invalidArgument
  else do
    let g ← tab par.1.genes.length fun i => do
      let a ← vat par.1.genes i
      let b ← vat par.2.genes i
      normalDraw a b (E.nrm (o.nNrm + i))
    let o1 := { o with nNrm := o.nNrm + par.1.genes.length }
    let (o2, g2) ← applyMutation E o1 g
    let g3 ← EA.clampGenes o2.dim o2.lb o2.ub g2
    .ok (o2, g3)

/-- `EAOptimizer::generateIndividualByReproduction` (ea_optimizer.cpp 285-299). -/
def generateIndividualByReproduction (E : EAEnv K) (o : EA K) (par : Indiv K × Indiv K) :
    Res (EA K × Indiv K) :=
  if o.boundsSet = false then .error .runtimeError
  else do
    let child : Indiv K := Indiv.new o.dim
    let (o1, g) ← crossOver E o par
    let child := child.setGenes g
    let child := { child with id := o1.total }
    .ok ({ o1 with total := o1.total + 1 }, child)

/-- `EAOptimizer::generateAGroupOfIndividualsForReproduction` (ea_optimizer.cpp 310-317). -/
def generateGroup (E : EAEnv K) : Nat → EA K → List (Indiv K) → Res (EA K × List (Indiv K))
  | 0, o, xs => .ok (o, xs)
  | k + 1, o, xs => do
    let (o1, par) ← generateRandomParents E o
    let (o2, c) ← generateIndividualByReproduction E o1 par
    generateGroup E k o2 (xs ++ [c])

/-- `EAOptimizer::addNewIndividualsToPopulation` (ea_optimizer.cpp 319-342). -/
def addNewIndividuals (E : EAEnv K) (o : EA K) : Res (EA K) :=
  if o.births = 0 then .error .abort
  else do
    let (o1, xs) ← generateGroup E o.births o []
    let (o2, ys) ← EA.callObjectiveGroup E o1 xs
    let p ← o2.population.addGroup ys
    let g ← o2.generated.addGroup ys
    let h ← o2.history.addGroup ys
    .ok { o2 with population := p, generated := g, history := h }

/-- One round of `removeIndividualsFromPopulation` (ea_optimizer.cpp 350-360). -/
def removeOne (E : EAEnv K) (o : EA K) : Res (EA K) := do
  let x ← Dbl.pickDeath o.population (E.pick o.nPick)
  let r ← o.removed.addIndividual x
  let p ← o.population.removeById x.id
  let p' ← Dbl.updateProperties p
  .ok { o with population := p', removed := r, nPick := o.nPick + 1 }

/-- `EAOptimizer::removeIndividualsFromPopulation` (ea_optimizer.cpp 345-365): `k` deaths. -/
def removeIndividuals (E : EAEnv K) : Nat → EA K → Res (EA K)
  | 0, o => .ok o
  | k + 1, o => do
    let o1 ← removeOne E o
    removeIndividuals E k o1

/-- `EAOptimizer::generateANewGeneration` (ea_optimizer.cpp 368-388). -/
def newGeneration (E : EAEnv K) (o : EA K) : Res (EA K) := do
  let o1 ← addNewIndividuals E o
  let p1 ← Dbl.updateProperties o1.population
  let o2 := { o1 with population := p1 }
  let o3 ← removeIndividuals E o2.deaths o2
  let p3 ← Dbl.updateProperties o3.population
  .ok { o3 with population := p3.updateMinMax }

/-- The generation loop of `optimize` (ea_optimizer.cpp 465-476), `k` rounds left. -/
def generationLoop (E : EAEnv K) : Nat → EA K → Res (EA K)
  | 0, o => .ok o
  | k + 1, o => do
    let o1 ← newGeneration E o
    if o1.total ≥ o1.maxEvals then .ok o1 else generationLoop E k o1

/-- `EAOptimizer::optimize` (ea_optimizer.cpp 440-507) without warm start, screen output and files. -/
def optimize (E : EAEnv K) (o : EA K) : Res (EA K) := do
  let o0 := { o with total := 0 }
  EA.checkSettings o0
  let o1 ← initializePopulation E o0
  let o2 ← generationLoop E o1.gens o1
  let _ ← o2.population.best
  .ok o2

end Rodeo.DblEA
