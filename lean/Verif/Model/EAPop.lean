import Verif.Model.Solve

/-! # Model of `InternalOptimizers/ea_individual.cpp` and `InternalOptimizers/ea_population.cpp`

IDs are natural numbers (no wrap-around at `2^32`).  A function that throws delivers only the
exception: the half-updated object is not modelled, because every caller in `ea_optimizer.cpp` lets
the exception leave `optimize()`. -/

namespace Rodeo

/-- `std::numeric_limits<double>::max()`. -/
def dblMax {K : Type} [Field K] : K := 2 ^ 1024 - 2 ^ 971

/-- `std::numeric_limits<double>::min()`: the smallest positive normal number. -/
def dblMin {K : Type} [Field K] : K := 1 / 2 ^ 1022

/-- The data members of `EAIndividual` (InternalOptimizers/INCLUDE/ea_individual.hpp 17-23). -/
structure Indiv (K : Type) where
  id : Nat
  fitness : K
  obj : K
  rep : K
  death : K
  dim : Nat
  genes : List K
  deriving DecidableEq, Repr

/-- The data members of `EAPopulation` (InternalOptimizers/INCLUDE/ea_population.hpp 20-26).  The
member `polynomialForFitnessDistrubution` is private, has no setter and is always "quadratic". -/
structure Pop (K : Type) where
  inds : List (Indiv K)
  pmin : K
  pmax : K
  idMin : Nat
  idMax : Nat
  dim : Nat
  deriving DecidableEq, Repr

variable {K : Type} [Field K] [LinearOrder K] [IsStrictOrderedRing K]

namespace Indiv

/-- `EAIndividual::EAIndividual(unsigned int)` (ea_individual.cpp 18). -/
def new (dim : Nat) : Indiv K := ⟨0, 0, 0, 0, 0, dim, List.replicate dim 0⟩

/-- `EAIndividual::setReproductionProbabilityValue` (ea_individual.cpp 70-83). -/
def setRep (x : Indiv K) (v : K) : Res (Indiv K) :=
  if v ≤ 0 then .error .outOfRange
  else if v ≥ 1 then .error .outOfRange
  else .ok { x with rep := v }

/-- `EAIndividual::setDeathProbabilityValue` (ea_individual.cpp 85-95). -/
def setDeath (x : Indiv K) (v : K) : Res (Indiv K) :=
  if v < 0 then .error .outOfRange
  else if v > 1 then .error .outOfRange
  else .ok { x with death := v }

/-- `EAIndividual::initializeGenes` (ea_individual.cpp 106-111). -/
def initializeGenes (x : Indiv K) (g : List K) : Res (Indiv K) :=
  if x.dim ≠ g.length then .error .invalidArgument else .ok { x with genes := g }

/-- `EAIndividual::setGenes` (ea_individual.cpp 102-104): no size check. -/
def setGenes (x : Indiv K) (g : List K) : Indiv K := { x with genes := g }

end Indiv

namespace Pop

/-- A default constructed population (ea_population.hpp 22-26). -/
def new : Pop K := ⟨[], dblMax, dblMin, 0, 0, 0⟩

/-- `EAPopulation::setDimension` (ea_population.cpp 18-22). -/
def setDimension (p : Pop K) (d : Nat) : Pop K := { p with dim := d }

/-- `EAPopulation::updateMinAndMaxIfNecessary` (ea_population.cpp 335-346). -/
def updateMinMaxIf (p : Pop K) (J : K) (id : Nat) : Pop K :=
  let p1 := if J > p.pmax then { p with pmax := J, idMax := id } else p
  if J < p1.pmin then { p1 with pmin := J, idMin := id } else p1

/-- `EAPopulation::addIndividual` (ea_population.cpp 30-43). -/
def addIndividual (p : Pop K) (x : Indiv K) : Res (Pop K) :=
  if x.dim ≠ p.dim then .error .invalidArgument
  else .ok ({ p with inds := p.inds ++ [x] }.updateMinMaxIf x.obj x.id)

/-- `EAPopulation::addAGroupOfIndividuals` (ea_population.cpp 46-54). -/
def addGroup (p : Pop K) (xs : List (Indiv K)) : Res (Pop K) := foldRes addIndividual p xs

/-- `EAPopulation::updatePopulationMinAndMax` (ea_population.cpp 348-361). -/
def updateMinMax (p : Pop K) : Pop K :=
  p.inds.foldl (fun q x => q.updateMinMaxIf x.obj x.id) { p with pmax := dblMin, pmin := dblMax }

/-- `EAPopulation::removeIndividual` (ea_population.cpp 65-81). -/
def removeIndividual (p : Pop K) (order : Nat) : Res (Pop K) :=
  match p.inds[order]? with
  | none => .error .outOfRange
  | some x =>
    let q : Pop K := { p with inds := p.inds.eraseIdx order }
    .ok (if x.id = q.idMax ∨ x.id = q.idMin then q.updateMinMax else q)

/-- `EAPopulation::getIndividualOrderInPopulationById` (ea_population.cpp 110-126): position of the
first individual with this ID, `none` for the return value -1. -/
def orderById (id : Nat) : List (Indiv K) → Option Nat
  | [] => none
  | x :: l => if id = x.id then some 0 else (orderById id l).map (· + 1)

/-- `EAPopulation::removeIndividualById` (ea_population.cpp 57-63); -1 converted to `unsigned` is out
of bounds. -/
def removeById (p : Pop K) (id : Nat) : Res (Pop K) :=
  match orderById id p.inds with
  | none => .error .outOfRange
  | some k => p.removeIndividual k

/-- `EAPopulation::getIndividual` (ea_population.cpp 91-98). -/
def getIndividual (p : Pop K) (id : Nat) : Res (Indiv K) :=
  match orderById id p.inds with
  | none => .error .abort
  | some k => vat p.inds k

/-- `EAPopulation::getTheBestIndividual` (ea_population.cpp 100-103). -/
def best (p : Pop K) : Res (Indiv K) := p.getIndividual p.idMin

/-- `EAPopulation::getTheWorstIndividual` (ea_population.cpp 105-108). -/
def worst (p : Pop K) : Res (Indiv K) := p.getIndividual p.idMax

/-- `EAPopulation::reset` (ea_population.cpp 174-178): only the container is cleared. -/
def reset (p : Pop K) : Pop K := { p with inds := [] }

/-- `EAPopulation::findPolynomialCoefficientsForQuadraticFitnessDistribution`
(ea_population.cpp 458-510).  The 3x3 matrix is written column by column. -/
def coefficients (p : Pop K) : Res (List K) := do
  let A : Mat K := ⟨3, 3, [p.pmin * p.pmin, p.pmax * p.pmax, 2 * p.pmax,
                           p.pmin, p.pmax, 1,
                           1, 1, 0]⟩
  let Ainv ← A.invert
  Ainv.matVecProduct [1, 1 / 100, 0]

/-- `EAPopulation::updateFitnessValuesQuadratic` (ea_population.cpp 406-425) with
`checkIfAllObjectiveFunctionValuesAreZero` (364-376). -/
def updateFitnessQuadratic (p : Pop K) : Res (Pop K) :=
  if p.inds.all (fun x => decide (|x.obj| < 1 / 10 ^ 14)) then .error .runtimeError
  else do
    let c ← p.coefficients
    let xs ← mapRes (fun x => do
      let c0 ← vat c 0
      let c1 ← vat c 1
      let c2 ← vat c 2
      let fit := c0 * x.obj * x.obj + c1 * x.obj + c2
      if fit ≤ 0 then .error .runtimeError else .ok { x with fitness := fit }) p.inds
    .ok { p with inds := xs }

/-- `EAPopulation::updateFitnessValues` (ea_population.cpp 427-445), "quadratic" branch. -/
def updateFitness (p : Pop K) : Res (Pop K) :=
  if p.inds.length = 0 then .error .runtimeError else p.updateFitnessQuadratic

/-- `EAPopulation::updateReproductionProbabilities` (ea_population.cpp 514-531). -/
def updateRep (p : Pop K) : Res (Pop K) := do
  let s := p.inds.foldl (fun s x => s + x.fitness) 0
  let xs ← mapRes (fun x => do
    let v ← fdiv x.fitness s
    x.setRep v) p.inds
  .ok { p with inds := xs }

/-- The vector `oneOverFitness` (ea_population.cpp 549-560). -/
def oneOverFitness (threshold : K) (fits : List K) : Res (List K) :=
  mapRes (fun v => if v > threshold then .ok 0 else fdiv 1 v) fits

/-- `EAPopulation::updateDeathProbabilities` (ea_population.cpp 534-571).  The two loops over the
population with a running index `i` are written as loops over lists. -/
def updateDeath [FloorRing K] (p : Pop K) : Res (Pop K) := do
  let fits := p.inds.map (·.fitness)
  let threshold ← Vec.quantile fits (9 / 10)
  let w ← oneOverFitness threshold fits
  let s := w.foldl (· + ·) 0
  let xs ← mapRes (fun xw : Indiv K × K => do
    let v ← fdiv xw.2 s
    xw.1.setDeath v) (p.inds.zip w)
  .ok { p with inds := xs }

/-- `EAPopulation::updatePopulationProperties` (ea_population.cpp 574-586). -/
def updateProperties [FloorRing K] (p : Pop K) : Res (Pop K) :=
  if p.inds.length = 0 then .error .runtimeError
  else do
    let p1 ← p.updateFitness
    let p2 ← p1.updateRep
    p2.updateDeath

/-- The loops of both roulette selections (ea_population.cpp 596-602, 634-641): `acc` is
`probabilitySum`, `u` the random number. -/
def roulette (prob : Indiv K → K) (u : K) : K → List (Indiv K) → Res (Indiv K)
  | _, [] => .error .runtimeError
  | acc, x :: l => if u < acc + prob x then .ok x else roulette prob u (acc + prob x) l

/-- `EAPopulation::pickUpARandomIndividualForReproduction` (ea_population.cpp 589-606). -/
def pickRep (p : Pop K) (u : K) : Res (Indiv K) := roulette (·.rep) u 0 p.inds

/-- `EAPopulation::pickUpAnIndividualThatWillDie` (ea_population.cpp 625-646). -/
def pickDeath (p : Pop K) (u : K) : Res (Indiv K) := roulette (·.death) u 0 p.inds

/-- The `do ... while` loop of `generateRandomParents` (ea_population.cpp 617-619); `u i` is draw
number `i`, the first argument bounds the number of rounds.  Result: father and next draw. -/
def pickFather (p : Pop K) (u : Nat → K) (mother : Indiv K) : Nat → Nat → Res (Indiv K × Nat)
  | 0, _ => .error .outOfFuel
  | fuel + 1, i => do
    let father ← p.pickRep (u i)
    if mother.id = father.id then pickFather p u mother fuel (i + 1) else .ok (father, i + 1)

/-- `EAPopulation::generateRandomParents` (ea_population.cpp 608-622), starting with draw `i`. -/
def generateRandomParents (p : Pop K) (u : Nat → K) (fuel i : Nat) :
    Res ((Indiv K × Indiv K) × Nat) :=
  if p.inds.length < 2 then .error .runtimeError
  else do
    let mother ← p.pickRep (u i)
    let (father, j) ← p.pickFather u mother fuel (i + 1)
    .ok ((mother, father), j)

/-- `EAPopulation::hasRepeatedIDs` (ea_population.cpp 657-676). -/
def hasRepeatedIDs (p : Pop K) : Bool := !decide ((p.inds.map (·.id)).Nodup)

end Pop
end Rodeo
