import Verif.Model.DblLU
import Verif.Model.DblLin
import Verif.Model.EAPop

/-! # Fitness, probabilities and selection of the evolutionary algorithm in double arithmetic
(`InternalOptimizers/ea_population.cpp`, `vec::quantile`)

The functions of `Model/EAPop` with every operation rounded.  A quotient `0.0/0.0` is NaN: it ends the run
with `Err.nonFinite`, whereas the code stores it and fails at the next selection. -/

namespace Rodeo.Dbl

variable {K : Type} [Field K] [LinearOrder K] [IsStrictOrderedRing K] [FloorRing K]

/-- `vec::quantile` (vector.cpp 1114-1139). -/
def quantile (x : List K) (p : K) : Res K :=
  if p < 0 ∨ p > 1 then .error .invalidArgument
  else if x.length = 0 then .error .runtimeError
  else do
    let sorted := x.insertionSort (fun a b => a ≤ b)
    let idx ← mul p ((x.length - 1 : Nat) : K)
    let lower : Nat := (Int.floor idx).toNat
    let upper : Nat := (Int.ceil idx).toNat
    if lower = upper then rawAt sorted lower
    else do
      let weight ← sub idx (lower : K)
      let a ← rawAt sorted lower
      let c ← sub 1 weight
      let s ← mul a c
      let b ← rawAt sorted upper
      let t ← mul b weight
      add s t

/-- `EAPopulation::findPolynomialCoefficientsForQuadraticFitnessDistribution` (ea_population.cpp 458-510).
The 3x3 matrix is written column by column. -/
def coefficients (p : Pop K) : Res (List K) := do
  let a ← mul p.pmin p.pmin
  let b ← mul p.pmax p.pmax
  let c ← mul 2 p.pmax
  let A : Mat K := ⟨3, 3, [a, b, c, p.pmin, p.pmax, 1, 1, 1, 0]⟩
  let Ainv ← invert A
  matVecProduct Ainv [1, lit (1 / 100), 0]

/-- The fitness of an objective value (ea_population.cpp 414-415). -/
def fitnessOf (c : List K) (x : K) : Res K := do
  let c0 ← vat c 0
  let c1 ← vat c 1
  let c2 ← vat c 2
  let q0 ← mul c0 x
  let q1 ← mul q0 x
  let q2 ← mul c1 x
  let s ← add q1 q2
  add s c2

/-- `EAPopulation::updateFitnessValuesQuadratic` (ea_population.cpp 406-425) with
`checkIfAllObjectiveFunctionValuesAreZero` (364-376). -/
def updateFitnessQuadratic (p : Pop K) : Res (Pop K) :=
  if p.inds.all (fun x => decide (|x.obj| < lit (1 / 10 ^ 14))) then .error .runtimeError
  else do
    let c ← coefficients p
    let xs ← mapRes (fun x => do
      let fit ← fitnessOf c x.obj
      if fit ≤ 0 then .error .runtimeError else .ok { x with fitness := fit }) p.inds
    .ok { p with inds := xs }

/-- `EAPopulation::updateFitnessValues` (ea_population.cpp 427-445), "quadratic" branch. -/
def updateFitness (p : Pop K) : Res (Pop K) :=
  if p.inds.length = 0 then .error .runtimeError else updateFitnessQuadratic p

/-- `EAPopulation::updateReproductionProbabilities` (ea_population.cpp 514-531). -/
def updateRep (p : Pop K) : Res (Pop K) := do
  let s ← foldRes (fun s (x : Indiv K) => add s x.fitness) 0 p.inds
  let xs ← mapRes (fun x => do
    let v ← div x.fitness s
    x.setRep v) p.inds
  .ok { p with inds := xs }

/-- The vector `oneOverFitness` (ea_population.cpp 549-560). -/
def oneOverFitness (threshold : K) (fits : List K) : Res (List K) :=
  mapRes (fun v => if v > threshold then .ok 0 else div 1 v) fits

/-- `EAPopulation::updateDeathProbabilities` (ea_population.cpp 534-571) with `vec::sum`
(vector.cpp 229-235). -/
def updateDeath (p : Pop K) : Res (Pop K) := do
  let fits := p.inds.map (·.fitness)
  let threshold ← quantile fits (lit (9 / 10))
  let w ← oneOverFitness threshold fits
  let s ← foldRes add 0 w
  let xs ← mapRes (fun xw : Indiv K × K => do
    let v ← div xw.2 s
    xw.1.setDeath v) (p.inds.zip w)
  .ok { p with inds := xs }

/-- `EAPopulation::updatePopulationProperties` (ea_population.cpp 574-586). -/
def updateProperties (p : Pop K) : Res (Pop K) :=
  if p.inds.length = 0 then .error .runtimeError
  else do
    let p1 ← updateFitness p
    let p2 ← updateRep p1
    updateDeath p2

/-- The loops of both roulette selections (ea_population.cpp 596-602, 634-641): `acc` is `probabilitySum`,
`u` the random number. -/
def roulette (prob : Indiv K → K) (u : K) : K → List (Indiv K) → Res (Indiv K)
  | _, [] => .error .runtimeError
  | acc, x :: l => do
    let s ← add acc (prob x)
    if u < s then .ok x else roulette prob u s l

/-- `EAPopulation::pickUpARandomIndividualForReproduction` (ea_population.cpp 589-606). -/
def pickRep (p : Pop K) (u : K) : Res (Indiv K) := roulette (·.rep) u 0 p.inds

/-- `EAPopulation::pickUpAnIndividualThatWillDie` (ea_population.cpp 625-646). -/
def pickDeath (p : Pop K) (u : K) : Res (Indiv K) := roulette (·.death) u 0 p.inds

end Rodeo.Dbl
