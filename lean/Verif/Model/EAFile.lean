import Verif.Model.EA
import Verif.Model.CSV

/-! # The warm start file of the evolutionary optimizer

`EAPopulation::writeToCSV`, `EAPopulation::readFromCSV` and `EAOptimizer::optimize` with warm start.
The file name is set and the file can be opened. -/

namespace Rodeo

open Text

variable {K : Type} [Field K] [LinearOrder K] [IsStrictOrderedRing K] [FloorRing K]

namespace Pop

/-- The header line (ea_population.cpp 217-221). -/
def csvHeader (dim : Nat) : Str :=
  "ID,ObjectiveFunctionValue,Fitness,ReproductionProbability,DeathProbability".toList ++
    ((List.range dim).map (fun i => ",Gene_".toList ++ natStr i)).flatten ++ ['\n']

/-- One line of the file (ea_population.cpp 225-236): numbers in scientific notation with 9 digits
after the point. -/
def csvLine (x : Indiv K) : Str :=
  natStr x.id ++ [','] ++ sciStr 9 x.obj ++ [','] ++ sciStr 9 x.fitness ++ [','] ++
    sciStr 9 x.rep ++ [','] ++ sciStr 9 x.death ++
    (x.genes.map (fun g => ',' :: sciStr 9 g)).flatten ++ ['\n']

/-- `EAPopulation::writeToCSV` (ea_population.cpp 201-240): the content of the file. -/
def writeToCSV (p : Pop K) : Res Str :=
  if p.dim = 0 then .error .invalidArgument
  else .ok (csvHeader p.dim ++ (p.inds.map csvLine).flatten)

/-- `std::getline(ss, token, ',')` without a test of its result: the remaining pieces of the line and
the current value of `token`.  At the end of the line `token` keeps its old value. -/
def nextToken (s : List Str × Str) : List Str × Str :=
  match s.1 with
  | [] => s
  | t :: ts => (ts, t)

/-- Next token, which must not be empty, as a number (e.g. ea_population.cpp 273-277). -/
def nextNumber (s : List Str × Str) : Res ((List Str × Str) × K) :=
  let s' := nextToken s
  if s'.2 = [] then .error .runtimeError
  else do
    let v ← stod s'.2
    .ok (s', v)

/-- The gene loop (ea_population.cpp 301-307), `k` genes left. -/
def readGenes : Nat → List Str × Str → Res (List K)
  | 0, _ => .ok []
  | k + 1, s => do
    let (s1, v) ← nextNumber s
    let vs ← readGenes k s1
    .ok (v :: vs)

/-- One line of the file (ea_population.cpp 260-327).  A negative ID wraps around. -/
def readLine (dim : Nat) (line : Str) : Res (Indiv K) :=
  let s0 := nextToken (splitOn ',' line, [])
  if s0.2 = [] then .error .runtimeError
  else do
    let id ← stoi s0.2
    let (s1, obj) ← nextNumber s0
    let (s2, fitness) ← nextNumber s1
    let (s3, rep) ← nextNumber s2
    let (s4, death) ← nextNumber s3
    let genes ← readGenes dim s4
    let x : Indiv K := { (Indiv.new dim : Indiv K) with id := (id % 2 ^ 32).toNat }
    let x ← x.initializeGenes genes
    let x : Indiv K := { x with obj := obj, fitness := fitness }
    let x ← x.setRep rep
    x.setDeath death

/-- `EAPopulation::readFromCSV` (ea_population.cpp 242-331).  `population.clear()` keeps the extremes
of earlier individuals. -/
def readFromCSV (p : Pop K) (text : Str) : Res (Pop K) :=
  match pieces '\n' text with
  | [] => .error .runtimeError
  | _ :: lines => foldRes (fun q line => do
      let x ← readLine q.dim line
      q.addIndividual x) p.reset lines

end Pop

namespace EA

/-- `EAOptimizer::readWarmRestartFile` (ea_optimizer.cpp 542-558): every exception becomes
`runtime_error`. -/
def readWarmRestartFile (o : EA K) (text : Str) : Res (EA K) :=
  match o.population.readFromCSV text with
  | .ok p => .ok { o with population := p, initialized := true }
  | .error _ => .error .runtimeError

/-- `EAOptimizer::optimize` (ea_optimizer.cpp 440-507) with warm start on. -/
def optimizeWarm (E : EAEnv K) (o : EA K) (text : Str) : Res (EA K) := do
  let o0 := { o with total := 0 }
  checkSettings o0
  let o1 ← readWarmRestartFile o0 text
  let o2 ← generationLoop E o1.gens o1
  let _ ← o2.population.best
  .ok o2

end EA
end Rodeo
