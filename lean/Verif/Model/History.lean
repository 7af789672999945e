import Verif.Model.Design
import Verif.Model.Bounds
import Verif.Model.CSV
import Verif.Model.EAPop

/-! # Model of `Optimizers/optimization_history.cpp` and `Optimizers/globalOptimalDesign.cpp`

A call that can throw half way through delivers the object as it is left together with the outcome.
The history file is its content (`none`: never written).  Logging is left out. -/

namespace Rodeo

open Text

/-- Data members of `OptimizationHistory` (INCLUDE/optimization_history.hpp 22-36) and the file. -/
structure History (K : Type) where
  constraintNames : List Str
  parameterNames : List Str
  data : Mat K
  dimension : Nat
  crowding : K
  numberOfDoESamples : Nat
  file : Option Str
  deriving DecidableEq

variable {K : Type} [Field K] [LinearOrder K] [IsStrictOrderedRing K]

namespace History

/-- A fresh object (INCLUDE/optimization_history.hpp 22-36). -/
def new : History K := ⟨[], [], Mat.empty, 0, 0, 0, none⟩

/-- `OptimizationHistory::addConstraintName` (optimization_history.cpp 14-27). -/
def addConstraintName (h : History K) (name : Str) : Res (History K) :=
  if name = [] then .error .invalidArgument
  else if name ∈ h.constraintNames then .error .invalidArgument
  else .ok { h with constraintNames := h.constraintNames ++ [name] }

/-- `numberOfEntries` (optimization_history.cpp 51, 197). -/
def numberOfEntries (h : History K) : Nat := h.dimension + 1 + h.constraintNames.length + 2

/-- `OptimizationHistory::setData` (optimization_history.cpp 41-61). -/
def setData (h : History K) (A : Mat K) : Res (History K) :=
  if h.dimension = 0 then .error .runtimeError
  else if A.isEmpty then .error .invalidArgument
  else if A.ncols ≠ h.numberOfEntries then .error .runtimeError
  else .ok { h with data := A }

/-- `OptimizationHistory::setParameterNames` (optimization_history.cpp 63-94). -/
def setParameterNames (h : History K) (names : List Str) : Res (History K) :=
  if h.dimension = 0 then .error .runtimeError
  else if names = [] then .error .invalidArgument
  else if names.length ≠ h.dimension then .error .invalidArgument
  else if ¬ names.Nodup then .error .invalidArgument
  else .ok { h with parameterNames := names }

/-- `OptimizationHistory::getObjectiveFunctionValues` (optimization_history.cpp 106-109). -/
def objectiveValues (h : History K) : Res (List K) :=
  if h.dimension = 0 then .error .abort else Mat.getCol h.data h.dimension

/-- `OptimizationHistory::getFeasibilityValues` (optimization_history.cpp 111-115). -/
def feasibilityValues (h : History K) : Res (List K) :=
  if h.data.ncols = 0 then .error .abort else Mat.getCol h.data ((h.data.ncols : Int) - 1)

/-- `OptimizationHistory::setHeader` (optimization_history.cpp 127-168). -/
def setHeader (h : History K) : Res (List Str) :=
  if h.parameterNames ≠ [] ∧ h.parameterNames.length ≠ h.dimension then .error .invalidArgument
  else
    .ok ((if h.parameterNames ≠ [] then h.parameterNames
        else (List.range h.dimension).map (fun i => 'x' :: natStr (i + 1))) ++
      ["Objective".toList] ++ h.constraintNames ++ ["Improvement".toList] ++ ["Feasibility".toList])

section file
variable [FloorRing K]

/-- `OptimizationHistory::saveOptimizationHistoryFile` (optimization_history.cpp 171-186). -/
def save (h : History K) : History K × Res Unit :=
  if h.data.isEmpty then (h, .error .runtimeError)
  else
    match h.setHeader with
    | .error e => (h, .error e)
    | .ok header =>
      let r := Mat.saveAsCSV h.data 6 header
      ({ h with file := some r.1 }, r.2)

/-- The row built by `updateOptimizationHistory` (optimization_history.cpp 197-220). -/
def newRow (h : History K) (d : Design K) : Res (List K) := do
  let r0 := List.replicate h.numberOfEntries (0 : K)
  let r1 ← forRange h.dimension (fun i r => do
    let a ← vat d.params i
    Vec.put r i a) r0
  let r2 ← Vec.put r1 h.dimension d.trueValue
  let r3 ← forRange h.constraintNames.length (fun i r => do
    let a ← vat d.constraintTrueValues i
    Vec.put r (i + h.dimension + 1) a) r2
  let r4 ← Vec.put r3 (h.dimension + h.constraintNames.length + 1) d.improvement
  Vec.put r4 (h.dimension + h.constraintNames.length + 2) (if d.feasible then 1 else 0)

/-- `OptimizationHistory::updateOptimizationHistory` (optimization_history.cpp 189-229). -/
def update (h : History K) (d : Design K) : History K × Res Unit :=
  if d.params.length ≠ h.dimension then (h, .error .invalidArgument)
  else
    match newRow h d with
    | .error e => (h, .error e)
    | .ok row =>
      match Mat.addRow h.data row (-1) with
      | .error e => (h, .error e)
      | .ok A => save { h with data := A }

/-- A sequence of `updateOptimizationHistory` calls in which an exception ends the sequence, as in
the optimization loop (efficient_global_optimization.cpp 47). -/
def updateAll (h : History K) : List (Design K) → History K × Res Unit
  | [] => (h, .ok ())
  | d :: ds =>
    match update h d with
    | (h', .ok ()) => updateAll h' ds
    | (h', .error e) => (h', .error e)

end file

/-- `OptimizationHistory::calculateInitialImprovementValue` (optimization_history.cpp 233-260): the
state of the loop is `(ifFeasibleDesignFound, bestFeasibleObjectiveFunctionValue)`. -/
def calculateInitialImprovementValue (h : History K) : Res K :=
  if h.data.nrows = 0 then .error .runtimeError
  else do
    let obj ← h.objectiveValues
    let feas ← h.feasibilityValues
    let s ← forRange h.data.nrows (fun i (s : Bool × K) => do
      let f ← vat feas i
      let o ← vat obj i
      if f > 0 ∧ o < s.2 then .ok (true, o) else .ok s) (false, dblMax)
    .ok (if s.1 then s.2 else -dblMax)

/-- The sum over pairs in `calculateCrowdingFactor` (optimization_history.cpp 293-308). -/
def crowdingSum (A : Mat K) : Res K :=
  forRange A.nrows (fun i s => do
    let x1 ← Mat.getRow A i
    Mat.forFromTo (i + 1) A.nrows (fun j s => do
      let x2 ← Mat.getRow A j
      let d ← Vec.sub x1 x2
      .ok (s + Vec.normL1 d * 2)) s) 0

/-- `OptimizationHistory::calculateCrowdingFactor` (optimization_history.cpp 279-317).  In the else
branch the arguments of `submat(startRow, endRow, startCol, endCol)` are `0, 0, nrows-1, dim-1`
(289).  The number of pairs (309) and its double (313) are computed in `unsigned int`. -/
def calculateCrowdingFactor (h : History K) : Res (History K) :=
  if h.data.nrows = 0 ∨ h.dimension = 0 ∨ h.numberOfDoESamples = 0 then .error .runtimeError
  else do
    let A ←
      if h.data.nrows ≥ h.numberOfDoESamples then
        Mat.submat h.data (h.data.nrows - h.numberOfDoESamples) (h.data.nrows - 1) 0 (h.dimension - 1)
      else Mat.submat h.data 0 0 (h.data.nrows - 1) (h.dimension - 1)
    let sum ← crowdingSum A
    let numPairs := A.nrows * (A.nrows - 1) % 2 ^ 32 / 2
    .ok { h with crowding := if numPairs > 0 then sum / ((numPairs * 2 % 2 ^ 32 : Nat) : K) else 0 }

end History

/-- `GlobalOptimalDesign` (INCLUDE/globalOptimalDesign.hpp): a design and its box. -/
structure GlobalDesign (K : Type) where
  design : Design K
  box : Bounds K
  deriving DecidableEq

namespace GlobalDesign

/-- `GlobalOptimalDesign::findBestDesignIndex` (globalOptimalDesign.cpp 44-73).  The loop state is
`(isFeasibleDesignFound, bestObjectiveValue, bestDesignIndex)`. -/
def findBestDesignIndex (dimension : Nat) (A : Mat K) : Res (Nat × Bool) := do
  let lastCol := Mat.predU32 A.ncols
  let s ← forRange A.nrows (fun i (s : Bool × K × Nat) => do
    let f ← A.at' i lastCol
    let o ← A.at' i dimension
    if f > 0 ∧ o < s.2.1 then .ok (true, o, i) else .ok s) (false, dblMax, 0)
  if s.1 then .ok (s.2.2, true)
  else do
    let obj ← Mat.getCol A dimension
    let k ← Vec.findMinIndex obj
    .ok (k, false)

/-- `GlobalOptimalDesign::extractDesignData` (globalOptimalDesign.cpp 76-95). -/
def extract (g : GlobalDesign K) (row : List K) : Res (GlobalDesign K) := do
  let dv ← Vec.head row g.design.dimension
  let value ← vat row g.design.dimension
  let imp ← vat row (row.length - 2)
  let cons ← tab g.design.numberOfConstraints fun i => vat row (i + g.design.dimension + 1)
  let norm ← Vec.normalizeVector dv g.box.lb g.box.ub
  .ok { g with design := { g.design with
    params := dv
    trueValue := value
    improvement := imp
    constraintTrueValues := cons
    paramsNormalized := norm } }

/-- `GlobalOptimalDesign::setGlobalOptimalDesignFromHistoryFile` (globalOptimalDesign.cpp 97-108)
with `validateInputs` (29-41).  When it throws, only the exception is modelled. -/
def setFromHistory (g : GlobalDesign K) (A : Mat K) : Res (GlobalDesign K) :=
  if A.nrows = 0 then .error .invalidArgument
  else if g.box.isSet = false then .error .logicError
  else if g.design.dimension = 0 then .error .logicError
  else do
    let b ← findBestDesignIndex g.design.dimension A
    let row ← Mat.getRow A b.1
    extract { g with design := { g.design with feasible := b.2, id := b.1 } } row

end GlobalDesign
end Rodeo
