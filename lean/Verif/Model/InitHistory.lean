import Verif.Model.History

/-! # Model of the initial history and of the improvement value
(`Optimizers/optimization.cpp`, `Optimizers/optimization_constraint_functions.cpp`,
`ObjectiveFunctions/constraint_functions.cpp`) -/

namespace Rodeo

open Text

variable {K : Type} [Field K] [LinearOrder K] [IsStrictOrderedRing K]

/-- Where the values of a constraint come from: a function given by the user, or training data. -/
inductive ConstraintSource (K : Type) where
  | user (f : List K → K)
  | data (A : Mat K)

/-- The part of `ConstraintFunction` that is used here
(ObjectiveFunctions/INCLUDE/constraint_functions.hpp): ID, inequality type, target value, source. -/
structure Constraint (K : Type) where
  id : Int
  type : Str
  target : K
  source : ConstraintSource K

/-- `ConstraintFunction::checkFeasibility` (constraint_functions.cpp 136-150). -/
def Constraint.checkFeasibility (c : Constraint K) (v : K) : Bool :=
  let r := false
  let r := if c.type = ['<'] then (if v < c.target then true else r) else r
  if c.type = ['>'] then (if v > c.target then true else r) else r

/-- The part of `Optimizer` that is used here (Optimizers/INCLUDE/optimization.hpp).
`numberOfConstraints` is the length of the list: `addConstraint`
(optimization_constraint_functions.cpp 21-28) is the only function that changes either. -/
structure Problem (K : Type) where
  dimension : Nat
  lb : List K
  ub : List K
  boxSet : Bool
  constraints : List (Constraint K)

namespace Problem

/-- The value entered for one row and a constraint with training data
(optimization.cpp 945-961): the value of the first matching row; otherwise a large number on the
wrong side.  For another inequality type nothing is written. -/
def lookup (dim : Nat) (c : Constraint K) (dataRead inputConstraint : Mat K) (input : List K)
    (A : Mat K) (i : Nat) (col : Nat) : Res (Mat K) := do
  let indx ← Mat.findRowIndex inputConstraint input (1 / 10 ^ 8)
  if indx ≥ 0 then do
    let v ← dataRead.at' indx.toNat dim
    Mat.put A i col v
  else if c.type = ['>'] then Mat.put A i col (-10 ^ 15)
  else if c.type = ['<'] then Mat.put A i col (10 ^ 15)
  else .ok A

/-- One round of the loop over the constraints (optimization.cpp 930-976). -/
def constraintColumn (p : Problem K) (inputs : Mat K) (A : Mat K) (c : Constraint K) :
    Res (Mat K) :=
  if c.id < 0 ∨ c.id ≥ p.constraints.length then .error .outOfRange
  else
    let col := p.dimension + c.id.toNat + 1
    match c.source with
    | .data D => do
      let inputConstraint ← Mat.submat D 0 (Mat.predU32 D.nrows) 0 (p.dimension - 1)
      forRange A.nrows (fun i A => do
        let input ← Mat.getRow inputs i
        lookup p.dimension c D inputConstraint input A i col) A
    | .user f =>
      forRange A.nrows (fun i A => do
        let x ← Mat.getRow inputs i
        Mat.put A i col (f x)) A

/-- `Optimizer::setOptimizationHistoryConstraintsData` (optimization.cpp 913-979). -/
def setConstraintsData (p : Problem K) (A : Mat K) : Res (Mat K) :=
  if A.isEmpty then .error .invalidArgument
  else if p.dimension = 0 then .error .invalidArgument
  else do
    let inputs ← Mat.submat A 0 (A.nrows - 1) 0 (p.dimension - 1)
    foldRes (constraintColumn p inputs) A p.constraints

/-- `Optimizer::checkConstraintFeasibility` (optimization_constraint_functions.cpp 70-92):
constraint number `i` of the list is compared with value number `i`. -/
def checkConstraintFeasibility (p : Problem K) (values : List K) : Res Bool :=
  if values.length < p.constraints.length then .error .invalidArgument
  else noneOf p.constraints.length fun i =>
    match p.constraints[i]?, vat values i with
    | some c, .ok v => .ok (! c.checkFeasibility v)
    | none, _ => .error .ub
    | _, .error e => .error e

/-- `Optimizer::checkIfBoxConstraintsAreSatisfied` (optimization.cpp 984-1010). -/
def checkBox (p : Problem K) (x : List K) : Res Bool :=
  if p.boxSet = false then .error .runtimeError
  else if x.length = 0 ∨ x.length ≠ p.dimension ∨ x.length ≠ p.lb.length then .error .invalidArgument
  else noneOf p.dimension fun i =>
    match vat x i, vat p.lb i, vat p.ub i with
    | .ok v, .ok l, .ok u => .ok (decide (v < l ∨ v > u))
    | .error e, _, _ => .error e
    | _, .error e, _ => .error e
    | _, _, .error e => .error e

/-- The feasibility of one row of a constrained problem (optimization.cpp 1036-1053). -/
def rowFeasible (p : Problem K) (A : Mat K) (i : Nat) : Res Bool := do
  let row ← Mat.getRow A i
  let dv ← Vec.head row p.dimension
  let values ← tab p.constraints.length fun j => vat row (j + p.dimension + 1)
  let f ← p.checkConstraintFeasibility values
  let b ← p.checkBox dv
  .ok (f && b)

/-- `Optimizer::setOptimizationHistoryDataFeasibilityValues` (optimization.cpp 1012-1075). -/
def setFeasibilityValues (p : Problem K) (A : Mat K) : Res (Mat K) :=
  if A.nrows = 0 then .error .invalidArgument
  else if p.dimension = 0 then .error .invalidArgument
  else if p.constraints.length > 0 then
    forRange A.nrows (fun i A => do
      let b ← p.rowFeasible A i
      Mat.put A i (A.ncols - 1) (if b then 1 else 0)) A
  else
    forRange A.nrows (fun i A => Mat.put A i (A.ncols - 1) 1) A

/-- The call guarded by `isConstrained()` in `setOptimizationHistoryData` (optimization.cpp
1117-1176). -/
def setConstraintsDataIfAny (p : Problem K) (A : Mat K) : Res (Mat K) :=
  if p.constraints.length > 0 then p.setConstraintsData A else .ok A

/-- The matrix built by `Optimizer::setOptimizationHistoryData` (optimization.cpp 1131-1158) from
the training data of the objective function. -/
def initialData (p : Problem K) (T : Mat K) : Res (Mat K) :=
  if p.dimension = 0 then .error .runtimeError
  else if p.dimension > Mat.predU32 T.ncols then .error .outOfRange
  else do
    let _ ← Mat.submat T 0 (Mat.predU32 T.nrows) 0 (p.dimension - 1)
    let A ← forRange (p.dimension + 1) (fun i A => do
      let c ← Mat.getCol T i
      Mat.setCol A c i) (Mat.const T.nrows (p.dimension + 1 + p.constraints.length + 2) 0)
    let A ← p.setConstraintsDataIfAny A
    p.setFeasibilityValues A

section file
variable [FloorRing K]

/-- `Optimizer::setOptimizationHistoryData` (optimization.cpp 1117-1176) with
`findTheGlobalOptimalDesign` (306-331, without the XML file): the history, the best feasible initial
value and the global optimum afterwards.  When it throws, only the exception is modelled. -/
def setHistoryData (p : Problem K) (h : History K) (g : GlobalDesign K) (T : Mat K) :
    Res (History K × K × GlobalDesign K) := do
  let A ← p.initialData T
  let h1 ← h.setData A
  let best ← h1.calculateInitialImprovementValue
  let (h2, r) := h1.save
  let _ ← r
  let h3 := { h2 with numberOfDoESamples := T.nrows }
  if p.boxSet = false then .error .runtimeError
  else do
    let g1 ← g.setFromHistory h3.data
    .ok (h3, best, g1)

end file

end Problem

/-- `std::numeric_limits<double>::epsilon()`. -/
def dblEps : K := 1 / 2 ^ 52

/-- `Optimizer::calculateImprovementValue` (optimization.cpp 1378-1399): the new
`bestFeasibleInitialValue` and the improvement value of the design. -/
def improvementValue (best : K) (feasible : Bool) (trueValue : K) : K × K :=
  if feasible then
    let (best', imp) := if |best + dblMax| < 1 / 10 ^ 5 then (trueValue, dblEps) else (best, 0)
    if trueValue < best' then (best', best' - trueValue) else (best', imp)
  else (best, 0)

/-- The improvement values of a sequence of designs, as in the optimization loop: the variable
`bestFeasibleInitialValue` is carried from one call to the next. -/
def improvementValues (best : K) : List (Bool × K) → List K
  | [] => []
  | (f, v) :: l =>
    let r := improvementValue best f v
    r.2 :: improvementValues r.1 l

end Rodeo
