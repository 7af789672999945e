import Verif.Model.Mat

/-! # Model of class `Design` (`Design/design.cpp`)

Of the data members (Design/INCLUDE/design.hpp 64-121) those are kept that the modelled functions
read or write; the tag, the estimates and the printed forms are left out. -/

namespace Rodeo

/-- Data members of `Design` (Design/INCLUDE/design.hpp 64-121). -/
structure Design (α : Type) where
  dimension : Nat
  numberOfConstraints : Nat
  params : List α
  paramsNormalized : List α
  constraintTrueValues : List α
  gradient : List α
  gradientLowFi : List α
  tangentDirection : List α
  trueValue : α
  trueValueLowFi : α
  tangentValue : α
  tangentValueLowFi : α
  improvement : α
  /-- `vector<vec> constraintGradients`, filled by nobody but read by `checkIfHasNan`. -/
  constraintGradients : List (List α)
  gradientsMatrix : Mat α
  gradientsMatrixLowFi : Mat α
  directionsMatrix : Mat α
  directionsMatrixLowFi : Mat α
  constraintTangent : List α
  constraintTangentLowFi : List α
  constraintTrueValuesLowFi : List α
  id : Int
  feasible : Bool
  deriving DecidableEq

namespace Vec

/-- `v(i) = a` through `vec::operator()` (LinearAlgebra/vector.cpp 119-124). -/
def put {α : Type} (v : List α) (i : Nat) (a : α) : Res (List α) :=
  if i ≥ v.length then .error .outOfRange else .ok (v.set i a)

end Vec

namespace Mat

/-- `A(i, j) = a` through `mat::operator()` (LinearAlgebra/matrix.cpp 145-150). -/
def put {α : Type} (A : Mat α) (i j : Nat) (a : α) : Res (Mat α) :=
  if i ≥ A.nrows ∨ j ≥ A.ncols then .error .outOfRange
  else if j * A.nrows + i ≥ A.buf.length then .error .ub
  else .ok { A with buf := A.buf.set (j * A.nrows + i) a }

end Mat

variable {K : Type} [Field K] [LinearOrder K] [IsStrictOrderedRing K]

namespace Design

/-- `Design::Design()` with the member initialisers (design.cpp 15, design.hpp 66-121). -/
def new : Design K where
  dimension := 0
  numberOfConstraints := 0
  params := []
  paramsNormalized := []
  constraintTrueValues := []
  gradient := []
  gradientLowFi := []
  tangentDirection := []
  trueValue := 0
  trueValueLowFi := 0
  tangentValue := 0
  tangentValueLowFi := 0
  improvement := 0
  constraintGradients := []
  gradientsMatrix := Mat.empty
  gradientsMatrixLowFi := Mat.empty
  directionsMatrix := Mat.empty
  directionsMatrixLowFi := Mat.empty
  constraintTangent := []
  constraintTangentLowFi := []
  constraintTrueValuesLowFi := []
  id := 0
  feasible := true

/-- `Design::Design(vec)` (design.cpp 18-25). -/
def ofVec (dv : List K) : Design K :=
  { (new : Design K) with
    dimension := dv.length
    params := dv
    gradient := Vec.resize [] dv.length
    gradientLowFi := Vec.resize [] dv.length }

/-- `Design::setDimension` (design.cpp 43-54). -/
def setDimension (d : Design K) (dim : Nat) : Res (Design K) :=
  if dim = 0 then .error .invalidArgument
  else .ok { d with
    dimension := dim
    params := Vec.resize d.params dim
    gradient := Vec.resize d.gradient dim
    gradientLowFi := Vec.resize d.gradientLowFi dim }

/-- `Design::setNumberOfConstraints` (design.cpp 58-77). -/
def setNumberOfConstraints (d : Design K) (n : Nat) : Res (Design K) :=
  if d.dimension = 0 then .error .invalidArgument
  else do
    let g ← Mat.resize d.gradientsMatrix n d.dimension
    let gl ← Mat.resize d.gradientsMatrixLowFi n d.dimension
    let m ← Mat.resize d.directionsMatrix n d.dimension
    let ml ← Mat.resize d.directionsMatrixLowFi n d.dimension
    .ok { d with
      numberOfConstraints := n
      constraintTrueValues := Vec.resize d.constraintTrueValues n
      constraintTrueValuesLowFi := Vec.resize d.constraintTrueValuesLowFi n
      constraintTangent := Vec.resize d.constraintTangent n
      constraintTangentLowFi := Vec.resize d.constraintTangentLowFi n
      gradientsMatrix := g
      gradientsMatrixLowFi := gl
      directionsMatrix := m
      directionsMatrixLowFi := ml }

/-- The common start of all sample builders, e.g. design.cpp 97-99:
`vec sample(size); sample.copyVector(designParameters); sample(dimension) = value;` -/
def startSample (d : Design K) (size : Nat) (value : K) : Res (List K) := do
  let s ← Vec.copyVector (List.replicate size 0) d.params 0
  Vec.put s d.dimension value

/-- The common end, e.g. design.cpp 127-129:
`for(i=0; i<dimension; i++) sample(start+i) = w(i);` -/
def fillSample (d : Design K) (start : Nat) (w : List K) (s : List K) : Res (List K) :=
  forRange d.dimension (fun i s => do
    let a ← vat w i
    Vec.put s (start + i) a) s

/-- `Design::constructSampleObjectiveFunction` (design.cpp 95-101). -/
def sampleObjective (d : Design K) : Res (List K) :=
  startSample d (d.dimension + 1) d.trueValue

/-- `Design::constructSampleObjectiveFunctionLowFi` (design.cpp 104-111). -/
def sampleObjectiveLowFi (d : Design K) : Res (List K) :=
  startSample d (d.dimension + 1) d.trueValueLowFi

/-- `Design::constructSampleObjectiveFunctionWithTangent` (design.cpp 115-132). -/
def sampleObjectiveTangent (d : Design K) : Res (List K) :=
  if d.tangentDirection.length ≠ d.dimension then .error .invalidArgument
  else do
    let s ← startSample d (2 * d.dimension + 2) d.trueValue
    let s1 ← Vec.put s (d.dimension + 1) d.tangentValue
    fillSample d (d.dimension + 2) d.tangentDirection s1

/-- `Design::constructSampleObjectiveFunctionWithTangentLowFi` (design.cpp 134-151). -/
def sampleObjectiveTangentLowFi (d : Design K) : Res (List K) :=
  if d.tangentDirection.length ≠ d.dimension then .error .invalidArgument
  else do
    let s ← startSample d (2 * d.dimension + 2) d.trueValueLowFi
    let s1 ← Vec.put s (d.dimension + 1) d.tangentValueLowFi
    fillSample d (d.dimension + 2) d.tangentDirection s1

/-- `Design::constructSampleObjectiveFunctionWithGradient` (design.cpp 153-168). -/
def sampleObjectiveGradient (d : Design K) : Res (List K) :=
  if d.gradient.length ≠ d.dimension then .error .invalidArgument
  else do
    let s ← startSample d (2 * d.dimension + 1) d.trueValue
    fillSample d (d.dimension + 1) d.gradient s

/-- `Design::constructSampleObjectiveFunctionWithZeroGradient` (design.cpp 170-184). -/
def sampleObjectiveZeroGradient (d : Design K) : Res (List K) :=
  if d.gradient.length ≠ d.dimension then .error .invalidArgument
  else do
    let s ← startSample d (2 * d.dimension + 1) d.trueValue
    forRange d.dimension (fun i s => Vec.put s (d.dimension + 1 + i) 0) s

/-- `Design::constructSampleObjectiveFunctionWithGradientLowFi` (design.cpp 188-203). -/
def sampleObjectiveGradientLowFi (d : Design K) : Res (List K) :=
  if d.gradientLowFi.length ≠ d.dimension then .error .invalidArgument
  else do
    let s ← startSample d (2 * d.dimension + 1) d.trueValueLowFi
    fillSample d (d.dimension + 1) d.gradientLowFi s

/-- `Design::constructSampleConstraint` (design.cpp 205-221). -/
def sampleConstraint (d : Design K) (c : Nat) : Res (List K) :=
  if c ≥ d.numberOfConstraints then .error .outOfRange
  else if d.constraintTrueValues.length ≠ d.numberOfConstraints then .error .invalidArgument
  else do
    let v ← vat d.constraintTrueValues c
    startSample d (d.dimension + 1) v

/-- `Design::constructSampleConstraintLowFi` (design.cpp 223-239). -/
def sampleConstraintLowFi (d : Design K) (c : Nat) : Res (List K) :=
  if c ≥ d.numberOfConstraints then .error .outOfRange
  else if d.constraintTrueValuesLowFi.length ≠ d.numberOfConstraints then .error .invalidArgument
  else do
    let v ← vat d.constraintTrueValuesLowFi c
    startSample d (d.dimension + 1) v

/-- `Design::constructSampleConstraintWithTangent` (design.cpp 242-274).  The direction is the row
of the design's own `ID`, not of the constraint (267). -/
def sampleConstraintTangent (d : Design K) (c : Nat) : Res (List K) :=
  if c ≥ d.numberOfConstraints then .error .outOfRange
  else if d.constraintTrueValues.length ≠ d.numberOfConstraints then .error .invalidArgument
  else if d.directionsMatrix.nrows ≠ d.numberOfConstraints then .error .invalidArgument
  else if d.constraintTangent.length ≠ d.numberOfConstraints then .error .invalidArgument
  else do
    let v ← vat d.constraintTrueValues c
    let s ← startSample d (2 * d.dimension + 2) v
    let t ← vat d.constraintTangent c
    let s1 ← Vec.put s (d.dimension + 1) t
    let dir ← Mat.getRow d.directionsMatrix d.id
    fillSample d (d.dimension + 2) dir s1

/-- `Design::constructSampleConstraintWithTangentLowFi` (design.cpp 276-307). -/
def sampleConstraintTangentLowFi (d : Design K) (c : Nat) : Res (List K) :=
  if c ≥ d.numberOfConstraints then .error .outOfRange
  else if d.constraintTrueValuesLowFi.length ≠ d.numberOfConstraints then .error .invalidArgument
  else if d.directionsMatrixLowFi.nrows ≠ d.numberOfConstraints then .error .invalidArgument
  else if d.constraintTangentLowFi.length ≠ d.numberOfConstraints then .error .invalidArgument
  else do
    let v ← vat d.constraintTrueValuesLowFi c
    let s ← startSample d (2 * d.dimension + 2) v
    let t ← vat d.constraintTangentLowFi c
    let s1 ← Vec.put s (d.dimension + 1) t
    let dir ← Mat.getRow d.directionsMatrixLowFi c
    fillSample d (d.dimension + 2) dir s1

/-- `Design::constructSampleConstraintWithGradient` (design.cpp 309-330). -/
def sampleConstraintGradient (d : Design K) (c : Nat) : Res (List K) :=
  if c ≥ d.numberOfConstraints then .error .outOfRange
  else if d.constraintTrueValues.length ≠ d.numberOfConstraints then .error .invalidArgument
  else do
    let v ← vat d.constraintTrueValues c
    let s ← startSample d (2 * d.dimension + 1) v
    let g ← Mat.getRow d.gradientsMatrix c
    fillSample d (d.dimension + 1) g s

/-- `Design::constructSampleConstraintWithGradientLowFi` (design.cpp 332-352). -/
def sampleConstraintGradientLowFi (d : Design K) (c : Nat) : Res (List K) :=
  if c ≥ d.numberOfConstraints then .error .outOfRange
  else if d.constraintTrueValuesLowFi.length ≠ d.numberOfConstraints then .error .invalidArgument
  else do
    let v ← vat d.constraintTrueValuesLowFi c
    let s ← startSample d (2 * d.dimension + 1) v
    let g ← Mat.getRow d.gradientsMatrixLowFi c
    fillSample d (d.dimension + 1) g s

/-- `Design::checkIfHasNan` (design.cpp 354-381), for an arbitrary type of numbers with a test
`isNan`. -/
def checkIfHasNan {α : Type} (isNan : α → Bool) (d : Design α) : Bool :=
  isNan d.trueValue || d.gradient.any isNan || d.constraintTrueValues.any isNan ||
    d.constraintGradients.any (fun g => g.any isNan)

end Design
end Rodeo
