import Verif.Spec.Mat
import Verif.Model.Design

/-! # Specification: the sample of a design for each kind of training data -/

namespace Rodeo.Spec

variable {K : Type} [Field K] [LinearOrder K] [IsStrictOrderedRing K]

/-- The function the training data belongs to. -/
inductive Target
  | objective
  | constraint (c : Nat)
  deriving DecidableEq

/-- The kind of training data. -/
inductive DataKind
  | value
  | gradient
  | tangent
  deriving DecidableEq

/-- High or low fidelity. -/
inductive Fidelity
  | high
  | low
  deriving DecidableEq

/-- Value of the target stored in the design. -/
def storedValue (d : Design K) : Target → Fidelity → K
  | .objective, .high => d.trueValue
  | .objective, .low => d.trueValueLowFi
  | .constraint c, .high => d.constraintTrueValues.getD c 0
  | .constraint c, .low => d.constraintTrueValuesLowFi.getD c 0

/-- Row `c` of a matrix as a list. -/
def rowList (A : Mat K) (c : Nat) : List K :=
  (List.range A.ncols).map (fun j => A.buf.getD (j * A.nrows + c) 0)

/-- Gradient of the target stored in the design. -/
def storedGradient (d : Design K) : Target → Fidelity → List K
  | .objective, .high => d.gradient
  | .objective, .low => d.gradientLowFi
  | .constraint c, .high => rowList d.gradientsMatrix c
  | .constraint c, .low => rowList d.gradientsMatrixLowFi c

/-- Directional derivative of the target stored in the design. -/
def storedTangent (d : Design K) : Target → Fidelity → K
  | .objective, .high => d.tangentValue
  | .objective, .low => d.tangentValueLowFi
  | .constraint c, .high => d.constraintTangent.getD c 0
  | .constraint c, .low => d.constraintTangentLowFi.getD c 0

/-- Direction of the directional derivative of the target. -/
def storedDirection (d : Design K) : Target → Fidelity → List K
  | .objective, _ => d.tangentDirection
  | .constraint c, .high => rowList d.directionsMatrix c
  | .constraint c, .low => rowList d.directionsMatrixLowFi c

/-- The sample: parameters, value, then the derivative data. -/
def sampleSpec (d : Design K) (t : Target) (f : Fidelity) : DataKind → List K
  | .value => d.params ++ [storedValue d t f]
  | .gradient => d.params ++ [storedValue d t f] ++ storedGradient d t f
  | .tangent => d.params ++ [storedValue d t f, storedTangent d t f] ++ storedDirection d t f

/-- The member function of the API that builds the sample. -/
def buildSample (d : Design K) : Target → Fidelity → DataKind → Res (List K)
  | .objective, .high, .value => d.sampleObjective
  | .objective, .low, .value => d.sampleObjectiveLowFi
  | .objective, .high, .gradient => d.sampleObjectiveGradient
  | .objective, .low, .gradient => d.sampleObjectiveGradientLowFi
  | .objective, .high, .tangent => d.sampleObjectiveTangent
  | .objective, .low, .tangent => d.sampleObjectiveTangentLowFi
  | .constraint c, .high, .value => d.sampleConstraint c
  | .constraint c, .low, .value => d.sampleConstraintLowFi c
  | .constraint c, .high, .gradient => d.sampleConstraintGradient c
  | .constraint c, .low, .gradient => d.sampleConstraintGradientLowFi c
  | .constraint c, .high, .tangent => d.sampleConstraintTangent c
  | .constraint c, .low, .tangent => d.sampleConstraintTangentLowFi c

/-- Every member of the design has the size that belongs to its dimension and number of
constraints. -/
def WellSized (d : Design K) : Prop :=
  0 < d.dimension ∧ d.params.length = d.dimension ∧ d.gradient.length = d.dimension ∧
  d.gradientLowFi.length = d.dimension ∧ d.tangentDirection.length = d.dimension ∧
  d.constraintTrueValues.length = d.numberOfConstraints ∧
  d.constraintTrueValuesLowFi.length = d.numberOfConstraints ∧
  d.constraintTangent.length = d.numberOfConstraints ∧
  d.constraintTangentLowFi.length = d.numberOfConstraints ∧
  ∀ A ∈ [d.gradientsMatrix, d.gradientsMatrixLowFi, d.directionsMatrix, d.directionsMatrixLowFi],
    A.nrows = d.numberOfConstraints ∧ A.ncols = d.dimension ∧
      A.buf.length = d.numberOfConstraints * d.dimension

/-- The target exists. -/
def TargetExists (d : Design K) : Target → Prop
  | .objective => True
  | .constraint c => c < d.numberOfConstraints

end Rodeo.Spec
