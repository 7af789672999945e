import Verif.Model.SurrogateData
import Verif.Model.Solve

/-! # Model of the linear regression model (`SurrogateModels/linear_regression.cpp`)

The object keeps its own training data.  Printing is not modelled. -/

namespace Rodeo

variable {K : Type} [Field K] [LinearOrder K] [IsStrictOrderedRing K]

/-- `class LinearModel` (linear_regression.hpp 10-50) with the members of `SurrogateModel` it uses
(surrogate_model.hpp 60-105).  `regularizationParameter` is not initialized by the constructor:
`none` is its indeterminate value. -/
structure LinearModel (K : Type) where
  dimension : Nat
  numberOfSamples : Nat
  data : SMData K
  weights : List K
  regularization : Option K
  isRead : Bool
  isNormalized : Bool
  isInitialized : Bool
  isTrained : Bool

namespace LinearModel

/-- A new object. -/
def new : LinearModel K := ⟨0, 0, SMData.new, [], none, false, false, false, false⟩

/-- `SurrogateModel::setDimension` (surrogate_model.cpp 31-34). -/
def setDimension (m : LinearModel K) (dim : Nat) : LinearModel K := { m with dimension := dim }

/-- `LinearModel::setBoxConstraints` (linear_regression.cpp 13-19). -/
def setBoxConstraints (m : LinearModel K) (b : Bounds K) : Res (LinearModel K) := do
  let d ← m.data.setBoxConstraints b
  .ok { m with data := d }

/-- `setRegularizationParameter` (linear_regression.cpp 86-89). -/
def setRegularizationParameter (m : LinearModel K) (value : K) : LinearModel K :=
  { m with regularization := some value }

/-- `LinearModel::readData` (linear_regression.cpp 22-30) with a nonempty file name. -/
def readData [FloorRing K] (m : LinearModel K) (file : Option Text.Str) (perm : List Nat) :
    LinearModel K × Res Unit :=
  match m.data.readData file perm with
  | (d, .error e) => ({ m with data := d }, .error e)
  | (d, .ok ()) => ({ m with data := d, numberOfSamples := d.numberOfSamples, isRead := true }, .ok ())

/-- `LinearModel::normalizeData` (linear_regression.cpp 32-38). -/
def normalizeData (m : LinearModel K) : LinearModel K × Res Unit :=
  if m.isRead = false then (m, .error .abort)
  else
    match m.data.normalize with
    | (d, .error e) => ({ m with data := d }, .error e)
    | (d, .ok ()) => ({ m with data := d, isNormalized := true }, .ok ())

/-- The matrix with a column of ones in front (linear_regression.cpp 125-141); a new matrix is filled
with zeros. -/
def augmented (X : Mat K) (n dim : Nat) : Res (Mat K) := do
  let d ← forRange n (fun i d =>
    forRange (dim + 1) (fun j d =>
      if j = 0 then Mat.wrAt n (dim + 1) d i j 1
      else do
        let v ← X.at' i (j - 1)
        Mat.wrAt n (dim + 1) d i j v) d) (Mem.zeros (n * (dim + 1)))
  let l ← Mem.freeze d
  .ok ⟨n, dim + 1, l⟩

/-- The weights computed by `train` (linear_regression.cpp 123-148).  Reading the indeterminate
regularization parameter is undefined behaviour. -/
def ridgeWeights (m : LinearModel K) : Res (List K) := do
  let A ← augmented m.data.X m.numberOfSamples m.dimension
  let XT ← A.transpose
  let XTX ← Mat.matMatProduct XT A
  match m.regularization with
  | none => .error .ub
  | some lambda => do
    let M ← Mat.addEpsilonToDiagonal XTX lambda
    let inv ← Mat.invert M
    let XTy ← Mat.matVecProduct XT m.data.y
    Mat.matVecProduct inv XTy

/-- `LinearModel::train` (linear_regression.cpp 102-162); after an exception the object is as
before. -/
def train (m : LinearModel K) : Res (LinearModel K) :=
  if m.isNormalized = false then .error .runtimeError
  else if m.isRead = false then .error .runtimeError
  else if m.dimension = 0 then .error .invalidArgument
  else if m.numberOfSamples = 0 then .error .invalidArgument
  else do
    let w ← m.ridgeWeights
    .ok { m with weights := w, isTrained := true }

/-- `LinearModel::initializeSurrogateModel` (linear_regression.cpp 41-64): the regularization
parameter set before is overwritten. -/
def init (m : LinearModel K) : LinearModel K × Res Unit :=
  if m.isRead = false then (m, .error .runtimeError)
  else if m.dimension = 0 then (m, .error .invalidArgument)
  else
    let m := { m with weights := Vec.resize m.weights (m.dimension + 1)
                      regularization := some (1 / 10 ^ 8) }
    match m.train with
    | .error e => (m, .error e)
    | .ok m => ({ m with isInitialized := true }, .ok ())

/-- `LinearModel::interpolate` (linear_regression.cpp 164-175). -/
def interpolate (m : LinearModel K) (x : List K) : Res K := do
  let w0 ← vat m.weights 0
  forRange m.dimension (fun i f => do
    let a ← vat x i
    let w ← vat m.weights (i + 1)
    .ok (f + a * w)) w0

/-- `LinearModel::interpolateAll` (linear_regression.cpp 193-208). -/
def interpolateAll (m : LinearModel K) (X : Mat K) : Res (List K) :=
  if X.ncols ≠ m.dimension then .error .invalidArgument
  else tab X.nrows fun i => do
    let x ← Mat.getRow X (i : Nat)
    m.interpolate x

end LinearModel
end Rodeo
