import Verif.Model.CSV
import Verif.Model.Bounds
import Verif.Model.Vec
import Mathlib.Algebra.Order.Floor.Ring

/-! # Model of `SurrogateModels/surrogate_model_data.cpp`

The training data file is its content; the shuffle of the row indices is an argument.  Calls that
can throw half way deliver the object as it is left together with the outcome, except that the
matrix reader itself is all or nothing (see `Mat.readFromCSV`).  Logging and printing are left out. -/

namespace Rodeo

open Text

/-- `f(); g();` on an object where both calls can throw: the second runs only if the first
returned. -/
def andThen {σ : Type} (p : σ × Res Unit) (f : σ → σ × Res Unit) : σ × Res Unit :=
  match p with
  | (s, .ok ()) => f s
  | (s, .error e) => (s, .error e)

/-- A call that leaves the object as it was when it throws. -/
def commit {σ : Type} (s : σ) (r : Res σ) : σ × Res Unit :=
  match r with
  | .ok s' => (s', .ok ())
  | .error e => (s, .error e)

/-- Data members of `SurrogateModelData` (surrogate_model_data.hpp 50-94), without the file name
and the display flag. -/
structure SMData (K : Type) where
  numberOfSamples : Nat
  numberOfTestSamples : Nat
  numberOfValidationSamples : Nat
  dimension : Nat
  rawData : Mat K
  rawDataWork : Mat K
  rawDataValidation : Mat K
  X : Mat K
  Xraw : Mat K
  gradient : Mat K
  gradientRaw : Mat K
  y : List K
  directionalDerivatives : List K
  differentiationDirections : Mat K
  XrawTest : Mat K
  XTest : Mat K
  yTest : List K
  XrawValidation : Mat K
  XValidation : Mat K
  yValidation : List K
  box : Bounds K
  ratio : K
  testHasValues : Bool
  hasGradients : Bool
  hasDirectional : Bool
  isNormalized : Bool
  isRead : Bool
  isTestRead : Bool
  deriving DecidableEq

variable {K : Type} [Field K] [LinearOrder K] [IsStrictOrderedRing K]

namespace SMData

/-- A new object (surrogate_model_data.hpp 50-94). -/
def new : SMData K :=
  ⟨0, 0, 0, 0, .empty, .empty, .empty, .empty, .empty, .empty, .empty, [], [], .empty, .empty, .empty,
    [], .empty, .empty, [], .mk0, 0, false, false, false, false, false, false⟩

/-- `SurrogateModelData::setValidationRatio` (surrogate_model_data.cpp 573-579). -/
def setValidationRatio (d : SMData K) (v : K) : Res (SMData K) :=
  if v < 0 ∨ v > 1 then .error .invalidArgument else .ok { d with ratio := v }

/-- The size computed by `generateRandomIndicesForValidationData` (surrogate_model_data.cpp 82-88). -/
def validationCount [FloorRing K] (N : Nat) (ratio : K) : Nat :=
  let k := ⌊ratio * (N : K)⌋
  if k > N then N else if k < 0 then 0 else k.toNat

/-- `generateRandomIndicesForValidationData` (surrogate_model_data.cpp 81-110): `perm` is what
`std::shuffle` made of `0, ..., N-1`. -/
def validationIndices [FloorRing K] (N : Nat) (ratio : K) (perm : List Nat) : List Nat :=
  perm.take (validationCount N ratio)

/-- `assignDimensionFromData` (surrogate_model_data.cpp 243-271); the arithmetic is `unsigned`. -/
def assignDimensionFromData (d : SMData K) : Res (SMData K) :=
  if d.rawDataWork.isEmpty then .error .runtimeError
  else
    let c := d.rawDataWork.ncols
    let dim :=
      if d.hasGradients then (c - 1) / 2
      else if d.hasDirectional then (if c < 2 then (c + 2 ^ 32 - 2) / 2 else (c - 2) / 2)
      else c - 1
    if d.dimension > 0 ∧ dim ≠ d.dimension then .error .runtimeError
    else .ok { d with dimension := dim }

/-- `checkDimensionAndNumberOfSamples` (surrogate_model_data.cpp 273-280). -/
def checkDimensionAndNumberOfSamples (d : SMData K) : Res Unit :=
  if d.dimension = 0 then .error .runtimeError
  else if d.numberOfSamples = 0 then .error .runtimeError
  else .ok ()

/-- The validation part of `assignSampleInputMatrix` (surrogate_model_data.cpp 289-302). -/
def assignValidationInput (d : SMData K) : Res (SMData K) :=
  if d.numberOfValidationSamples > 0 then do
    let V ← Mat.submat d.rawDataValidation 0 (d.numberOfValidationSamples - 1) 0 (d.dimension - 1)
    if V.nrows ≠ d.numberOfValidationSamples then .error .runtimeError
    else if V.ncols ≠ d.dimension then .error .runtimeError
    else .ok { d with XValidation := V, XrawValidation := V }
  else .ok d

/-- `assignSampleInputMatrix` (surrogate_model_data.cpp 282-316). -/
def assignSampleInputMatrix (d : SMData K) : Res (SMData K) := do
  d.checkDimensionAndNumberOfSamples
  let X ← Mat.submat d.rawDataWork 0 (d.numberOfSamples - 1) 0 (d.dimension - 1)
  let d ← assignValidationInput { d with X := X }
  if X.nrows ≠ d.numberOfSamples then .error .runtimeError
  else if X.ncols ≠ d.dimension then .error .runtimeError
  else .ok { d with Xraw := X }

/-- The validation part of `assignSampleOutputVector` (surrogate_model_data.cpp 323-326). -/
def assignValidationOutput (d : SMData K) : Res (SMData K) :=
  if d.numberOfValidationSamples > 0 then do
    let v ← Mat.getCol d.rawDataValidation (d.dimension : Nat)
    .ok { d with yValidation := v }
  else .ok d

/-- `assignSampleOutputVector` (surrogate_model_data.cpp 318-329). -/
def assignSampleOutputVector (d : SMData K) : Res (SMData K) := do
  d.checkDimensionAndNumberOfSamples
  let y ← Mat.getCol d.rawDataWork (d.dimension : Nat)
  assignValidationOutput { d with y := y }

/-- `assignGradientMatrix` (surrogate_model_data.cpp 331-348). -/
def assignGradientMatrix (d : SMData K) : Res (SMData K) := do
  d.checkDimensionAndNumberOfSamples
  if d.hasGradients then
    if d.rawDataWork.ncols ≤ d.dimension + 1 then .error .runtimeError
    else do
      let G ← Mat.submat d.rawDataWork 0 (d.numberOfSamples - 1) (d.dimension + 1) (2 * d.dimension)
      .ok { d with gradient := G }
  else .ok d

/-- `assignDirectionalDerivativesVector` (surrogate_model_data.cpp 351-358). -/
def assignDirectionalDerivativesVector (d : SMData K) : Res (SMData K) :=
  if d.dimension = 0 then .error .abort
  else if d.hasDirectional then do
    let v ← Mat.getCol d.rawDataWork ((d.dimension + 1 : Nat) : Int)
    .ok { d with directionalDerivatives := v }
  else .ok d

/-- `assignDifferentiationDirectionMatrix` (surrogate_model_data.cpp 361-368). -/
def assignDifferentiationDirectionMatrix (d : SMData K) : Res (SMData K) := do
  d.checkDimensionAndNumberOfSamples
  if d.hasDirectional then do
    let D ← Mat.submat d.rawDataWork 0 (d.numberOfSamples - 1) (d.dimension + 2)
      (2 * d.dimension + 1)
    .ok { d with differentiationDirections := D }
  else .ok d

/-- The five assignments that `readData` and `revertBackToFullData` share
(surrogate_model_data.cpp 158-164, 189-195). -/
def assignAll (d : SMData K) : SMData K × Res Unit :=
  andThen (commit d d.assignSampleInputMatrix) fun d =>
  andThen (commit d d.assignSampleOutputVector) fun d =>
  andThen (commit d d.assignGradientMatrix) fun d =>
  andThen (commit d d.assignDirectionalDerivativesVector) fun d =>
  commit d d.assignDifferentiationDirectionMatrix

section read
variable [FloorRing K]

/-- The split of `readData` (surrogate_model_data.cpp 130-141).  `rawDataValidation` is extended,
not replaced. -/
def split (d : SMData K) (perm : List Nat) : SMData K × Res Unit :=
  if d.ratio > 0 then
    let idx := validationIndices d.rawData.nrows d.ratio perm
    let d := { d with numberOfSamples := d.rawData.nrows }
    andThen (commit d (foldRes (fun (d : SMData K) (i : Nat) => do
      let row ← Mat.getRow d.rawData (i : Nat)
      let V ← Mat.addRow d.rawDataValidation row (-1)
      .ok { d with rawDataValidation := V }) d idx)) fun d =>
    let d := { d with numberOfValidationSamples := idx.length }
    commit d (do
      let W ← Mat.deleteRows d.rawDataWork (idx.map Int.ofNat)
      .ok { d with rawDataWork := W })
  else (d, .ok ())

/-- `SurrogateModelData::readData` (surrogate_model_data.cpp 114-170) with a nonempty file name. -/
def readData (d : SMData K) (file : Option Str) (perm : List Nat) : SMData K × Res Unit :=
  if d.hasDirectional = true ∧ d.hasGradients = true then (d, .error .abort)
  else
    match Mat.readFromCSV file false with
    | .error e => (d, .error e)
    | .ok A =>
      andThen (split { d with rawData := A, rawDataWork := A } perm) fun d =>
      let d := { d with numberOfSamples := d.rawDataWork.nrows }
      andThen (commit d d.assignDimensionFromData) fun d =>
      andThen d.assignAll fun d =>
      ({ d with isRead := true }, .ok ())

end read

/-- `vec::has_zeros` on the difference of the bounds (surrogate_model_data.cpp 404-410, 429-434). -/
def zeroRange (b : Bounds K) : Res Bool := do
  let dx ← Vec.sub b.ub b.lb
  .ok (dx.any fun x => decide (x = 0))

/-- The validation part of `normalizeSampleInputMatrix` (surrogate_model_data.cpp 414-417). -/
def normalizeValidation (d : SMData K) : Res (SMData K) :=
  if d.numberOfValidationSamples > 0 then do
    let V ← Mat.normalizeMatrix d.XValidation d.box.lb d.box.ub
    .ok { d with XValidation := V }
  else .ok d

/-- `normalizeSampleInputMatrix` (surrogate_model_data.cpp 387-420): the checks and the training
part, then the validation part. -/
def normalizeSampleInputMatrix (d : SMData K) : SMData K × Res Unit :=
  if d.X.nrows ≠ d.numberOfSamples then (d, .error .runtimeError)
  else if d.X.ncols ≠ d.dimension then (d, .error .runtimeError)
  else if d.box.dim ≠ d.dimension then (d, .error .runtimeError)
  else if d.box.isSet = false then (d, .error .runtimeError)
  else
    andThen (commit d (do
      let z ← zeroRange d.box
      if z then .error .runtimeError
      else do
        let X ← Mat.normalizeMatrix d.X d.box.lb d.box.ub
        .ok { d with X := X })) fun d =>
    andThen (commit d d.normalizeValidation) fun d =>
    ({ d with isNormalized := true }, .ok ())

/-- `(ub(i) - lb(i))*dimension` with its assertion (surrogate_model_data.cpp 450-451, 473-474). -/
def scalingFactor (d : SMData K) (i : Nat) : Res K := do
  let u ← vat d.box.ub i
  let l ← vat d.box.lb i
  if (u - l) * (d.dimension : K) > 0 then .ok ((u - l) * (d.dimension : K)) else .error .abort

/-- `normalizeDerivativesMatrix` (surrogate_model_data.cpp 440-456). -/
def normalizeDerivativesMatrix (d : SMData K) : Res (SMData K) :=
  if d.hasDirectional then
    if d.isRead = false ∨ d.box.isSet = false then .error .abort
    else do
      let f ← d.scalingFactor 0
      .ok { d with directionalDerivatives := d.directionalDerivatives.map fun x => x * f }
  else .ok d

/-- `normalizeGradientMatrix` (surrogate_model_data.cpp 459-481). -/
def normalizeGradientMatrix (d : SMData K) : Res (SMData K) :=
  if d.isRead = false ∨ d.box.isSet = false ∨ d.dimension = 0 ∨ d.gradient.ncols ≠ d.dimension then
    .error .abort
  else do
    let G ← forRange d.dimension (fun i G => do
      let f ← d.scalingFactor i
      let c ← Mat.getCol G (i : Nat)
      Mat.setCol G (c.map fun x => x * f) i) d.gradient
    .ok { d with gradientRaw := d.gradient, gradient := G }

/-- `if (ifDataHasGradients) normalizeGradientMatrix()` (surrogate_model_data.cpp 379-381). -/
def normalizeGradientsIfAny (d : SMData K) : Res (SMData K) :=
  if d.hasGradients then d.normalizeGradientMatrix else .ok d

/-- `SurrogateModelData::normalize` (surrogate_model_data.cpp 370-384). -/
def normalize (d : SMData K) : SMData K × Res Unit :=
  if d.isRead = false ∨ d.box.isSet = false then (d, .error .abort)
  else
    andThen d.normalizeSampleInputMatrix fun d =>
    andThen (commit d d.normalizeDerivativesMatrix) fun d =>
    andThen (commit d d.normalizeGradientsIfAny) fun d =>
    ({ d with isNormalized := true }, .ok ())

/-- `SurrogateModelData::revertBackToFullData` (surrogate_model_data.cpp 173-199). -/
def revertBackToFullData (d : SMData K) : SMData K × Res Unit :=
  let d := { d with
    numberOfValidationSamples := 0
    rawDataWork := d.rawData
    numberOfSamples := d.rawData.nrows
    yValidation := []
    XValidation := .empty
    XrawValidation := .empty }
  andThen d.assignAll normalize

/-- `SurrogateModelData::setBoxConstraints` (surrogate_model_data.cpp 618-624). -/
def setBoxConstraints (d : SMData K) (b : Bounds K) : Res (SMData K) :=
  if b.isSet = false then .error .abort else .ok { d with box := b }

/-- `SurrogateModelData::setOutputVector` (surrogate_model_data.cpp 582-588). -/
def setOutputVector (d : SMData K) (y : List K) : Res (SMData K) :=
  if y.length ≠ d.numberOfSamples then .error .abort else .ok { d with y := y }

/-- `SurrogateModelData::readDataTest` (surrogate_model_data.cpp 202-239) with a nonempty file name.
When it throws, the object already holds the new raw test data; this is not visible outside. -/
def readDataTest [FloorRing K] (d : SMData K) (file : Option Str) : Res (SMData K) :=
  if d.dimension = 0 then .error .runtimeError
  else do
    let T ← Mat.readFromCSV file false
    let d := { d with XrawTest := T, numberOfTestSamples := T.nrows }
    if T.ncols = d.dimension + 1 then do
      let y ← Mat.getCol T (d.dimension : Nat)
      let X ← Mat.submat T 0 (d.numberOfTestSamples - 1) 0 (d.dimension - 1)
      .ok { d with yTest := y, XTest := X, testHasValues := true, isTestRead := true }
    else if T.ncols = d.dimension then .ok { d with XTest := T, isTestRead := true }
    else .error .runtimeError

/-- `SurrogateModelData::normalizeSampleInputMatrixTest` (surrogate_model_data.cpp 423-438). -/
def normalizeTest (d : SMData K) : Res (SMData K) :=
  if d.box.isSet = false then .error .runtimeError
  else do
    let z ← zeroRange d.box
    if z then .error .runtimeError
    else do
      let X ← Mat.normalizeMatrix d.XTest d.box.lb d.box.ub
      .ok { d with XTest := X }

end SMData
end Rodeo
