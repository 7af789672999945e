import Verif.Model.DblLU
import Verif.Model.DblLin
import Verif.Model.DblCorr
import Verif.Model.Linear

/-! # The linear regression model in double arithmetic (`SurrogateModels/linear_regression.cpp`)

The functions of `Model/Linear` with every operation rounded; the matrix with a column of ones and its transpose
are copies.  Only the paths without OpenBLAS. -/

namespace Rodeo.Dbl

variable {K : Type} [Field K] [LinearOrder K] [IsStrictOrderedRing K] [FloorRing K]

/-- `mat::matMatProduct` (matrix.cpp 1240-1254) with `matMatProductNaive` (1257-1272). -/
def matMatProduct (A B : Mat K) : Res (Mat K) :=
  if A.ncols ≠ B.nrows then .error .invalidArgument
  else do
    let d ← forRange A.nrows (fun i d =>
      forRange B.ncols (fun j d => do
        let s ← sumFrom 0 A.ncols fun k => do
          let a ← rawAt A.buf (k * A.nrows + i)
          let b ← rawAt B.buf (j * B.nrows + k)
          mul a b
        Mem.wr d (j * A.nrows + i) s) d) (Mem.zeros (A.nrows * B.ncols))
    let l ← Mem.freeze d
    .ok ⟨A.nrows, B.ncols, l⟩

/-- The weights computed by `train` (linear_regression.cpp 123-148). -/
def ridgeWeights (m : LinearModel K) : Res (List K) := do
  let A ← LinearModel.augmented m.data.X m.numberOfSamples m.dimension
  let XT ← A.transpose
  let XTX ← matMatProduct XT A
  match m.regularization with
  | none => .error .ub
  | some lambda => do
    let M ← addEpsilonToDiagonal XTX lambda
    let inv ← invert M
    let XTy ← matVecProduct XT m.data.y
    matVecProduct inv XTy

/-- `LinearModel::train` (linear_regression.cpp 102-162); after an exception the object is as before. -/
def linearTrain (m : LinearModel K) : Res (LinearModel K) :=
  if m.isNormalized = false then .error .runtimeError
  else if m.isRead = false then .error .runtimeError
  else if m.dimension = 0 then .error .invalidArgument
  else if m.numberOfSamples = 0 then .error .invalidArgument
  else do
    let w ← ridgeWeights m
    .ok { m with weights := w, isTrained := true }

/-- `LinearModel::interpolate` (linear_regression.cpp 164-175). -/
def linearInterpolate (m : LinearModel K) (x : List K) : Res K := do
  let w0 ← vat m.weights 0
  forRange m.dimension (fun i f => do
    let a ← vat x i
    let w ← vat m.weights (i + 1)
    let t ← mul a w
    add f t) w0

end Rodeo.Dbl
