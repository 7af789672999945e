import Verif.Model.History
import Verif.Model.CSV

/-! # Model of the gradient of the global optimum (`Optimizers/globalOptimalDesign.cpp`) -/

namespace Rodeo.GlobalDesign

open Text

variable {K : Type} [Field K] [LinearOrder K] [IsStrictOrderedRing K] [FloorRing K]

/-- `GlobalOptimalDesign::setGradientGlobalOptimumFromTrainingData` (globalOptimalDesign.cpp 111-163);
`file` is the content of the file with this name.  `dimension * 2` does not wrap around for dimensions
below `2 ^ 31`. -/
def setGradient (g : GlobalDesign K) (name : Str) (file : Option Str) : Res (GlobalDesign K) :=
  if name = [] then .error .invalidArgument
  else if g.design.dimension = 0 then .error .logicError
  else if g.design.params.length = 0 then .error .logicError
  else do
    let A ← Mat.readFromCSV file false
    if A.nrows = 0 ∨ A.ncols < g.design.dimension then .error .runtimeError
    else do
      let inputs ← A.submat 0 (A.nrows - 1) 0 (g.design.dimension - 1)
      let i ← inputs.findRowIndex g.design.params (1 / 10 ^ 5)
      if i = -1 then .error .runtimeError
      else do
        let row ← A.getRow i
        if row.length < g.design.dimension * 2 then .error .runtimeError
        else do
          let gradient ← Vec.tail row g.design.dimension
          .ok { g with design := { g.design with gradient := gradient } }

end Rodeo.GlobalDesign
