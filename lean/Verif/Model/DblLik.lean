import Verif.Model.DblVar
import Verif.Model.EAPop

/-! # The likelihood of a Kriging model in double arithmetic (`SurrogateModels/kriging_training.cpp`,
`LinearAlgebra/linear_solver.cpp`)

As in `Model/DblCorr`: every operation rounded, the paths without OpenBLAS, no linear part.  `log` is the
function of the C library on positive doubles: a parameter.  The logarithm of a number that is not positive
is not finite. -/

namespace Rodeo.Dbl

variable {K : Type} [Field K] [LinearOrder K] [IsStrictOrderedRing K] [FloorRing K]

/-- `CholeskySystem::calculateLogDeterminant` (linear_solver.cpp 83-98). -/
def logDeterminant (log : K → K) (A : Mat K) (dimension : Nat) : Res K := do
  let d ← Mat.diag A
  let sum ← sumFrom 0 dimension fun i => do
    let v ← vat d i
    if v ≤ 0 then .error .nonFinite else .ok (log v)
  mul 2 sum

/-- The value returned by `KrigingModel::calculateLikelihoodFunction` (kriging_training.cpp 661-685) for the
fields that `updateAuxilliaryFields` has computed: `none` is a factorization that is not done. -/
def likelihoodOf (log : K → K) (n : Nat) (o : Option (Updated K)) : Res K :=
  match o with
  | none => .ok (-dblMax)
  | some u => do
    let logdet ← logDeterminant log u.factor n
    let half ← div (n : K) 2
    if u.fit.sigmaSquared > 0 then do
      let v ← mul (-half) (log u.fit.sigmaSquared)
      let w ← mul (1 / 2) logdet
      sub v w
    else .ok (-dblMax)

/-- `KrigingModel::calculateLikelihoodFunction` (kriging_training.cpp 649-685) for a model with data, once
the hyperparameters are set. -/
def likelihood (sqrt : K → K) (L : Libm K) (log : K → K) (s : Corr.ExpCorr K) (average : Bool) (y : List K) :
    Res K := do
  let u ← update sqrt L s average y
  likelihoodOf log y.length u

/-- The objective of the training, `-1.0 * calculateLikelihoodFunction` (kriging_training.cpp 846-858). -/
def likelihoodScore (sqrt : K → K) (L : Libm K) (log : K → K) (s : Corr.ExpCorr K) (average : Bool)
    (y : List K) : Res K := do
  let v ← likelihood sqrt L log s average y
  mul (-1) v

end Rodeo.Dbl
