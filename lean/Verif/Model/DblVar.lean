import Verif.Model.DblCorr

/-! # The variance of a Kriging model in double arithmetic (`SurrogateModels/kriging_training.cpp`,
`ObjectiveFunctions/objective_function.cpp`)

As in `Model/DblCorr`: every operation rounded, the paths without OpenBLAS, no linear part. -/

namespace Rodeo.Dbl

variable {K : Type} [Field K] [LinearOrder K] [IsStrictOrderedRing K] [FloorRing K]

/-- The members that `interpolateWithVariance` reads: the factor of the correlation matrix
(`linearSystemCorrelationMatrix`), `R_inv_I` and those of `Fit`. -/
structure Updated (K : Type) where
  factor : Mat K
  fit : Fit K
  onesSolution : List K

/-- `KrigingModel::updateAuxilliaryFields` (kriging_training.cpp 217-256) with all members; see `fit`
for what is computed from the outputs. -/
def update (sqrt : K → K) (L : Libm K) (s : Corr.ExpCorr K) (average : Bool) (y : List K) :
    Res (Option (Updated K)) := do
  let f ← fit sqrt L s average y
  match f with
  | none => .ok none
  | some f => do
    let R ← correlationMatrix L s
    let r ← cholesky sqrt R
    let b ← solveCholesky r.1 (List.replicate y.length 1)
    .ok (some ⟨r.1, f, b⟩)

/-- The variance in `KrigingModel::interpolateWithVariance` (kriging_training.cpp 575-603). -/
def variance (L : Libm K) (s : Corr.ExpCorr K) (u : Updated K) (x : List K) : Res K := do
  let r ← correlationVector L s x
  let z ← solveCholesky u.factor r
  let rr ← dot r z
  let r1 ← dot r u.onesSolution
  let oo ← dot (List.replicate u.onesSolution.length 1) u.onesSolution
  let a ← sub r1 1
  let p ← L.pow a 2
  let q ← div p oo
  let c ← sub 1 rr
  let c' ← sub rr 1
  let t ← add (if |c'| < fl (1 / 10 ^ 9) then 0 else c) (if |a| < fl (1 / 10 ^ 9) then 0 else q)
  mul u.fit.sigmaSquared t

/-- `KrigingModel::interpolateWithVariance` (kriging_training.cpp 569-605) and the root in
`ObjectiveFunction::interpolateWithVariance` (objective_function.cpp 861-872): the estimate and the
standard deviation.  The root of a negative number is not a number. -/
def predict (sqrt : K → K) (L : Libm K) (s : Corr.ExpCorr K) (u : Updated K) (x : List K) : Res (K × K) := do
  let p ← estimate L s u.fit x
  let v ← variance L s u x
  if v < 0 then .error .nonFinite
  else do
    let d ← dbl (sqrt v)
    .ok (p, d)

end Rodeo.Dbl
