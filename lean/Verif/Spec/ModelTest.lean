import Verif.Model.ModelTest
import Verif.Spec.Mat

/-! # What testing a model on data means -/

namespace Rodeo.Spec

open Finset Text

variable {K : Type} [Field K] [LinearOrder K] [IsStrictOrderedRing K]

/-- A table of `n` rows: of `dim` parameters and, if `values`, of the true value. -/
def tableColumns (values : Bool) (dim : Nat) : Nat := if values then dim + 1 else dim

/-- Row `i` of a report on the table `F`, with the estimates `f` and the variances `v`: the parameters,
the estimate, if there are true values the true value and the squared error, and, if asked for, the
variance. -/
def reportRow (values variances : Bool) (dim : Nat) (F : Nat → Nat → K) (f v : Nat → K) (i : Nat) :
    List K :=
  (List.range dim).map (F i) ++ [f i] ++
    (if values then [F i dim, (F i dim - f i) ^ 2] else []) ++ if variances then [v i] else []

/-- The mean squared error of the estimates `f` of the `n` values `y`. -/
def meanSquare (n : Nat) (y f : Nat → K) : K := (∑ i ∈ range n, (y i - f i) ^ 2) / (n : K)

/-- The names of the columns of a report. -/
def reportNames (values variances : Bool) (dim : Nat) : List Str :=
  (List.range dim).map (fun i => 'x' :: natStr (i + 1)) ++ ["Estimated value".toList] ++
    (if values then ["True value".toList, "Squared Error".toList] else []) ++
    if variances then ["Variance".toList] else []

/-- The number of the rows of the table `F` for which the first `dim` entries are within the bounds. -/
def countInside (n dim : Nat) (F : Nat → Nat → K) (lb ub : List K) : Nat :=
  ((List.range n).filter fun i => decide (∀ j, j < dim → vecFun lb j ≤ F i j ∧ F i j ≤ vecFun ub j)).length

end Rodeo.Spec
