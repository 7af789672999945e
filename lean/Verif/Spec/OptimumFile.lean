import Verif.Model.OptimumFile
import Verif.Spec.Text

/-! # Specification: what the file of the optimum tells -/

namespace Rodeo.Spec

open Text Driver OptimumFile

variable {K : Type} [Field K] [LinearOrder K] [IsStrictOrderedRing K] [FloorRing K]

/-- `y` is `x` up to half a unit of the sixth decimal, and exactly `x` if `x` has at most six decimals. -/
def SixDecimals (x y : K) : Prop := |y - x| ≤ 5 / 10 ^ 7 ∧ (Decimals 6 x → y = x)

/-- The values the XML functions of the program read from the text are those of the design: the number of
the row, the objective value, the parameters, the constraint values and the feasibility. -/
structure Tells (text : Str) (d : Design K) : Prop where
  id : getInteger text "DesignID".toList = .ok d.id
  value : ∃ y, getDouble text "ObjectiveFunction".toList = .ok y ∧ SixDecimals d.trueValue y
  params : ∃ ys, getDoubles text "DesignParameters".toList = .ok ys ∧
    List.Forall₂ SixDecimals d.params ys
  constraints : ∃ ys, getDoubles text "ConstraintValues".toList = .ok ys ∧
    List.Forall₂ SixDecimals d.constraintTrueValues ys
  feasible : getString text "Feasibility".toList = .ok (if d.feasible then "YES".toList else "NO".toList)

end Rodeo.Spec
