import Verif.Lemmas.DataConfig
import Mathlib.Data.Real.Basic
import Mathlib.Logic.Equiv.Defs

/-! # The same training data, stated in another way -/

namespace Rodeo.Spec

/-- Parameter `j` of a point is `p j` in the old units and `s j * p j + t j` in the new ones. -/
def Converted (dim : Nat) (s t p q : Nat → ℝ) : Prop := ∀ j, j < dim → q j = s j * p j + t j

/-- The table `G` with the box `c` holds the data of the table `F` with the box `b`: the rows may be in
another order, the parameters and their bounds may be measured in other units (`s j` for the unit, `t j`
for the origin of parameter `j`), and the value `v` of a row is now `scale * v + shift`. -/
structure Restated (n dim : Nat) (s t : Nat → ℝ) (b : Bounds ℝ) (F : Nat → Nat → ℝ) (c : Bounds ℝ)
    (G : Nat → Nat → ℝ) (scale shift : ℝ) : Prop where
  units : ∀ j, j < dim → 0 < s j
  lower : Converted dim s t (vecFun b.lb) (vecFun c.lb)
  upper : Converted dim s t (vecFun b.ub) (vecFun c.ub)
  rows : ∃ order : Equiv.Perm (Fin n), ∀ i : Fin n, Converted dim s t (F (order i)) (G i) ∧
    G i dim = scale * F (order i) dim + shift

/-- Coordinates of a point relative to the box, divided by their number: what the models are asked
for. -/
noncomputable def relative (b : Bounds ℝ) (dim : Nat) (p : Nat → ℝ) : List ℝ :=
  (List.range dim).map fun j => 1 / (dim : ℝ) * ((p j - vecFun b.lb j) / (vecFun b.ub j - vecFun b.lb j))

end Rodeo.Spec
