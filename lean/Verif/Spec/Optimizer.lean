import Mathlib.Algebra.Order.Field.Basic
import Mathlib.Algebra.Order.Group.Abs
import Verif.Spec.Box
import Verif.Model.Rounding

/-! # Specification: search windows, grids, candidates -/

namespace Rodeo.Spec

/-- How many of the last outcomes are `b`, without interruption. -/
def streak (b : Bool) (outcomes : List Bool) : Nat :=
  (outcomes.reverse.takeWhile (fun c => c == b)).length

variable {K : Type} [Field K] [LinearOrder K]

/-- `lower ≤ upper` in every coordinate, both inside `[0, 1/dim]`, and the incumbent is between them in
every coordinate in which it is inside `[0, 1/dim]`. -/
def GoodWindow (dim : Nat) (incumbent : List K) (w : List K × List K) : Prop :=
  w.1.length = dim ∧ w.2.length = dim ∧
  ∀ (i : Nat) (l u v : K), w.1[i]? = some l → w.2[i]? = some u → incumbent[i]? = some v →
    l ≤ u ∧ 0 ≤ l ∧ u ≤ 1 / (dim : K) ∧ (0 ≤ v → v ≤ 1 / (dim : K) → l ≤ v ∧ v ≤ u)

/-- `r` is a value `lb + k * dx` (`k = 0, 1, ...`) not above `ub`. -/
def OnGrid (lb ub dx r : K) : Prop := (∃ k : Nat, r = lb + (k : K) * dx) ∧ r ≤ ub

/-- `r` is the grid value closest to `v`, the lowest one on ties. -/
def ClosestOnGrid (lb ub dx v r : K) : Prop :=
  OnGrid lb ub dx r ∧
  ∀ r', OnGrid lb ub dx r' → |v - r| ≤ |v - r'| ∧ (|v - r| = |v - r'| → r ≤ r')

/-- A box of dimension `d` (`lb ≤ ub` where it matters) in which some parameters, each at most once, are
discrete with positive increment. -/
def DiscreteBox (d : Nat) (s : DiscreteSetup K) : Prop :=
  s.lb.length = d ∧ s.ub.length = d ∧ s.increments.length = s.indices.length ∧ s.indices.Nodup ∧
  ∀ (j i : Nat) (dx : K), s.indices[j]? = some i → s.increments[j]? = some dx →
    i < d ∧ 0 < dx ∧ ∀ l u, s.lb[i]? = some l → s.ub[i]? = some u → l ≤ u

/-- Every discrete parameter has less than `2^32` grid values. -/
def FewValues (s : DiscreteSetup K) : Prop :=
  ∀ (j i : Nat) (dx l u : K), s.indices[j]? = some i → s.increments[j]? = some dx →
    s.lb[i]? = some l → s.ub[i]? = some u → (u - l) / dx < 2 ^ 32 - 1

/-- `r` is `x` with every discrete parameter replaced by the closest grid value. -/
def RoundedTo (s : DiscreteSetup K) (x r : List K) : Prop :=
  r.length = x.length ∧
  (∀ (j i : Nat) (dx l u v w : K), s.indices[j]? = some i → s.increments[j]? = some dx →
    s.lb[i]? = some l → s.ub[i]? = some u → x[i]? = some v → r[i]? = some w →
    ClosestOnGrid l u dx v w) ∧
  ∀ i : Nat, i ∉ s.indices → r[i]? = x[i]?

end Rodeo.Spec
