import Verif.Spec.Mat
import Mathlib.Analysis.Calculus.Deriv.Basic

/-! # Derivatives of a function of the design parameters -/

namespace Rodeo.Spec

variable {K : Type} [NontriviallyNormedField K]

/-- `g` lists the partial derivatives of `f` at `x`. -/
def IsGradAt {n : Nat} (f : (Fin n → K) → K) (x g : Fin n → K) : Prop :=
  ∀ j, HasDerivAt (fun t => f (Function.update x j t)) (g j) (x j)

/-- `s` is the derivative of `f` at `x` along the direction `v`. -/
def IsDirDerivAt {n : Nat} (f : (Fin n → K) → K) (x v : Fin n → K) (s : K) : Prop :=
  HasDerivAt (fun t => f (fun j => x j + t * v j)) s 0

/-- The first `n` entries of row `i` of a table, beginning at column `c`. -/
def rowAt (F : Nat → Nat → K) (n i c : Nat) : Fin n → K := fun j => F i (c + j)

/-- The design with normalized coordinates `u`: normalization maps the interval `[lb, ub]` to
`[0, 1/n]` in every coordinate. -/
def physical [LinearOrder K] {n : Nat} (lb ub : List K) (u : Fin n → K) : Fin n → K :=
  fun j => vecFun lb j + (n : K) * u j * (vecFun ub j - vecFun lb j)

end Rodeo.Spec
