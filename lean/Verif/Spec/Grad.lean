import Verif.Basic
import Mathlib.Data.List.Basic

/-! # Descent steps and difference quotients -/

namespace Rodeo.Spec

variable {K : Type} [Field K] [LinearOrder K] [IsStrictOrderedRing K]

/-- The point `x - t * g`. -/
def stepPoint (x g : List K) (t : K) : List K := List.zipWith (fun a b => a - b * t) x g

/-- The point `x` with coordinate `i` shifted by `h`. -/
def bump (x : List K) (i : Nat) (h : K) : List K := x.modify i (fun a => a + h)

/-- Central difference quotient of `f` at `x` in direction `i` with step `h`. -/
def centralQuotient (f : List K → K) (x : List K) (i : Nat) (h : K) : K :=
  (f (bump x i h) - f (bump x i (-h))) / (2 * h)

/-- Forward difference quotient of `f` at `x` in direction `i` with step `h`. -/
def forwardQuotient (f : List K → K) (x : List K) (i : Nat) (h : K) : K :=
  (f (bump x i h) - f x) / h

end Rodeo.Spec
