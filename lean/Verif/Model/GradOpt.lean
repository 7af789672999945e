import Verif.Model.Vec

/-! # Model of `InternalOptimizers/gradient_optimizer.cpp`

The user's functions return for every input.  Assertions are active.  `vec` operations whose loops
only visit `i < size` are written as list operations. -/

namespace Rodeo

variable {K : Type} [Field K] [LinearOrder K] [IsStrictOrderedRing K]

namespace Vec

/-- `vec::operator*(double)` (vector.cpp 200-207). -/
def scale (v : List K) (a : K) : List K := v.map (fun x => x * a)

/-- The sum of squares under the root in `vec::norm(L2)` (vector.cpp 604-613). -/
def sumSq (v : List K) : K := v.foldl (fun r a => r + a * a) 0

end Vec

/-- `FLT_MAX`. -/
def fltMax : K := 2 ^ 128 - 2 ^ 104

/-- `designPoint` (gradient_optimizer.hpp 18-23).  `normSq` is the square of `L2NormGradient`. -/
structure GPoint (K : Type) where
  x : List K
  gradient : List K
  obj : K
  normSq : K

/-- A default constructed `designPoint`. -/
def GPoint.new : GPoint K := ⟨[], [], 0, 0⟩

/-- `finiteDifferenceMethod` together with `areFiniteDifferenceApproximationsToBeUsed`
(gradient_optimizer.hpp 32, 37; the setter gradient_optimizer.cpp 83-90 admits only these values). -/
inductive FDMethod where
  | off
  | central
  | forward
  deriving DecidableEq

/-- The user's functions and the number of rounds after which the model gives up on a loop. -/
structure GEnv (K : Type) where
  /-- objective -/
  f : List K → K
  /-- gradient, if set: entry `i` -/
  g : Option (List K → Nat → K)

/-- `GradientOptimizer` (gradient_optimizer.hpp 27-60) and its base class.  `accepted` is a ghost log of
the points accepted by line searches. -/
structure GradOpt (K : Type) where
  dim : Nat
  boundsSet : Bool
  initialSet : Bool
  fd : FDMethod
  current : GPoint K
  next : GPoint K
  tol : K
  eps : K
  maxStep : K
  maxLineSearch : Nat
  optimum : K
  maxEvals : Nat
  evals : Nat
  accepted : List (List K)

/-- A new optimizer (gradient_optimizer.hpp defaults; `10E-6` is `1e-5`). -/
def GradOpt.new : GradOpt K where
  dim := 0
  boundsSet := false
  initialSet := false
  fd := .off
  current := .new
  next := .new
  tol := 1 / 10 ^ 5
  eps := 1 / 10 ^ 3
  maxStep := 0
  maxLineSearch := 10
  optimum := fltMax
  maxEvals := 0
  evals := 0
  accepted := []

namespace GradOpt

/-- `setInitialPoint` (gradient_optimizer.cpp 38-45). -/
def setInitialPoint (o : GradOpt K) (x : List K) : Res (GradOpt K) :=
  if x.length ≠ o.dim then .error .abort
  else .ok { o with current := { o.current with x := x }, initialSet := true }

/-- `checkIfOptimizationSettingsAreOk` (gradient_optimizer.cpp 92-100). -/
def checkSettings (o : GradOpt K) : Res Unit :=
  if o.dim = 0 ∨ o.initialSet = false ∨ o.maxEvals = 0 ∨ o.boundsSet = false then .error .abort
  else .ok ()

/-- `evaluateObjectiveFunction` (gradient_optimizer.cpp 186-205); the counter and the point. -/
def evalObj (E : GEnv K) (n : Nat) (p : GPoint K) : Nat × GPoint K :=
  (n + 1, { p with obj := E.f p.x })

/-- State of the finite difference loops: counter, point and the gradient entries found so far. -/
structure FDState (K : Type) where
  evals : Nat
  point : GPoint K
  grad : List K

/-- Body of the loop in `calculateCentralFiniteDifferences` (gradient_optimizer.cpp 130-141). -/
def centralBody (E : GEnv K) (eps : K) (i : Nat) (s : FDState K) : Res (FDState K) := do
  let save ← vat s.point.x i
  let h := eps * save
  let p := { s.point with x := s.point.x.set i (save + h) }
  let r := evalObj E s.evals p
  let fplus := r.2.obj
  let p := { r.2 with x := r.2.x.set i (save + h - 2 * h) }
  let r := evalObj E r.1 p
  let fminus := r.2.obj
  let p := { r.2 with x := r.2.x.set i save }
  let q ← fdiv (fplus - fminus) (2 * h)
  .ok ⟨r.1, p, s.grad ++ [q]⟩

/-- `calculateCentralFiniteDifferences` (gradient_optimizer.cpp 126-144). -/
def central (E : GEnv K) (dim : Nat) (eps : K) (n : Nat) (p : GPoint K) : Res (FDState K) :=
  forRange dim (centralBody E eps) ⟨n, p, []⟩

/-- Body of the loop in `calculateForwardFiniteDifferences` (gradient_optimizer.cpp 152-160). -/
def forwardBody (E : GEnv K) (eps f0 : K) (i : Nat) (s : FDState K) : Res (FDState K) := do
  let save ← vat s.point.x i
  let h := eps * save
  let p := { s.point with x := s.point.x.set i (save + h) }
  let r := evalObj E s.evals p
  let fplus := r.2.obj
  let p := { r.2 with x := r.2.x.set i save }
  let q ← fdiv (fplus - f0) h
  .ok ⟨r.1, p, s.grad ++ [q]⟩

/-- `calculateForwardFiniteDifferences` (gradient_optimizer.cpp 146-162). -/
def forward (E : GEnv K) (dim : Nat) (eps : K) (n : Nat) (p : GPoint K) : Res (FDState K) :=
  let r := evalObj E n p
  forRange dim (forwardBody E eps r.2.obj) ⟨r.1, r.2, []⟩

/-- The three ways of getting a gradient in `evaluateGradientFunction` (gradient_optimizer.cpp 208-231)
with `approximateGradientUsingFiniteDifferences` (164-183).  The result of the forward differences is
not stored in the point. -/
def gradientInto (E : GEnv K) (o : GradOpt K) (p : GPoint K) : Res (Nat × GPoint K) :=
  match o.fd with
  | .central =>
    if o.dim = 0 then .error .abort
    else do
      let s ← central E o.dim o.eps o.evals p
      .ok (s.evals, { s.point with gradient := s.grad })
  | .forward =>
    if o.dim = 0 then .error .abort
    else do
      let s ← forward E o.dim o.eps o.evals p
      .ok (s.evals, s.point)
  | .off =>
    match E.g with
    | some g => .ok (o.evals, { p with gradient := (List.range o.dim).map (g p.x) })
    | none => .error .abort

/-- `evaluateGradientFunction` (gradient_optimizer.cpp 208-235): the counter and the point. -/
def evalGrad (E : GEnv K) (o : GradOpt K) (p : GPoint K) : Res (Nat × GPoint K) := do
  let r ← gradientInto E o p
  .ok (r.1, { r.2 with normSq := Vec.sumSq r.2.gradient })

/-- The loop of `performBacktrackingLineSearch` (gradient_optimizer.cpp 253-276) from step size
`step`, run for at most `fuel` rounds: the counter and the next iterate. -/
def backtrack (E : GEnv K) (cur : GPoint K) : Nat → Nat → GPoint K → K → Res (Nat × GPoint K)
  | 0, _, _, _ => .error .outOfFuel
  | fuel + 1, n, next, step => do
    let x ← Vec.sub cur.x (Vec.scale cur.gradient step)
    let r := evalObj E n { next with x := x }
    if r.2.obj < cur.obj then .ok r
    else backtrack E cur fuel r.1 r.2 (step * (1 / 2))

/-- `performBacktrackingLineSearch` (gradient_optimizer.cpp 246-286). -/
def lineSearch (E : GEnv K) (fuel : Nat) (o : GradOpt K) : Res (GradOpt K) :=
  if o.maxStep ≤ 0 then .error .abort
  else do
    let r ← backtrack E o.current fuel o.evals o.next o.maxStep
    let c ← evalGrad E { o with evals := r.1 } r.2
    .ok { o with
      evals := c.1, next := r.2, current := c.2, optimum := c.2.obj
      accepted := o.accepted ++ [r.2.x] }

/-- The loop of `optimize` (gradient_optimizer.cpp 317-335), run for at most `rounds` rounds.
`L2NormGradient < tolerance` is tested on squares. -/
def loop (E : GEnv K) (fuel : Nat) : Nat → GradOpt K → Res (GradOpt K)
  | 0, _ => .error .outOfFuel
  | rounds + 1, o =>
    if 0 < o.tol ∧ o.current.normSq < o.tol ^ 2 then .ok o
    else do
      let o1 ← lineSearch E fuel o
      if o1.evals ≥ o1.maxEvals then .ok o1 else loop E fuel rounds o1

/-- `optimize` (gradient_optimizer.cpp 307-343). -/
def optimize (E : GEnv K) (fuel rounds : Nat) (o : GradOpt K) : Res (GradOpt K) := do
  checkSettings o
  let r := evalObj E o.evals o.current
  let c ← evalGrad E { o with evals := r.1 } r.2
  loop E fuel rounds { o with evals := c.1, current := c.2 }

end GradOpt
end Rodeo
