import Verif.Model.GradOpt
import Verif.Model.DblLin

/-! # The gradient optimizer in double arithmetic (`InternalOptimizers/gradient_optimizer.cpp`)

The functions of `Model/GradOpt` with every operation rounded.  The values of the user's functions are
doubles; a run in which an operation overflows ends with `Err.nonFinite`. -/

namespace Rodeo.Dbl

variable {K : Type} [Field K] [LinearOrder K] [IsStrictOrderedRing K] [FloorRing K]

/-- Body of the loop in `calculateCentralFiniteDifferences` (gradient_optimizer.cpp 130-141). -/
def centralBody (E : GEnv K) (step : K) (i : Nat) (s : GradOpt.FDState K) : Res (GradOpt.FDState K) := do
  let save ← vat s.point.x i
  let h ← mul step save
  let a ← add save h
  let r := GradOpt.evalObj E s.evals { s.point with x := s.point.x.set i a }
  let fplus := r.2.obj
  let hh ← mul 2 h
  let b ← sub a hh
  let r := GradOpt.evalObj E r.1 { r.2 with x := r.2.x.set i b }
  let fminus := r.2.obj
  let d ← sub fplus fminus
  let q ← div d hh
  .ok ⟨r.1, { r.2 with x := r.2.x.set i save }, s.grad ++ [q]⟩

/-- `calculateCentralFiniteDifferences` (gradient_optimizer.cpp 126-144). -/
def central (E : GEnv K) (dim : Nat) (step : K) (n : Nat) (p : GPoint K) : Res (GradOpt.FDState K) :=
  forRange dim (centralBody E step) ⟨n, p, []⟩

/-- Body of the loop in `calculateForwardFiniteDifferences` (gradient_optimizer.cpp 152-160). -/
def forwardBody (E : GEnv K) (step f0 : K) (i : Nat) (s : GradOpt.FDState K) : Res (GradOpt.FDState K) := do
  let save ← vat s.point.x i
  let h ← mul step save
  let a ← add save h
  let r := GradOpt.evalObj E s.evals { s.point with x := s.point.x.set i a }
  let d ← sub r.2.obj f0
  let q ← div d h
  .ok ⟨r.1, { r.2 with x := r.2.x.set i save }, s.grad ++ [q]⟩

/-- `calculateForwardFiniteDifferences` (gradient_optimizer.cpp 146-162). -/
def forward (E : GEnv K) (dim : Nat) (step : K) (n : Nat) (p : GPoint K) : Res (GradOpt.FDState K) :=
  let r := GradOpt.evalObj E n p
  forRange dim (forwardBody E step r.2.obj) ⟨r.1, r.2, []⟩

/-- `evaluateGradientFunction` up to the norm (gradient_optimizer.cpp 208-231) with
`approximateGradientUsingFiniteDifferences` (164-183). -/
def gradientInto (E : GEnv K) (o : GradOpt K) (p : GPoint K) : Res (Nat × GPoint K) :=
  match o.fd with
  | .central =>
    if o.dim = 0 then .error .abort
    else do
      let s ← central E o.dim o.eps o.evals p
      .ok (s.evals, { s.point with gradient := s.grad })
  | .forward =>
    if o.dim = 0 then .error .abort
    else do
      let s ← forward E o.dim o.eps o.evals p
      .ok (s.evals, s.point)
  | .off =>
    match E.g with
    | some g => .ok (o.evals, { p with gradient := (List.range o.dim).map (g p.x) })
    | none => .error .abort

/-- The sum under the root in `vec::norm(L2)` (vector.cpp 607-611). -/
def sumSq (v : List K) : Res K :=
  sumFrom 0 v.length fun i => do
    let a ← rawAt v i
    mul a a

/-- `evaluateGradientFunction` (gradient_optimizer.cpp 208-235): the counter and the point. -/
def evalGrad (E : GEnv K) (o : GradOpt K) (p : GPoint K) : Res (Nat × GPoint K) := do
  let r ← gradientInto E o p
  let s ← sumSq r.2.gradient
  .ok (r.1, { r.2 with normSq := s })

/-- `currentIterate.x - currentIterate.gradient*stepSize` (gradient_optimizer.cpp 256-258; vector.cpp
145-155, 200-207). -/
def moved (x g : List K) (step : K) : Res (List K) :=
  if x.length ≠ g.length then .error .invalidArgument
  else tab x.length fun i => do
    let a ← rawAt x i
    let b ← rawAt g i
    let d ← mul b step
    sub a d

/-- The loop of `performBacktrackingLineSearch` (gradient_optimizer.cpp 253-276), at most `fuel` rounds. -/
def backtrack (E : GEnv K) (cur : GPoint K) : Nat → Nat → GPoint K → K → Res (Nat × GPoint K)
  | 0, _, _, _ => .error .outOfFuel
  | fuel + 1, n, next, step => do
    let x ← moved cur.x cur.gradient step
    let r := GradOpt.evalObj E n { next with x := x }
    if r.2.obj < cur.obj then .ok r
    else do
      let half ← mul step (1 / 2)
      backtrack E cur fuel r.1 r.2 half

/-- `performBacktrackingLineSearch` (gradient_optimizer.cpp 246-286). -/
def lineSearch (E : GEnv K) (fuel : Nat) (o : GradOpt K) : Res (GradOpt K) :=
  if o.maxStep ≤ 0 then .error .abort
  else do
    let r ← backtrack E o.current fuel o.evals o.next o.maxStep
    let c ← evalGrad E { o with evals := r.1 } r.2
    .ok { o with
      evals := c.1, next := r.2, current := c.2, optimum := c.2.obj
      accepted := o.accepted ++ [r.2.x] }

/-- The loop of `optimize` (gradient_optimizer.cpp 317-335), at most `rounds` rounds.  The root in
`L2NormGradient` (234; vector.cpp 611) is taken at the test; `sqrt` is the exact root. -/
def gradLoop (sqrt : K → K) (E : GEnv K) (fuel : Nat) : Nat → GradOpt K → Res (GradOpt K)
  | 0, _ => .error .outOfFuel
  | rounds + 1, o => do
    let norm ← dbl (sqrt o.current.normSq)
    if norm < o.tol then .ok o
    else do
      let o1 ← lineSearch E fuel o
      if o1.evals ≥ o1.maxEvals then .ok o1 else gradLoop sqrt E fuel rounds o1

/-- `optimize` (gradient_optimizer.cpp 307-343). -/
def gradOptimize (sqrt : K → K) (E : GEnv K) (fuel rounds : Nat) (o : GradOpt K) : Res (GradOpt K) := do
  GradOpt.checkSettings o
  let r := GradOpt.evalObj E o.evals o.current
  let c ← evalGrad E { o with evals := r.1 } r.2
  gradLoop sqrt E fuel rounds { o with evals := c.1, current := c.2 }

end Rodeo.Dbl
