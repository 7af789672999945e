import Verif.Model.Vec

/-! # Model of `Bounds/bounds.cpp` and of the bound setters of
`InternalOptimizers/general_purpose_optimizer.cpp` -/

namespace Rodeo

variable {K : Type} [Field K] [LinearOrder K] [IsStrictOrderedRing K]

/-- The data members of class `Bounds` (Bounds/INCLUDE/bounds.hpp). -/
structure Bounds (K : Type) where
  lb : List K
  ub : List K
  dim : Nat
  isSet : Bool
  deriving DecidableEq, Repr

namespace Bounds

/-- `Bounds::Bounds()` (bounds.cpp 8). -/
def mk0 : Bounds K := ⟨[], [], 0, false⟩

/-- `Bounds::Bounds(unsigned int)` (bounds.cpp 10-12). -/
def mkDim (d : Nat) : Bounds K := ⟨[], [], d, false⟩

/-- `Bounds::checkBounds` (bounds.cpp 158-170). -/
def checkBounds (b : Bounds K) : Res Bool :=
  if b.dim = 0 then .error .invalidArgument
  else noneOf b.dim fun i =>
    match vat b.lb i, vat b.ub i with
    | .ok l, .ok u => .ok (decide (l ≥ u))
    | .error e, _ => .error e
    | _, .error e => .error e

/-- The common end of the checked setters: `if(!checkBounds()) throw e; ifBoundsAreSet = true;`
(e.g. bounds.cpp 100-104).  The object already holds the new vectors when the check throws. -/
def finish (b : Bounds K) (e : Err) : Bounds K × Res Unit :=
  match b.checkBounds with
  | .error e' => (b, .error e')
  | .ok false => (b, .error e)
  | .ok true => ({ b with isSet := true }, .ok ())

/-- `Bounds::Bounds(std::vector, std::vector)` (bounds.cpp 14-35). -/
def mkStd (lb ub : List K) : Res (Bounds K) :=
  if lb.length ≠ ub.length then .error .invalidArgument
  else
    match finish ⟨lb, ub, lb.length, false⟩ .invalidArgument with
    | (b, .ok ()) => .ok b
    | (_, .error e) => .error e

/-- `Bounds::Bounds(vec, vec)` (bounds.cpp 38-49). -/
def mkVec (lb ub : List K) : Res (Bounds K) :=
  match finish ⟨lb, ub, lb.length, false⟩ .runtimeError with
  | (b, .ok ()) => .ok b
  | (_, .error e) => .error e

/-- `Bounds::reset` (bounds.cpp 52-59). -/
def reset (_ : Bounds K) : Bounds K := ⟨[], [], 0, false⟩

/-- `Bounds::setDimension` (bounds.cpp 64-66). -/
def setDimension (b : Bounds K) (d : Nat) : Bounds K := { b with dim := d }

/-- `Bounds::setBounds(double, double)` (bounds.cpp 68-85). -/
def setScalar (b : Bounds K) (l u : K) : Bounds K × Res Unit :=
  if l ≥ u then (b, .error .invalidArgument)
  else if b.dim = 0 then (b, .error .invalidArgument)
  else ({ b with lb := List.replicate b.dim l, ub := List.replicate b.dim u, isSet := true }, .ok ())

/-- `Bounds::setBounds(std::vector, std::vector)` (bounds.cpp 87-105).  `ub[i]` is read for all
`i < lb.size()` without a size check: undefined behaviour when `ub` is shorter. -/
def setStd (b : Bounds K) (lb ub : List K) : Bounds K × Res Unit :=
  if ub.length < lb.length then (b, .error .ub)
  else finish ⟨lb, ub.take lb.length, lb.length, b.isSet⟩ .invalidArgument

/-- `Bounds::setBounds(vec, vec)` (bounds.cpp 108-124). -/
def setVec (b : Bounds K) (lb ub : List K) : Bounds K × Res Unit :=
  if lb.length = 0 ∨ ub.length = 0 then (b, .error .invalidArgument)
  else if lb.length ≠ ub.length then (b, .error .invalidArgument)
  else finish ⟨lb, ub, lb.length, b.isSet⟩ .invalidArgument

/-- `Bounds::isPointWithinBounds` (bounds.cpp 172-184). -/
def isPointWithinBounds (b : Bounds K) (x : List K) : Res Bool :=
  if x.length ≠ b.dim then .error .invalidArgument
  else noneOf b.dim fun i =>
    match vat x i, vat b.lb i, vat b.ub i with
    | .ok v, .ok l, .ok u => .ok (decide (v < l ∨ v > u))
    | .error e, _, _ => .error e
    | _, .error e, _ => .error e
    | _, _, .error e => .error e

/-- `Bounds::generateVectorWithinBounds` (bounds.cpp 194-203); `u` are the random draws. -/
def generateVectorWithinBounds (b : Bounds K) (u : Nat → K) : Res (List K) :=
  if b.isSet = false then .error .logicError
  else Vec.fillRandom b.dim b.lb b.ub u

/-- The mutating calls of a `Bounds` object. -/
inductive Op (K : Type) where
  | setDimension (d : Nat)
  | setScalar (l u : K)
  | setStd (lb ub : List K)
  | setVec (lb ub : List K)
  | reset

/-- One call; an exception leaves the object in the returned state. -/
def step (b : Bounds K) : Op K → Bounds K × Res Unit
  | .setDimension d => (b.setDimension d, .ok ())
  | .setScalar l u => b.setScalar l u
  | .setStd l u => b.setStd l u
  | .setVec l u => b.setVec l u
  | .reset => (b.reset, .ok ())

/-- A history of calls, every exception being caught by the caller: final state and outcomes. -/
def run (b : Bounds K) : List (Op K) → Bounds K × List (Res Unit)
  | [] => (b, [])
  | op :: ops =>
    let (b', r) := b.step op
    let (b'', rs) := run b' ops
    (b'', r :: rs)

/-- The objects the four constructors deliver (bounds.cpp 8-49). -/
inductive Constructed : Bounds K → Prop
  | default : Constructed mk0
  | dim (d : Nat) : Constructed (mkDim d)
  | std (lb ub : List K) (b : Bounds K) : mkStd lb ub = .ok b → Constructed b
  | vec (lb ub : List K) (b : Bounds K) : mkVec lb ub = .ok b → Constructed b

end Bounds

/-- The bound related members of `GeneralPurposeOptimizer`
(InternalOptimizers/INCLUDE/general_purpose_optimizer.hpp). -/
structure GPOptimizer (K : Type) where
  dim : Nat
  lb : List K
  ub : List K
  isSet : Bool
  deriving DecidableEq, Repr

namespace GPOptimizer

/-- `GeneralPurposeOptimizer::setBounds(double, double)` (general_purpose_optimizer.cpp 21-32). -/
def setScalar (o : GPOptimizer K) (l u : K) : Res (GPOptimizer K) :=
  if o.dim = 0 then .error .invalidArgument
  else .ok { o with lb := List.replicate o.dim l, ub := List.replicate o.dim u, isSet := true }

/-- `GeneralPurposeOptimizer::setBounds(std::vector, std::vector)`
(general_purpose_optimizer.cpp 34-46). -/
def setStd (o : GPOptimizer K) (lb ub : List K) : Res (GPOptimizer K) :=
  if lb.length ≠ ub.length then .error .invalidArgument
  else if lb.length ≠ o.dim then .error .invalidArgument
  else .ok { o with lb := lb, ub := ub, isSet := true }

/-- `GeneralPurposeOptimizer::setBounds(const vec&, const vec&)`
(general_purpose_optimizer.cpp 48-64). -/
def setVec (o : GPOptimizer K) (lb ub : List K) : Res (GPOptimizer K) :=
  if lb.length ≠ ub.length then .error .invalidArgument
  else if lb.length ≠ o.dim then .error .invalidArgument
  else
    match Vec.gt ub lb with
    | .error e => .error e
    | .ok false => .error .invalidArgument
    | .ok true => .ok { o with lb := lb, ub := ub, isSet := true }

end GPOptimizer
end Rodeo
