import Verif.Model.Mem
import Mathlib.Algebra.Order.Floor.Ring
import Mathlib.Data.List.Sort

/-! # Model of `LinearAlgebra/vector.cpp`

A `vec` is a `List K`.  `double` is an arbitrary linearly ordered field `K` (no rounding). -/

namespace Rodeo

variable {K : Type} [Field K] [LinearOrder K] [IsStrictOrderedRing K]

/-- One draw of `std::uniform_real_distribution<>(a, b)` from a generator that delivered
`u` in `[0,1)`: the standard's formula `a + u * (b - a)`. The precondition `a ≤ b` of the
constructor is checked by the callers that model it. -/
def uniformReal (a b u : K) : K := a + u * (b - a)

namespace Vec

/-- `vec::operator<` (vector.cpp 157-169). -/
def lt (v w : List K) : Res Bool :=
  if v.length ≠ w.length then .error .invalidArgument
  else noneOf v.length fun i =>
    match rawAt v i, rawAt w i with
    | .ok a, .ok b => .ok (decide (a ≥ b))
    | .error e, _ => .error e
    | _, .error e => .error e

/-- `vec::operator>` (vector.cpp 171-183). -/
def gt (v w : List K) : Res Bool :=
  if v.length ≠ w.length then .error .invalidArgument
  else noneOf v.length fun i =>
    match rawAt v i, rawAt w i with
    | .ok a, .ok b => .ok (decide (a ≤ b))
    | .error e, _ => .error e
    | _, .error e => .error e

/-- `vec::resize` (vector.cpp 96-116): keep the common prefix, pad with the default value 0. -/
def resize (v : List K) (n : Nat) : List K :=
  v.take n ++ List.replicate (n - v.length) 0

/-- `vec::fillRandom(const vec& a, const vec& b)` (vector.cpp 410-427) on a vector of size `n`;
`u i` is the draw used for entry `i`. -/
def fillRandom (n : Nat) (a b : List K) (u : Nat → K) : Res (List K) :=
  if a.length ≠ n ∨ b.length ≠ n then .error .invalidArgument
  else tab n fun i =>
    match vat a i, vat b i with
    | .ok l, .ok h => if l > h then .error .invalidArgument else .ok (uniformReal l h (u i))
    | .error e, _ => .error e
    | _, .error e => .error e

/-- `vec::generateRandomVectorBetween` (vector.cpp 430-445).  There is no check of
`lower ≤ upper`, and `std::uniform_real_distribution(a,b)` with `a > b` is undefined behaviour. -/
def generateRandomVectorBetween (a b : List K) (u : Nat → K) : Res (List K) :=
  if a.length ≠ b.length then .error .invalidArgument
  else tab a.length fun i =>
    match rawAt a i, rawAt b i with
    | .ok l, .ok h => if l > h then .error .ub else .ok (uniformReal l h (u i))
    | .error e, _ => .error e
    | _, .error e => .error e

/-- `vec::normalizeVector(const vec&, const vec&)` (vector.cpp 813-824). -/
def normalizeVector (x xmin xmax : List K) : Res (List K) :=
  tab x.length fun i =>
    match rawAt x i, vat xmin i, vat xmax i with
    | .ok v, .ok l, .ok h => .ok ((1 / (x.length : K)) * (v - l) / (h - l))
    | .error e, _, _ => .error e
    | _, .error e, _ => .error e
    | _, _, .error e => .error e

/-- `vec::normalizeVectorFast` (vector.cpp 800-811): the range `xmax - xmin` is precomputed. -/
def normalizeVectorFast (x xmin xdiff : List K) : Res (List K) :=
  tab x.length fun i =>
    match rawAt x i, vat xmin i, vat xdiff i with
    | .ok v, .ok l, .ok d => .ok ((1 / (x.length : K)) * (v - l) / d)
    | .error e, _, _ => .error e
    | _, .error e, _ => .error e
    | _, _, .error e => .error e

/-- `vec::normalizeVector(double, double)` (vector.cpp 826-838). -/
def normalizeVectorScalar (x : List K) (xmin xmax : K) : Res (List K) :=
  tab x.length fun i =>
    match rawAt x i with
    | .ok v => .ok ((1 / (x.length : K)) * (v - xmin) / (xmax - xmin))
    | .error e => .error e

/-- `vec::denormalizeVector` (vector.cpp 843-852). -/
def denormalizeVector (x xmin xmax : List K) : Res (List K) :=
  tab x.length fun i =>
    match rawAt x i, vat xmin i, vat xmax i with
    | .ok v, .ok l, .ok h => .ok ((v * (x.length : K)) * (h - l) + l)
    | .error e, _, _ => .error e
    | _, .error e, _ => .error e
    | _, _, .error e => .error e

/-- `vec::denormalizeVectorFast` (vector.cpp 854-863). -/
def denormalizeVectorFast (x xmin xdiff : List K) : Res (List K) :=
  tab x.length fun i =>
    match rawAt x i, vat xmin i, vat xdiff i with
    | .ok v, .ok l, .ok d => .ok ((v * (x.length : K)) * d + l)
    | .error e, _, _ => .error e
    | _, .error e, _ => .error e
    | _, _, .error e => .error e

/-- `vec::is_sorted(true)` (vector.cpp 884-902), ascending case. -/
def isSortedAsc (x : List K) : Res Bool :=
  if x.length ≤ 1 then .ok true
  else noneOf (x.length - 1) fun i =>
    match rawAt x i, rawAt x (i + 1) with
    | .ok a, .ok b => .ok (decide (a > b))
    | .error e, _ => .error e
    | _, .error e => .error e

/-- The search loop of `vec::findInterval` (vector.cpp 912-919): first `i` with
`x(i) ≤ value < x(i+1)`, `count` rounds left. -/
def findIntervalLoop (x : List K) (value : K) : Nat → Nat → Res (Option Nat)
  | _, 0 => .ok none
  | i, k + 1 =>
    match rawAt x i, rawAt x (i + 1) with
    | .ok xs, .ok xe =>
      if value ≥ xs ∧ value < xe then .ok (some i) else findIntervalLoop x value (i + 1) k
    | .error e, _ => .error e
    | _, .error e => .error e

/-- `vec::findInterval` (vector.cpp 904-926). -/
def findInterval (x : List K) (value : K) : Res Int :=
  if x.length = 0 then .ok (-1)
  else
    match isSortedAsc x with
    | .error e => .error e
    | .ok false => .error .logicError
    | .ok true =>
      match findIntervalLoop x value 0 (x.length - 1) with
      | .error e => .error e
      | .ok (some i) => .ok (i : Int)
      | .ok none =>
        match rawAt x (x.length - 1) with
        | .error e => .error e
        | .ok last => if value > last then .ok ((x.length : Int) - 1) else .ok (-1)

/-- `vec::quantile` (vector.cpp 1114-1139). `std::sort` is modelled by
`List.insertionSort`; on doubles every sorting algorithm gives the same list. -/
def quantile [FloorRing K] (x : List K) (p : K) : Res K :=
  if p < 0 ∨ p > 1 then .error .invalidArgument
  else if x.length = 0 then .error .runtimeError
  else
    let sorted := x.insertionSort (fun a b => a ≤ b)
    let idx : K := p * ((x.length - 1 : Nat) : K)
    let lower : Nat := (Int.floor idx).toNat
    let upper : Nat := (Int.ceil idx).toNat
    if lower = upper then rawAt sorted lower
    else
      let weight : K := idx - (lower : K)
      match rawAt sorted lower, rawAt sorted upper with
      | .ok a, .ok b => .ok (a * (1 - weight) + b * weight)
      | .error e, _ => .error e
      | _, .error e => .error e

/-- `vec::appendVector` (vector.cpp 449-471): a new block is filled by three `std::copy` calls.
Result: the new content, or the exception (the vector is then unchanged). -/
def appendVector (v other : List K) (position : Int) : Res (List K) :=
  if position < -1 ∨ position > (v.length : Int) then .error .outOfRange
  else do
    let pos : Nat := if position = -1 then v.length else position.toNat
    let d0 := Mem.alloc (v.length + other.length)
    let d1 ← Mem.copyRange v 0 pos d0 0
    let d2 ← Mem.copyRange other 0 other.length d1 pos
    let d3 ← Mem.copyRange v pos (v.length - pos) d2 (pos + other.length)
    Mem.freeze d3

/-- `vec::copyVector` (vector.cpp 473-482): overwrite from `position` on with as much of `source`
as fits. -/
def copyVector (v source : List K) (position : Int) : Res (List K) :=
  if position < 0 ∨ position ≥ (v.length : Int) then .error .outOfRange
  else do
    let pos : Nat := position.toNat
    let copySize : Nat := min (v.length - pos) source.length
    let d ← Mem.copyRange source 0 copySize (v.map some) pos
    Mem.freeze d

/-- `vec::push_back` (vector.cpp 484-502). -/
def pushBack (v : List K) (a : K) : Res (List K) := do
  let d ← Mem.copyRange v 0 v.length (Mem.alloc (v.length + 1)) 0
  let d' ← Mem.wr d v.length a
  Mem.freeze d'

/-- `vec::head` (vector.cpp 586-593). -/
def head (v : List K) (n : Nat) : Res (List K) :=
  if n > v.length then .error .outOfRange
  else do
    let d ← Mem.copyRange v 0 n (Mem.alloc n) 0
    Mem.freeze d

/-- `vec::tail` (vector.cpp 595-602). -/
def tail (v : List K) (n : Nat) : Res (List K) :=
  if n > v.length then .error .outOfRange
  else do
    let d ← Mem.copyRange v (v.length - n) n (Mem.alloc n) 0
    Mem.freeze d

/-- Scan of `std::min_element`: index of the first minimum, given the best index so far. -/
def minIndexLoop : List K → Nat → K → Nat → Nat
  | [], _, _, best => best
  | a :: l, i, m, best => if a < m then minIndexLoop l (i + 1) a i else minIndexLoop l (i + 1) m best

/-- `vec::findMinIndex` (vector.cpp 565-570). -/
def findMinIndex : List K → Res Nat
  | [] => .error .runtimeError
  | a :: l => .ok (minIndexLoop l 1 a 0)

/-- `vec::norm(L1)` (vector.cpp 615-619). -/
def normL1 (v : List K) : K := v.foldl (fun s a => s + |a|) 0

/-- `vec::operator-` (vector.cpp 145-155). -/
def sub (v w : List K) : Res (List K) :=
  if v.length ≠ w.length then .error .invalidArgument
  else tab v.length fun i =>
    match rawAt v i, rawAt w i with
    | .ok a, .ok b => .ok (a - b)
    | .error e, _ => .error e
    | _, .error e => .error e

end Vec
end Rodeo
