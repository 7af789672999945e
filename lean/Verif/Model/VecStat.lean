import Verif.Model.Kriging

/-! # Model of the numerical functions of `vec` (`LinearAlgebra/vector.cpp`)

`sqrt` is the square root of the library. -/

namespace Rodeo.Vec

variable {K : Type} [Field K] [LinearOrder K] [IsStrictOrderedRing K]

/-- `vec::operator*(double)` (vector.cpp 199-206). -/
def timesNum (v : List K) (a : K) : Res (List K) := tab v.length fun i => do
  let x ← rawAt v i
  .ok (x * a)

/-- `vec::operator+(double)` (vector.cpp 209-216). -/
def shift (v : List K) (a : K) : Res (List K) := tab v.length fun i => do
  let x ← rawAt v i
  .ok (x + a)

/-- `vec::operator-(double)` (vector.cpp 218-225). -/
def shiftDown (v : List K) (a : K) : Res (List K) := tab v.length fun i => do
  let x ← rawAt v i
  .ok (x - a)

/-- `vec::sum` (vector.cpp 228-234). -/
def sum (v : List K) : Res K := Mat.sumLoop v.length fun i => rawAt v i

/-- `vec::product` (vector.cpp 236-246). -/
def product (v : List K) : Res K :=
  if v.length = 0 then .ok 1
  else forRange v.length (fun i t => do
    let x ← rawAt v i
    .ok (t * x)) 1

/-- `vec::scaleAndAdd(const vec&, double, double)` (vector.cpp 249-258). -/
def scaleAndAdd (v : List K) (a b : K) : Res (List K) := tab v.length fun i => do
  let x ← rawAt v i
  .ok (a * x + b)

/-- `vec::scaleAndAddNoLib` (vector.cpp 286-292), with `operator+` of two vectors
(vector.cpp 133-143). -/
def scaleAndAddVec (x : List K) (a : K) (b : List K) : Res (List K) :=
  if x.length ≠ b.length then .error .invalidArgument
  else do
    let w ← timesNum x a
    if w.length ≠ b.length then .error .invalidArgument
    else tab w.length fun i => do
      let p ← rawAt w i
      let q ← rawAt b i
      .ok (p + q)

/-- `NormType` (INCLUDE/vector.hpp 38). -/
inductive NormType where
  | L2
  | L1
  | LINF

/-- `vec::norm` (vector.cpp 604-631). -/
def norm (sqrt : K → K) : NormType → List K → Res K
  | .L2, v => do
    let s ← Mat.sumLoop v.length fun i => do
      let a ← rawAt v i
      .ok (a * a)
    .ok (sqrt s)
  | .L1, v => Mat.sumLoop v.length fun i => do
      let a ← rawAt v i
      .ok |a|
  | .LINF, v => forRange v.length (fun i r => do
      let a ← rawAt v i
      .ok (max r |a|)) 0

/-- `vec::unitVector` (vector.cpp 633-646). -/
def unitVector (sqrt : K → K) (t : NormType) (v : List K) : Res (List K) := do
  let r ← norm sqrt t v
  if r = 0 then .error .runtimeError
  else tab v.length fun i => do
    let a ← rawAt v i
    .ok (a / r)

/-- `vec::findMin` (vector.cpp 558-563). -/
def findMin (v : List K) : Res K := do
  let i ← findMinIndex v
  rawAt v i

/-- Scan of `std::max_element`: index of the first maximum. -/
def maxIndexLoop : List K → Nat → K → Nat → Nat
  | [], _, _, best => best
  | a :: l, i, m, best => if m < a then maxIndexLoop l (i + 1) a i else maxIndexLoop l (i + 1) m best

/-- `vec::findMaxIndex` (vector.cpp 579-584). -/
def findMaxIndex : List K → Res Nat
  | [] => .error .runtimeError
  | a :: l => .ok (maxIndexLoop l 1 a 0)

/-- `vec::findMax` (vector.cpp 572-577). -/
def findMax (v : List K) : Res K := do
  let i ← findMaxIndex v
  rawAt v i

/-- `vec::is_equal` (vector.cpp 730-745). -/
def isEqual (v w : List K) (tolerance : K) : Res Bool :=
  if v.length ≠ w.length then .ok false
  else noneOf v.length fun i => do
    let a ← rawAt v i
    let b ← rawAt w i
    .ok (decide (|a - b| > tolerance))

/-- `vec::is_zero` (vector.cpp 749-756). -/
def isZero (v : List K) (tolerance : K) : Res Bool :=
  noneOf v.length fun i => do
    let a ← rawAt v i
    .ok (decide (|a| > tolerance))

/-- `vec::has_zeros` (vector.cpp 758-765): the loop returns `true` at the first hit. -/
def hasZeros (v : List K) (tolerance : K) : Res Bool := do
  let none ← noneOf v.length fun i => do
    let a ← rawAt v i
    .ok (decide (|a| ≤ tolerance))
  .ok (!none)

/-- `vec::sort` (vector.cpp 873-882); `std::sort` is modelled by `List.insertionSort`: on numbers
every sorting algorithm gives the same list. -/
def sort (v : List K) (ascending : Bool) : List K :=
  if v.length ≤ 1 then v
  else if ascending then v.insertionSort (fun a b => a ≤ b)
  else v.insertionSort (fun a b => a ≥ b)

/-- `vec::is_sorted` (vector.cpp 884-902). -/
def isSorted (v : List K) (ascending : Bool) : Res Bool :=
  if v.length ≤ 1 then .ok true
  else noneOf (v.length - 1) fun i => do
    let a ← rawAt v i
    let b ← rawAt v (i + 1)
    .ok (if ascending then decide (a > b) else decide (a < b))

/-- `vec::standardDeviation` (vector.cpp 1153-1164). -/
def standardDeviation (sqrt : K → K) (v : List K) : Res K :=
  if v.length = 0 then .error .runtimeError
  else do
    let m ← mean v
    let s ← Mat.sumLoop v.length fun i => do
      let a ← rawAt v i
      .ok ((a - m) * (a - m))
    .ok (sqrt (s / (v.length : K)))

/-- `Design::generateRandomDifferentiationDirection` (Design/design.cpp 88-93) with
`vec::fillRandom(double, double)` (vector.cpp 395-408); `u i` is the draw for component `i`. -/
def randomDirection (sqrt : K → K) (dimension : Nat) (u : Nat → K) : Res (List K) := do
  let direction ← tab dimension fun i => .ok (uniformReal (-1) 1 (u i))
  unitVector sqrt .L2 direction

end Rodeo.Vec
