import Verif.Basic
import Mathlib.Data.Int.Log

/-! # IEEE 754 double arithmetic

The type `double` of the code on the platforms it is built for: binary64, every operation rounded to
nearest, ties to even.  The build files ask for `-O2` only (e.g. src/LinearAlgebra/CMakeLists.txt 9,
src/Optimizers/CMakeLists.txt 11): no `-ffast-math`, no `-march`, so products and sums are not contracted.
A double is an element of the number field `K`.  Signed zeros are one number; a result that would be
infinite or NaN ends the run with `Err.nonFinite`. -/

namespace Rodeo.Dbl

variable {K : Type} [Field K] [LinearOrder K] [IsStrictOrderedRing K] [FloorRing K]

/-- The nearest integer, the even one of the two if there are two. -/
def roundEven (y : K) : Int :=
  if y - (⌊y⌋ : K) < 1 / 2 then ⌊y⌋
  else if 1 / 2 < y - (⌊y⌋ : K) then ⌊y⌋ + 1
  else if ⌊y⌋ % 2 = 0 then ⌊y⌋ else ⌊y⌋ + 1

/-- The exponent of the unit in the last place at `x`: 53 digits, but not below the least subnormal
number. -/
def ulpExp (x : K) : Int := max (Int.log 2 |x| - 52) (-1074)

/-- Rounding to nearest, ties to even, without regard to overflow. -/
def fl (x : K) : K := (roundEven (x / 2 ^ ulpExp x) : K) * 2 ^ ulpExp x

/-- The result of an operation with exact value `x`. -/
def dbl (x : K) : Res K := if |fl x| < 2 ^ 1024 then .ok (fl x) else .error .nonFinite

/-- `a + b` on doubles. -/
def add (a b : K) : Res K := dbl (a + b)

/-- `a - b` on doubles. -/
def sub (a b : K) : Res K := dbl (a - b)

/-- `a * b` on doubles. -/
def mul (a b : K) : Res K := dbl (a * b)

/-- `a / b` on doubles; a quotient by zero is infinite or NaN. -/
def div (a b : K) : Res K := if b = 0 then .error .nonFinite else dbl (a / b)

/-- A decimal literal of the source, or a number read by `std::stod`: the nearest double. -/
def lit (x : K) : K := fl x

end Rodeo.Dbl
