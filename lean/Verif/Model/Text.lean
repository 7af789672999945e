import Verif.Model.Mat
import Mathlib.Algebra.Order.Round
import Mathlib.Data.Int.Log
import Mathlib.Data.List.DropRight

/-! # Text: number formatting, `std::stod`, `std::stoi`, `std::getline`

The standard library functions used by the CSV code.  A string is a list of characters, a file is
its content.  Numbers are exact: printing rounds to the nearest decimal (a tie is rounded up in
absolute value, glibc rounds it to even; no theorem depends on the direction).  Infinities, NaN,
hexadecimal numbers and over/underflow in `std::stod` are not modelled. -/

namespace Rodeo.Text

/-- `std::string`. -/
abbrev Str := List Char

/-- The character of a decimal digit. -/
def digitChar (d : Nat) : Char := Char.ofNat (48 + d)

/-- The value of a digit character. -/
def digitVal (c : Char) : Nat := c.toNat - 48

/-- `isdigit`. -/
def isDigit (c : Char) : Bool := 48 ≤ c.toNat && c.toNat ≤ 57

/-- `isspace`, the characters skipped by `strtod` and `strtol`. -/
def isSpace (c : Char) : Bool := c.toNat == 32 || (9 ≤ c.toNat && c.toNat ≤ 13)

/-- The last `p` decimal digits of `n`, with leading zeros. -/
def padDigits : Nat → Nat → Str
  | 0, _ => []
  | p + 1, n => padDigits p (n / 10) ++ [digitChar (n % 10)]

/-- `out << n` for an unsigned integer. -/
def natStr (n : Nat) : Str := padDigits (Nat.log 10 n + 1) n

/-- The number denoted by a sequence of digits. -/
def digitsVal (s : Str) : Nat := s.foldl (fun a c => 10 * a + digitVal c) 0

section Numbers

variable {K : Type} [Field K] [LinearOrder K] [IsStrictOrderedRing K] [FloorRing K]

/-- The sign printed before a number. -/
def signStr (x : K) : Str := if x < 0 then ['-'] else []

/-- `out << std::fixed << std::setprecision(p) << x`. -/
def fixedStr (p : Nat) (x : K) : Str :=
  let n := (round (|x| * 10 ^ p)).toNat
  signStr x ++ natStr (n / 10 ^ p) ++ (if p = 0 then [] else '.' :: padDigits p n)

/-- Decimal mantissa with `p + 1` digits and exponent of `|x|`, `x ≠ 0`: `|x|` is approximated by
`mantissa * 10 ^ (exponent - p)`. -/
def sciParts (p : Nat) (x : K) : Nat × Int :=
  let e := Int.log 10 |x|
  let m := (round (|x| / (10 : K) ^ (e - p))).toNat
  if m = 10 ^ (p + 1) then (10 ^ p, e + 1) else (m, e)

/-- Exponent suffix of the scientific notation: sign and at least two digits. -/
def expStr (e : Int) : Str :=
  'e' :: (if e < 0 then '-' else '+') ::
    (if e.natAbs < 10 then padDigits 2 e.natAbs else natStr e.natAbs)

/-- `out << std::scientific << std::setprecision(p) << x`. -/
def sciStr (p : Nat) (x : K) : Str :=
  let me : Nat × Int := if x = 0 then (0, 0) else sciParts p x
  signStr x ++ natStr (me.1 / 10 ^ p) ++ (if p = 0 then [] else '.' :: padDigits p me.1) ++
    expStr me.2

/-- Digits after the decimal point without trailing zeros, with the point if any are left. -/
def trimFraction (ds : Str) : Str :=
  let t := ds.rdropWhile (· = '0')
  if t = [] then [] else '.' :: t

/-- `out << std::setprecision(p + 1) << x` in the default format of a stream, `%.{p+1}g`: `p + 1`
significant digits, trailing zeros removed, scientific notation if the decimal exponent is below -4 or
above `p`. -/
def sigStr (p : Nat) (x : K) : Str :=
  if x = 0 then ['0']
  else
    let me := sciParts p x
    if -4 ≤ me.2 ∧ me.2 < (p : Int) + 1 then
      let k := ((p : Int) - me.2).toNat
      signStr x ++ natStr (me.1 / 10 ^ k) ++ trimFraction (padDigits k me.1)
    else signStr x ++ natStr (me.1 / 10 ^ p) ++ trimFraction (padDigits p me.1) ++ expStr me.2

/-- `out << x` with the default format and precision of a stream, `%.6g`. -/
def generalStr (x : K) : Str := sigStr 5 x

/-- Skip leading white space. -/
def skipSpace : Str → Str
  | [] => []
  | c :: s => if isSpace c then skipSpace s else c :: s

/-- Split off an optional sign; `true` for minus. -/
def takeSign : Str → Bool × Str
  | [] => (false, [])
  | c :: s => if c = '-' then (true, s) else if c = '+' then (false, s) else (false, c :: s)

/-- Split off the leading digits. -/
def takeDigits : Str → Str × Str
  | [] => ([], [])
  | c :: s => if isDigit c then (c :: (takeDigits s).1, (takeDigits s).2) else ([], c :: s)

/-- Split off `.` and the digits after it. -/
def takeFraction : Str → Str × Str
  | [] => ([], [])
  | c :: s => if c = '.' then takeDigits s else ([], c :: s)

/-- The value of an exponent suffix at the start of the text, 0 if there is none. -/
def takeExponent : Str → Int
  | [] => 0
  | c :: s =>
    if c = 'e' ∨ c = 'E' then
      let sg := takeSign s
      let ds := (takeDigits sg.2).1
      if sg.1 then -(digitsVal ds : Int) else (digitsVal ds : Int)
    else 0

/-- `std::stod`: the longest prefix that is a number; no digits at all is `invalid_argument`. -/
def stod (s : Str) : Res K :=
  let sg := takeSign (skipSpace s)
  let ip := takeDigits sg.2
  let fp := takeFraction ip.2
  if ip.1 = [] ∧ fp.1 = [] then .error .invalidArgument
  else
    let v : K := (digitsVal (ip.1 ++ fp.1) : K) * (10 : K) ^ (takeExponent fp.2 - (fp.1.length : Int))
    .ok (if sg.1 then -v else v)

end Numbers

/-- `std::stoi`: `int` has 32 bits. -/
def stoi (s : Str) : Res Int :=
  let sg := takeSign (skipSpace s)
  let ds := (takeDigits sg.2).1
  if ds = [] then .error .invalidArgument
  else
    let v : Int := if sg.1 then -(digitsVal ds : Int) else (digitsVal ds : Int)
    if v < -2 ^ 31 ∨ v > 2 ^ 31 - 1 then .error .outOfRange else .ok v

/-- The pieces between delimiters, at least one. -/
def splitOn (c : Char) : Str → List Str
  | [] => [[]]
  | a :: s =>
    if a = c then [] :: splitOn c s
    else
      match splitOn c s with
      | [] => [[a]]
      | t :: ts => (a :: t) :: ts

/-- What `while (std::getline(stream, piece, c))` delivers: a final empty piece is not delivered. -/
def pieces (c : Char) (s : Str) : List Str :=
  if (splitOn c s).getLast? = some [] then (splitOn c s).dropLast else splitOn c s

end Rodeo.Text
