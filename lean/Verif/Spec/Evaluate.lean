import Verif.Spec.Parse
import Verif.Spec.Text

/-! # Specification: numbers in the files exchanged with a simulation program -/

namespace Rodeo.Spec

variable {K : Type} [Field K] [LinearOrder K] [IsStrictOrderedRing K]

/-- The text of a decimal number, `-12.5e-3`, where a positive exponent may be written with a plus sign. -/
def Numeral.shown (plus : Bool) (n : Numeral) : List Char :=
  (if n.negative then ['-'] else []) ++ n.whole ++
    (if n.fraction = [] then [] else '.' :: n.fraction) ++
    match n.exponent with
    | none => []
    | some (neg, ds) => 'e' :: ((if neg then ['-'] else if plus then ['+'] else []) ++ ds)

/-- `t` is a decimal number and its value is `v`. -/
def Shows (t : List Char) (v : K) : Prop := ∃ (plus : Bool) (n : Numeral), n.Valid ∧ t = n.shown plus ∧ n.value = v

/-- A file that lists the numbers `vs`, one per line. -/
def Listing (text : List Char) (vs : List K) : Prop :=
  ∃ lines : List (List Char), text = (lines.map (· ++ ['\n'])).flatten ∧ List.Forall₂ Shows lines vs

/-- An output file that gives `v` as its first word. -/
def Output (text : List Char) (v : K) : Prop :=
  ∃ gap t rest, Gap gap ∧ Shows t v ∧ text = gap ++ t ++ rest ∧ ∀ c, rest.head? = some c → White c

/-- The text starts, after white space, with something that can be read as a number, and the number is `v`:
sign, digits, point, digits, exponent, with at least one digit before or after the point. -/
def StartsWith (text : List Char) (v : K) : Prop :=
  ∃ (gap sign whole point fraction exponent rest : List Char) (e : Int),
    Gap gap ∧ (sign = [] ∨ sign = ['+'] ∨ sign = ['-']) ∧
    (∀ c ∈ whole, Digit c) ∧ (∀ c ∈ fraction, Digit c) ∧ (whole ≠ [] ∨ fraction ≠ []) ∧
    (point = ['.'] ∨ (point = [] ∧ fraction = [])) ∧
    (exponent = [] ∧ e = 0 ∨
      ∃ mark sg ds, (mark = 'e' ∨ mark = 'E') ∧ (sg = [] ∨ sg = ['+'] ∨ sg = ['-']) ∧
        (∀ c ∈ ds, Digit c) ∧ ds ≠ [] ∧ exponent = mark :: (sg ++ ds) ∧
        e = if sg = ['-'] then -(digitsValue ds : Int) else (digitsValue ds : Int)) ∧
    text = gap ++ sign ++ whole ++ point ++ fraction ++ exponent ++ rest ∧
    v = (if sign = ['-'] then -1 else 1) *
      ((digitsValue whole : K) + (digitsValue fraction : K) / 10 ^ fraction.length) * (10 : K) ^ e

/-- Each number is the corresponding one to six significant digits: it differs by at most half a unit of the
sixth digit, and not at all if six digits suffice. -/
def SixDigits (ys xs : List K) : Prop :=
  List.Forall₂ (fun y x => |y - x| ≤ 1 / 2 / 10 ^ 5 * |x| ∧ (SigDigits 6 x → y = x)) ys xs

end Rodeo.Spec
