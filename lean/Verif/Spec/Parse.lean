import Mathlib.Algebra.Order.Field.Basic

/-! # Specification: trimmed strings and constraint expressions

Strings are lists of characters. -/

namespace Rodeo.Spec

/-- Blank, tab, newline or carriage return. -/
def Blank (c : Char) : Prop := c = ' ' ∨ c = '\t' ∨ c = '\n' ∨ c = '\r'

/-- `t` neither starts nor ends with a blank. -/
def Clean (t : List Char) : Prop :=
  (∀ c, t.head? = some c → ¬ Blank c) ∧ ∀ c, t.getLast? = some c → ¬ Blank c

/-- `t` occurs in `s`. -/
def Occurs (t s : List Char) : Prop := ∃ a b, s = a ++ t ++ b

/-- `t` is a longest part of `s` that neither starts nor ends with a blank. -/
def IsTrim (s t : List Char) : Prop :=
  Occurs t s ∧ Clean t ∧ ∀ t', Occurs t' s → Clean t' → t'.length ≤ t.length

/-- White space: blank, tab, newline, vertical tab, form feed, carriage return. -/
def White (c : Char) : Prop :=
  c = ' ' ∨ c = '\t' ∨ c = '\n' ∨ c = '\x0b' ∨ c = '\x0c' ∨ c = '\r'

/-- A word: not empty and without white space. -/
def Word (s : List Char) : Prop := s ≠ [] ∧ ∀ c ∈ s, ¬ White c

/-- Nothing but white space. -/
def Gap (s : List Char) : Prop := ∀ c ∈ s, White c

instance (c : Char) : Decidable (White c) := by unfold White; infer_instance

/-- The characters that are not white space, in order. -/
def compact (s : List Char) : List Char := s.filter fun c => ¬ White c

/-- A decimal digit. -/
def Digit (c : Char) : Prop := '0'.toNat ≤ c.toNat ∧ c.toNat ≤ '9'.toNat

/-- The number a string of digits stands for. -/
def digitsValue (s : List Char) : Nat := s.foldl (fun a c => 10 * a + (c.toNat - '0'.toNat)) 0

/-- A decimal number as it is written: sign, digits before the point, digits after the point, and the
exponent (its sign and digits). -/
structure Numeral where
  negative : Bool
  whole : List Char
  fraction : List Char
  exponent : Option (Bool × List Char)

/-- Digits only, at least one before the point, at least one in the exponent. -/
def Numeral.Valid (n : Numeral) : Prop :=
  (∀ c ∈ n.whole, Digit c) ∧ n.whole ≠ [] ∧ (∀ c ∈ n.fraction, Digit c) ∧
    ∀ e, n.exponent = some e → (∀ c ∈ e.2, Digit c) ∧ e.2 ≠ []

/-- `-12.5e-3` -/
def Numeral.text (n : Numeral) : List Char :=
  (if n.negative then ['-'] else []) ++ n.whole ++
    (if n.fraction = [] then [] else '.' :: n.fraction) ++
    match n.exponent with
    | none => []
    | some (neg, ds) => 'e' :: (if neg then ['-'] else []) ++ ds

/-- The exponent of ten. -/
def Numeral.scale (n : Numeral) : Int :=
  match n.exponent with
  | none => 0
  | some (neg, ds) => if neg then -(digitsValue ds : Int) else digitsValue ds

/-- The number. -/
def Numeral.value {K : Type} [Field K] (n : Numeral) : K :=
  (if n.negative then -1 else 1) *
    ((digitsValue n.whole : K) + (digitsValue n.fraction : K) / 10 ^ n.fraction.length) *
    (10 : K) ^ n.scale

end Rodeo.Spec
