import Mathlib.Algebra.Order.Field.Basic

/-!
# Outcomes and loops shared by all models

A C++ function that can throw is a function into `Res`.  Undefined behaviour is the error
value `Err.ub`, so that "no call has undefined behaviour" is a provable statement.
-/

namespace Rodeo

/-- The ways in which a C++ call can end other than by returning.
`invalidArgument`, `outOfRange`, `runtimeError`, `logicError` are the std exceptions thrown in
`/repo/src`; `abort` is a failed `assert`/`std::abort`; `ub` is undefined behaviour.
`nonFinite` is not an exception: it marks a run in which a division by zero has produced an IEEE
infinity or NaN, values that the exact number field of the models does not contain.  The model
stops there instead of continuing with a made-up number.
`outOfFuel` is not an exception either: a loop whose termination is not guaranteed is run for a
bounded number of rounds, and `outOfFuel` says that it has not ended by then.  Such models take the
bound as an argument, and theorems quantify over it. -/
inductive Err where
  | invalidArgument
  | outOfRange
  | runtimeError
  | logicError
  | abort
  | ub
  | nonFinite
  | outOfFuel
  deriving DecidableEq, Repr

/-- Result of a C++ call. -/
abbrev Res (α : Type) := Except Err α

/-- Decidable equality of results, used in concrete witnesses. -/
instance {α : Type} [DecidableEq α] : DecidableEq (Res α)
  | .ok a, .ok b => if h : a = b then isTrue (h ▸ rfl) else isFalse (fun h' => h (Except.ok.inj h'))
  | .error a, .error b =>
      if h : a = b then isTrue (h ▸ rfl) else isFalse (fun h' => h (Except.error.inj h'))
  | .ok _, .error _ => isFalse (fun h => nomatch h)
  | .error _, .ok _ => isFalse (fun h => nomatch h)

/-- `vec::operator()` (LinearAlgebra/vector.cpp 119-131): bounds checked access. -/
def vat {α : Type} (v : List α) (i : Nat) : Res α :=
  match v[i]? with
  | some a => .ok a
  | none => .error .outOfRange

/-- Access through a raw pointer or `std::vector::operator[]`: outside the storage the behaviour
is undefined. -/
def rawAt {α : Type} (v : List α) (i : Nat) : Res α :=
  match v[i]? with
  | some a => .ok a
  | none => .error .ub

/-- `a / b` on doubles, see `Err.nonFinite`. -/
def fdiv {K : Type} [Field K] [DecidableEq K] (a b : K) : Res K :=
  if b = 0 then .error .nonFinite else .ok (a / b)

/-- `for (i = start; i < start + count; ++i) s = body(i, s);` where the body may throw. -/
def loopFrom {σ : Type} (body : Nat → σ → Res σ) : Nat → Nat → σ → Res σ
  | _, 0, s => .ok s
  | i, k + 1, s =>
    match body i s with
    | .ok s' => loopFrom body (i + 1) k s'
    | .error e => .error e

/-- `for (i = 0; i < n; ++i) s = body(i, s);` -/
def forRange {σ : Type} (n : Nat) (body : Nat → σ → Res σ) (s : σ) : Res σ :=
  loopFrom body 0 n s

/-- A loop `for (i = start; ...)` of `count` rounds that builds a vector, entry `i` being `f i`. -/
def tabFrom {α : Type} (f : Nat → Res α) : Nat → Nat → Res (List α)
  | _, 0 => .ok []
  | i, k + 1 =>
    match f i with
    | .error e => .error e
    | .ok a =>
      match tabFrom f (i + 1) k with
      | .error e => .error e
      | .ok l => .ok (a :: l)

/-- `vec r(n); for (i = 0; i < n; ++i) r(i) = f(i); return r;` -/
def tab {α : Type} (n : Nat) (f : Nat → Res α) : Res (List α) := tabFrom f 0 n

/-- `for (i = start; ...; ++i) if (test(i)) return false; return true;` with `count` rounds. -/
def allFrom (test : Nat → Res Bool) : Nat → Nat → Res Bool
  | _, 0 => .ok true
  | i, k + 1 =>
    match test i with
    | .error e => .error e
    | .ok true => .ok false
    | .ok false => allFrom test (i + 1) k

/-- `for (x : list) out.push_back(f(x));` where the body may throw. -/
def mapRes {α β : Type} (f : α → Res β) : List α → Res (List β)
  | [] => .ok []
  | a :: l =>
    match f a with
    | .error e => .error e
    | .ok b =>
      match mapRes f l with
      | .error e => .error e
      | .ok bs => .ok (b :: bs)

/-- `for (x : list) s = f(s, x);` where the body may throw. -/
def foldRes {α σ : Type} (f : σ → α → Res σ) : σ → List α → Res σ
  | s, [] => .ok s
  | s, a :: l =>
    match f s a with
    | .error e => .error e
    | .ok s' => foldRes f s' l

/-- `for (i = 0; i < n; ++i) if (test(i)) return false; return true;` -/
def noneOf (n : Nat) (test : Nat → Res Bool) : Res Bool := allFrom test 0 n

end Rodeo
