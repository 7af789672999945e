import Verif.Basic

/-! # Raw storage: `new double[n]`, pointer writes, `std::copy`

A freshly allocated block is a list of `none` (indeterminate values).  Accesses outside a block are
undefined behaviour.  Reading back a block that still has an indeterminate value is also reported as
`Err.ub`. -/

namespace Rodeo.Mem

variable {K : Type}

/-- `new double[n]`: storage with indeterminate content. -/
def alloc (n : Nat) : List (Option K) := List.replicate n none

/-- `p[i] = v`. -/
def wr (b : List (Option K)) (i : Nat) (v : K) : Res (List (Option K)) :=
  if i < b.length then .ok (b.set i (some v)) else .error .ub

/-- `p[i]` used as a value: out of the block, or never written, is undefined behaviour. -/
def rd (b : List (Option K)) (i : Nat) : Res K :=
  match b[i]? with
  | some (some v) => .ok v
  | _ => .error .ub

/-- `new double[n]` followed by `std::fill(.., 0.0)`. -/
def zeros [Zero K] (n : Nat) : List (Option K) := List.replicate n (some 0)

/-- `std::copy(src + from, src + from + count, dst + pos)`. -/
def copyRange (src : List K) (start count : Nat) (dst : List (Option K)) (pos : Nat) :
    Res (List (Option K)) :=
  forRange count
    (fun k d =>
      match rawAt src (start + k) with
      | .error e => .error e
      | .ok v => wr d (pos + k) v) dst

/-- The content of a block as values; indeterminate entries are reported as `ub`. -/
def freeze (b : List (Option K)) : Res (List K) :=
  tab b.length fun i =>
    match b[i]? with
    | some (some v) => .ok v
    | _ => .error .ub

end Rodeo.Mem
