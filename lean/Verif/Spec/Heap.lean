import Verif.Model.Heap

/-! # Matrices and vectors are values

What a user expects of `mat` and `vec` objects: every object has its own value, a copy has the value of
the original at this moment, and changing one object changes no other.  A call that runs out of memory
throws and changes nothing. -/

namespace Rodeo.Spec.Value

open Heap (Kind Op Answer badAlloc)

variable {K : Type}

/-- The value of an object: its shape and its entries.  A vector of length `n` is `n x 1`. -/
structure Val (K : Type) where
  kind : Kind
  rows : Nat
  cols : Nat
  entry : Nat → Nat → K

abbrev Vals (K : Type) := Nat → Option (Val K)

/-- The empty matrix or vector. -/
def nothing [Zero K] (kind : Kind) : Val K := ⟨kind, 0, if kind = .vector then 1 else 0, fun _ _ => 0⟩

/-- The object `x` gets the value `v`; this needs memory. -/
def become (s : Vals K) (oom : Bool) (x : Nat) (v : Val K) : Vals K × Res (Answer K) :=
  if oom then (s, .error badAlloc) else (Function.update s x (some v), .ok .done)

/-- One call. -/
def step [Zero K] (s : Vals K) (op : Op K) (oom : Bool) : Vals K × Res (Answer K) :=
  match op with
  | .matrix x r c v =>
    if (s x).isNone then become s oom x ⟨.matrix, r, c, fun _ _ => v⟩ else (s, .ok .done)
  | .vector x n v =>
    if (s x).isNone then become s oom x ⟨.vector, n, 1, fun _ _ => v⟩ else (s, .ok .done)
  | .list x l =>
    if (s x).isNone then become s oom x ⟨.vector, l.length, 1, fun i _ => l.getD i 0⟩ else (s, .ok .done)
  | .empty x kind =>
    if (s x).isNone then (Function.update s x (some (nothing kind)), .ok .done) else (s, .ok .done)
  | .copy x y =>
    match s x, s y with
    | none, some v => become s oom x v
    | _, _ => (s, .ok .done)
  | .move x y =>
    match s x, s y with
    | none, some v =>
      if v.kind = .matrix then
        (Function.update (Function.update s x (some v)) y (some (nothing .matrix)), .ok .done)
      else become s oom x v
    | _, _ => (s, .ok .done)
  | .assign x y =>
    match s x, s y with
    | some v, some w => if v.kind ≠ w.kind ∨ x = y then (s, .ok .done) else become s oom x w
    | _, _ => (s, .ok .done)
  | .moveAssign x y =>
    match s x, s y with
    | some v, some w =>
      if v.kind ≠ w.kind ∨ x = y then (s, .ok .done)
      else if v.kind = .matrix then
        (Function.update (Function.update s x (some w)) y (some (nothing .matrix)), .ok .done)
      else become s oom x w
    | _, _ => (s, .ok .done)
  | .reset x =>
    match s x with
    | some v => (Function.update s x (some (nothing v.kind)), .ok .done)
    | none => (s, .ok .done)
  | .resizeMatrix x r c =>
    match s x with
    | some v =>
      if v.kind = .matrix then
        become s oom x ⟨.matrix, r, c, fun i j => if i < v.rows ∧ j < v.cols then v.entry i j else 0⟩
      else (s, .ok .done)
    | none => (s, .ok .done)
  | .resizeVector x n a =>
    match s x with
    | some v =>
      if v.kind = .vector then
        become s oom x ⟨.vector, n, 1, fun i j => if i < v.rows then v.entry i j else a⟩
      else (s, .ok .done)
    | none => (s, .ok .done)
  | .pushBack x a =>
    match s x with
    | some v =>
      if v.kind = .vector then
        become s oom x ⟨.vector, v.rows + 1, 1, fun i j => if i < v.rows then v.entry i j else a⟩
      else (s, .ok .done)
    | none => (s, .ok .done)
  | .fill x a =>
    match s x with
    | some v => (Function.update s x (some { v with entry := fun _ _ => a }), .ok .done)
    | none => (s, .ok .done)
  | .set x i j a =>
    match s x with
    | some v =>
      if i < v.rows ∧ j < v.cols then
        (Function.update s x (some { v with entry := fun k l => if k = i ∧ l = j then a else v.entry k l }),
          .ok .done)
      else (s, .error .outOfRange)
    | none => (s, .ok .done)
  | .get x i j =>
    match s x with
    | some v =>
      if i < v.rows ∧ j < v.cols then (s, .ok (.value (v.entry i j))) else (s, .error .outOfRange)
    | none => (s, .ok .done)
  | .shape x =>
    match s x with
    | some v => (s, .ok (.shape v.rows v.cols))
    | none => (s, .ok .done)
  | .read x rows =>
    match s x with
    | some v =>
      if v.kind = .matrix then
        if rows = [] then (s, .error .runtimeError)
        else if ∀ row ∈ rows, row.length = (rows.headD []).length then
          become s oom x ⟨.matrix, rows.length, (rows.headD []).length, fun i j => (rows.getD i []).getD j 0⟩
        else (s, .error .runtimeError)
      else (s, .ok .done)
    | none => (s, .ok .done)
  | .destroy x => (Function.update s x none, .ok .done)

/-- The answers to all calls of a program that starts without objects. -/
def run [Zero K] (s : Vals K) : List (Op K × Bool) → List (Res (Answer K))
  | [] => []
  | (op, oom) :: cs => (step s op oom).2 :: run (step s op oom).1 cs

/-- No memory is lost: every block that is still allocated belongs to an object that exists. -/
def NoLeak (s : Heap.St K) : Prop :=
  ∀ a d, s.blocks[a]? = some (some d) → ∃ x o, s.objs x = some o ∧ o.ptr = some a

/-- The calls for which the objects are values: no matrix has 2^32 or more elements, no assignment
(except moves of matrices) and no reading of a file runs out of memory, and all rows of a file that is read have
the same length. -/
def Ordinary : Op K × Bool → Prop
  | (.matrix _ r c _, _) => r * c < 2 ^ 32
  | (.resizeMatrix _ r c, _) => r * c < 2 ^ 32
  | (.assign _ _, oom) => oom = false
  | (.moveAssign _ _, oom) => oom = false
  | (.read _ rows, oom) => oom = false ∧ (∀ row ∈ rows, row.length = (rows.headD []).length) ∧
      rows.length * (rows.headD []).length < 2 ^ 32
  | _ => True

instance (c : Op K × Bool) : Decidable (Ordinary c) := by
  unfold Ordinary
  split <;> infer_instance

end Rodeo.Spec.Value
