import Verif.Model.Mem
import Mathlib.Algebra.Field.Defs

/-! # Life of matrices and vectors (`LinearAlgebra/matrix.cpp`, `LinearAlgebra/vector.cpp`)

Constructors, destructors, copies, moves and accesses of `mat` and `vec` objects that share one heap.
A program is a list of calls; each call may run out of memory (`new` throws `std::bad_alloc`).  The
loops of a call read the blocks that exist before the call and write the block that the call has
allocated, so they are modelled on the contents of these blocks.  Memory errors (use of a freed block,
second `delete`, access outside a block, use of an indeterminate value) are `Err.ub`.  The sizes of a
matrix are `unsigned`: products of sizes are taken modulo 2^32.  The length of a vector is `unsigned` too;
that it stays below 2^32 elements (32 GB) is assumed in `push_back`.  Calls that the C++ compiler or the
scope rules exclude (an object that does not exist, a vector assigned to a matrix) do nothing. -/

namespace Rodeo.Heap

variable {K : Type}

/-- `unsigned` arithmetic. -/
def u32 (n : Nat) : Nat := n % 2 ^ 32

/-- A pointer: `none` is `nullptr`. -/
abbrev Ptr := Option Nat

/-- The elements of a block of storage; `none` is an indeterminate value. -/
abbrev Cells (K : Type) := List (Option K)

/-- The blocks that were ever allocated; `none` is a block that was freed. -/
abbrev Blocks (K : Type) := List (Option (Cells K))

inductive Kind where
  | matrix | vector
  deriving DecidableEq

/-- The members of a `mat` (INCLUDE/matrix.hpp 36-41) or a `vec` (INCLUDE/vector.hpp; `cols` is 1). -/
structure Obj where
  kind : Kind
  rows : Nat
  cols : Nat
  ptr : Ptr
  deriving DecidableEq

/-- The heap and the objects that exist, by name. -/
structure St (K : Type) where
  blocks : Blocks K
  objs : Nat → Option Obj

/-- At the start nothing exists. -/
def St.new : St K := ⟨[], fun _ => none⟩

/-- The calls of a program. -/
inductive Op (K : Type) where
  /-- `mat x(r, c, v)` -/
  | matrix (x r c : Nat) (v : K)
  /-- `vec x(n, v)` -/
  | vector (x n : Nat) (v : K)
  /-- `vec x{...}` -/
  | list (x : Nat) (l : List K)
  /-- `mat x` or `vec x` -/
  | empty (x : Nat) (kind : Kind)
  /-- `mat x(y)` or `vec x(y)` -/
  | copy (x y : Nat)
  /-- `mat x(std::move(y))` or `vec x(std::move(y))` -/
  | move (x y : Nat)
  /-- `x = y` -/
  | assign (x y : Nat)
  /-- `x = std::move(y)` -/
  | moveAssign (x y : Nat)
  | reset (x : Nat)
  /-- `x.resize(r, c)` of a matrix -/
  | resizeMatrix (x r c : Nat)
  /-- `x.resize(n, v)` of a vector -/
  | resizeVector (x n : Nat) (v : K)
  /-- `x.push_back(v)` of a vector -/
  | pushBack (x : Nat) (v : K)
  /-- `x.fill(v)` -/
  | fill (x : Nat) (v : K)
  /-- `x(i, j) = v` of a matrix, `x(i) = v` of a vector (`j` is 0) -/
  | set (x i j : Nat) (v : K)
  /-- `x(i, j)` of a matrix, `x(i)` of a vector (`j` is 0) -/
  | get (x i j : Nat)
  /-- `x.getNRows(), x.getNCols()` of a matrix, `x.getSize()` of a vector -/
  | shape (x : Nat)
  /-- `x.readFromCSV` of a matrix, for a file with these rows -/
  | read (x : Nat) (rows : List (List K))
  /-- the end of the scope of `x` -/
  | destroy (x : Nat)

inductive Answer (K : Type) where
  | done
  | value (v : K)
  | shape (r c : Nat)
  deriving DecidableEq

/-- `std::bad_alloc` -/
def badAlloc : Err := .runtimeError

/-- The elements that a pointer points to.  No element can be reached through `nullptr`. -/
def deref (bs : Blocks K) (p : Ptr) : Res (Cells K) :=
  match p with
  | none => .ok []
  | some a =>
    match bs[a]? with
    | some (some cells) => .ok cells
    | _ => .error .ub

/-- `delete[] p` -/
def free (bs : Blocks K) (p : Ptr) : Res (Blocks K) :=
  match p with
  | none => .ok bs
  | some a =>
    match bs[a]? with
    | some (some _) => .ok (bs.set a none)
    | _ => .error .ub

/-- New contents of the block that `p` points to. -/
def store (bs : Blocks K) (p : Ptr) (cells : Cells K) : Blocks K :=
  match p with
  | none => bs
  | some a => bs.set a (some cells)

/-- `std::copy(src, src + n, dst)` into a new block of `n` elements. -/
def copyCells (src : Cells K) (n : Nat) : Res (Cells K) :=
  forRange n (fun i d => do
    let v ← Mem.rd src i
    Mem.wr d i v) (Mem.alloc n)

/-- `std::fill(dst, dst + n, v)` -/
def fillCells (dst : Cells K) (n : Nat) (v : K) : Res (Cells K) := forRange n (fun i d => Mem.wr d i v) dst

/-- The new block in `mat::resize` (matrix.cpp 377-396). -/
def resizeCells [Zero K] (src : Cells K) (rows cols r c : Nat) : Res (Cells K) := do
  let d ← fillCells (Mem.alloc (u32 (r * c))) (u32 (r * c)) 0
  forRange (min cols c) (fun col d =>
    forRange (min rows r) (fun row d => do
      let v ← Mem.rd src (u32 (col * rows + row))
      Mem.wr d (u32 (col * r + row)) v) d) d

/-- The new block in `vec::resize` (vector.cpp 96-110). -/
def resizeVecCells (src : Cells K) (size n : Nat) (v : K) : Res (Cells K) := do
  let d ← forRange (min size n) (fun i d => do
    let w ← Mem.rd src i
    Mem.wr d i w) (Mem.alloc n)
  if n > size then forRange (n - size) (fun i d => Mem.wr d (size + i) v) d else .ok d

/-- The new block in `vec::push_back` (vector.cpp 484-495). -/
def pushCells (src : Cells K) (size : Nat) (v : K) : Res (Cells K) := do
  let d ← forRange size (fun i d => do
    let w ← Mem.rd src i
    Mem.wr d i w) (Mem.alloc (size + 1))
  Mem.wr d size v

/-- The number of elements of an object: `nrows * ncols`, or `size`. -/
def Obj.len (o : Obj) : Nat :=
  match o.kind with
  | .matrix => u32 (o.rows * o.cols)
  | .vector => o.rows

/-- The end of a call: an error leaves the state `s`. -/
def attempt {α : Type} (s : St K) (r : Res α) (f : α → St K × Res (Answer K)) : St K × Res (Answer K) :=
  match r with
  | .error e => (s, .error e)
  | .ok a => f a

/-- A new object `x` with a new block. -/
def place (s : St K) (x : Nat) (kind : Kind) (r c : Nat) (cells : Cells K) : St K :=
  ⟨s.blocks ++ [some cells], Function.update s.objs x (some ⟨kind, r, c, some s.blocks.length⟩)⟩

/-- Constructors with a size (matrix.cpp 60-63, 75-79; vector.cpp 53-59).  When `new` throws, there is no
object. -/
def construct (s : St K) (oom : Bool) (x : Nat) (kind : Kind) (r c : Nat) (v : K) : St K × Res (Answer K) :=
  let o : Obj := ⟨kind, r, c, none⟩
  if oom then (s, .error badAlloc)
  else attempt s (fillCells (Mem.alloc o.len) o.len v) fun d => (place s x kind r c d, .ok .done)

/-- Copy constructors (matrix.cpp 81-84, vector.cpp 61-63). -/
def copyConstruct (s : St K) (oom : Bool) (x : Nat) (y : Obj) : St K × Res (Answer K) :=
  if oom then (s, .error badAlloc)
  else attempt s (do
    let src ← deref s.blocks y.ptr
    copyCells src y.len) fun d => (place s x y.kind y.rows y.cols d, .ok .done)

/-- The move constructor (matrix.cpp 136-140). -/
def moveConstruct (s : St K) (x : Nat) (y : Nat) (o : Obj) : St K :=
  { s with objs := Function.update (Function.update s.objs x (some o)) y (some { o with rows := 0, cols := 0, ptr := none }) }

/-- Copy assignment (matrix.cpp 104-117, vector.cpp 69-81): the old block is freed and the sizes are
changed before the new block is allocated. -/
def copyAssign (s : St K) (oom : Bool) (x : Nat) (o o' : Obj) : St K × Res (Answer K) :=
  attempt s (free s.blocks o.ptr) fun bs =>
    let s1 : St K := ⟨bs, Function.update s.objs x (some { o' with ptr := o.ptr })⟩
    if oom then (s1, .error badAlloc)
    else attempt s1 (do
      let src ← deref bs o'.ptr
      copyCells src o'.len) fun d =>
        (place s1 x o'.kind o'.rows o'.cols d, .ok .done)

/-- Move assignment (matrix.cpp 119-132). -/
def moveAssign (s : St K) (x y : Nat) (o o' : Obj) : St K × Res (Answer K) :=
  attempt s (free s.blocks o.ptr) fun bs =>
    (⟨bs, Function.update (Function.update s.objs x (some o')) y
      (some { o' with rows := 0, cols := 0, ptr := none })⟩, .ok .done)

/-- A new block with new sizes replaces the old one: `mat::resize` (377-402), `vec::resize` (96-116),
`vec::push_back` (484-502). -/
def rebuild (s : St K) (oom : Bool) (x : Nat) (o : Obj) (r c : Nat) (cells : Cells K → Res (Cells K)) :
    St K × Res (Answer K) :=
  if oom then (s, .error badAlloc)
  else attempt s (do
    let src ← deref s.blocks o.ptr
    cells src) fun d => attempt s (free s.blocks o.ptr) fun bs =>
      (place ⟨bs, s.objs⟩ x o.kind r c d, .ok .done)

/-- `reset` (matrix.cpp 91-101, vector.cpp 90-94). -/
def reset (s : St K) (x : Nat) (o : Obj) : St K × Res (Answer K) :=
  attempt s (free s.blocks o.ptr) fun bs =>
    (⟨bs, Function.update s.objs x (some ⟨o.kind, 0, if o.kind = .vector then 1 else 0, none⟩)⟩, .ok .done)

/-- `fill` (matrix.cpp 405-407, vector.cpp 361-363). -/
def fillObj (s : St K) (o : Obj) (v : K) : St K × Res (Answer K) :=
  attempt s (do
    let d ← deref s.blocks o.ptr
    fillCells d o.len v) fun d => ({ s with blocks := store s.blocks o.ptr d }, .ok .done)

/-- The index of an element: `col * nrows + row` (matrix.cpp 145-157), `index` (vector.cpp 119-131). -/
def Obj.index (o : Obj) (i j : Nat) : Nat :=
  match o.kind with
  | .matrix => u32 (j * o.rows + i)
  | .vector => i

/-- `operator()` for writing. -/
def setObj (s : St K) (o : Obj) (i j : Nat) (v : K) : St K × Res (Answer K) :=
  if i ≥ o.rows ∨ j ≥ o.cols then (s, .error .outOfRange)
  else attempt s (do
    let d ← deref s.blocks o.ptr
    Mem.wr d (o.index i j) v) fun d => ({ s with blocks := store s.blocks o.ptr d }, .ok .done)

/-- `operator()` for reading. -/
def getObj (s : St K) (o : Obj) (i j : Nat) : St K × Res (Answer K) :=
  if i ≥ o.rows ∨ j ≥ o.cols then (s, .error .outOfRange)
  else attempt s (do
    let d ← deref s.blocks o.ptr
    Mem.rd d (o.index i j)) fun v => (s, .ok (.value v))

/-- The loop that fills the matrix in `readFromCSV` (matrix.cpp 1037-1044).  The cells that are written
before the exception stay written. -/
def readLoop (rows : List (List K)) (n m : Nat) : Nat → Nat → Cells K → Cells K × Res Unit
  | _, 0, d => (d, .ok ())
  | i, k + 1, d =>
    match rows[i]? with
    | none => (d, .error .ub)
    | some row =>
      if row.length ≠ m then (d, .error .runtimeError)
      else
        match forRange m (fun j d => do
          let v ← rawAt row j
          Mem.wr d (u32 (j * n + i)) v) d with
        | .error e => (d, .error e)
        | .ok d' => readLoop rows n m (i + 1) k d'

/-- `mat::readFromCSV` after the file was read (matrix.cpp 1022-1045): sizes are changed and the old
block is freed before the new block is allocated and the rows are checked. -/
def readObj (s : St K) (oom : Bool) (x : Nat) (o : Obj) (rows : List (List K)) : St K × Res (Answer K) :=
  match rows with
  | [] => (s, .error .runtimeError)
  | row0 :: _ =>
    attempt s (free s.blocks o.ptr) fun bs =>
      let n := rows.length
      let m := row0.length
      let s1 : St K := ⟨bs, Function.update s.objs x (some { o with rows := n, cols := m })⟩
      if oom then (s1, .error badAlloc)
      else
        let q := readLoop rows n m 0 n (Mem.alloc (u32 (n * m)))
        match q.2 with
        | .ok () => (place s1 x .matrix n m q.1, .ok .done)
        | .error e => (place s1 x .matrix n m q.1, .error e)

/-- The destructors (matrix.cpp 65-67, vector.cpp 83-85). -/
def destroy (s : St K) (x : Nat) (o : Obj) : St K × Res (Answer K) :=
  attempt s (free s.blocks o.ptr) fun bs => (⟨bs, Function.update s.objs x none⟩, .ok .done)

/-- One call; `oom` tells that an allocation in this call fails. -/
def step [Zero K] (s : St K) (op : Op K) (oom : Bool) : St K × Res (Answer K) :=
  match op with
  | .matrix x r c v =>
    if s.objs x = none then construct s oom x .matrix r c v else (s, .ok .done)
  | .vector x n v =>
    if s.objs x = none then construct s oom x .vector n 1 v else (s, .ok .done)
  | .list x l =>
    -- vector.cpp 65-67
    if s.objs x = none then
      if oom then (s, .error badAlloc)
      else attempt s (copyCells (l.map some) l.length) fun d =>
        (place s x .vector l.length 1 d, .ok .done)
    else (s, .ok .done)
  | .empty x kind =>
    -- matrix.cpp 70-71, vector.cpp 51
    if s.objs x = none then
      ({ s with objs := Function.update s.objs x (some ⟨kind, 0, if kind = .vector then 1 else 0, none⟩) },
        .ok .done)
    else (s, .ok .done)
  | .copy x y =>
    match s.objs x, s.objs y with
    | none, some o => copyConstruct s oom x o
    | _, _ => (s, .ok .done)
  | .move x y =>
    match s.objs x, s.objs y with
    | none, some o =>
      if o.kind = .matrix then (moveConstruct s x y o, .ok .done)
      else copyConstruct s oom x o
    | _, _ => (s, .ok .done)
  | .assign x y =>
    match s.objs x, s.objs y with
    | some o, some o' =>
      if o.kind ≠ o'.kind ∨ x = y then (s, .ok .done) else copyAssign s oom x o o'
    | _, _ => (s, .ok .done)
  | .moveAssign x y =>
    match s.objs x, s.objs y with
    | some o, some o' =>
      if o.kind ≠ o'.kind ∨ x = y then (s, .ok .done)
      else if o.kind = .matrix then moveAssign s x y o o'
      else copyAssign s oom x o o'
    | _, _ => (s, .ok .done)
  | .reset x =>
    match s.objs x with
    | some o => reset s x o
    | none => (s, .ok .done)
  | .resizeMatrix x r c =>
    match s.objs x with
    | some o =>
      if o.kind = .matrix then rebuild s oom x o r c (fun src => resizeCells src o.rows o.cols r c)
      else (s, .ok .done)
    | none => (s, .ok .done)
  | .resizeVector x n v =>
    match s.objs x with
    | some o =>
      if o.kind = .vector then rebuild s oom x o n 1 (fun src => resizeVecCells src o.rows n v)
      else (s, .ok .done)
    | none => (s, .ok .done)
  | .pushBack x v =>
    match s.objs x with
    | some o =>
      if o.kind = .vector then rebuild s oom x o (o.rows + 1) 1 (fun src => pushCells src o.rows v)
      else (s, .ok .done)
    | none => (s, .ok .done)
  | .fill x v =>
    match s.objs x with
    | some o => fillObj s o v
    | none => (s, .ok .done)
  | .set x i j v =>
    match s.objs x with
    | some o => setObj s o i j v
    | none => (s, .ok .done)
  | .get x i j =>
    match s.objs x with
    | some o => getObj s o i j
    | none => (s, .ok .done)
  | .shape x =>
    match s.objs x with
    | some o => (s, .ok (.shape o.rows o.cols))
    | none => (s, .ok .done)
  | .read x rows =>
    match s.objs x with
    | some o => if o.kind = .matrix then readObj s oom x o rows else (s, .ok .done)
    | none => (s, .ok .done)
  | .destroy x =>
    match s.objs x with
    | some o => destroy s x o
    | none => (s, .ok .done)

/-- A program: the calls with the information which of them run out of memory.  The caller catches the
exceptions. -/
def run [Zero K] (s : St K) : List (Op K × Bool) → St K × List (Res (Answer K))
  | [] => (s, [])
  | (op, oom) :: cs => ((run (step s op oom).1 cs).1, (step s op oom).2 :: (run (step s op oom).1 cs).2)

end Rodeo.Heap
