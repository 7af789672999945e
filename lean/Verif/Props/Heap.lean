import Verif.Lemmas.Heap
import Mathlib.Data.Rat.Defs
import Mathlib.Algebra.Field.Rat

/-! # Matrices and vectors are values (C108) -/

set_option linter.unusedSectionVars false

namespace Rodeo
open Heap Spec.Value

variable {K : Type} [Zero K]

/-- C108, full statement: in every program - whatever is constructed, copied, moved, assigned, resized,
filled, read and destroyed in which order, and whichever calls run out of memory - matrices and vectors
behave like independent values, no call touches memory that it does not own, and no memory is lost. -/
def C108_full : Prop :=
  ∀ calls : List (Op ℚ × Bool),
    (Heap.run St.new calls).2 = Spec.Value.run (fun _ => none) calls ∧
    Except.error Err.ub ∉ (Heap.run St.new calls).2 ∧
    NoLeak (Heap.run St.new calls).1

/-- One call keeps the correspondence between objects and values. -/
theorem Heap.step_fine {s : St K} {v : Vals K} (h : Inv s v) (op : Op K) (oom : Bool) (ho : Ordinary (op, oom)) :
    Fine (Heap.step s op oom) (Spec.Value.step v op oom) := by
  cases op with
  | matrix x r c a =>
    simp only [Heap.step, Spec.Value.step]
    by_cases hx : s.objs x = none
    · rw [if_pos hx, if_pos (by rw [h.gone hx]; rfl)]
      exact fine_construct h hx oom a (fun e => by cases e) (fun _ => ho)
    · rw [if_neg hx, if_neg (by rw [Option.isNone_iff_eq_none, ← (h.same x).none_iff]; exact hx)]
      exact fine_same h _
  | vector x n a =>
    simp only [Heap.step, Spec.Value.step]
    by_cases hx : s.objs x = none
    · rw [if_pos hx, if_pos (by rw [h.gone hx]; rfl)]
      exact fine_construct h hx oom a (fun _ => rfl) (fun e => by cases e)
    · rw [if_neg hx, if_neg (by rw [Option.isNone_iff_eq_none, ← (h.same x).none_iff]; exact hx)]
      exact fine_same h _
  | list x l =>
    simp only [Heap.step, Spec.Value.step]
    by_cases hx : s.objs x = none
    · have hv : (v x).isNone = true := by rw [h.gone hx]; rfl
      rw [if_pos hx, if_pos hv]
      unfold become
      cases oom with
      | true => exact fine_same h _
      | false =>
        simp only [Bool.false_eq_true, if_false]
        have hl : Rep1 (l.map some) l.length (fun i => some (l.getD i 0)) :=
          ⟨by simp, fun i hi => by simp [List.getD, hi]⟩
        exact attempt_ok (copyCells_ok hl) fun d hd => ⟨rfl, (h.absent hx).place rfl rfl rfl (fun _ => rfl)
          (fun e => by cases e) (rep2_one.2 hd)⟩
    · rw [if_neg hx, if_neg (by rw [Option.isNone_iff_eq_none, ← (h.same x).none_iff]; exact hx)]
      exact fine_same h _
  | empty x kind =>
    simp only [Heap.step, Spec.Value.step]
    by_cases hx : s.objs x = none
    · have hv : (v x).isNone = true := by rw [h.gone hx]; rfl
      rw [if_pos hx, if_pos hv]
      exact ⟨rfl, (h.absent hx).noBlock (q := some _) (w := some _) (shows_nothing s.blocks kind)
        fun q hq => by cases hq; rfl⟩
    · rw [if_neg hx, if_neg (by rw [Option.isNone_iff_eq_none, ← (h.same x).none_iff]; exact hx)]
      exact fine_same h _
  | copy x y =>
    simp only [Heap.step, Spec.Value.step]
    cases hx : s.objs x with
    | some o =>
      obtain ⟨w, hw, -⟩ := h.shows hx
      rw [hw]
      exact fine_same h _
    | none =>
      rw [h.gone hx]
      cases hy : s.objs y with
      | none => rw [h.gone hy]; exact fine_same h _
      | some o =>
        obtain ⟨w, hw, hs⟩ := h.shows hy
        rw [hw]
        exact fine_copy h hx oom hs
  | move x y =>
    simp only [Heap.step, Spec.Value.step]
    cases hx : s.objs x with
    | some o =>
      obtain ⟨w, hw, -⟩ := h.shows hx
      rw [hw]
      exact fine_same h _
    | none =>
      rw [h.gone hx]
      cases hy : s.objs y with
      | none => rw [h.gone hy]; exact fine_same h _
      | some o =>
        obtain ⟨w, hw, hs⟩ := h.shows hy
        rw [hw]
        dsimp only
        rw [← hs.kind]
        by_cases hk : o.kind = .matrix
        · rw [if_pos hk, if_pos hk]
          exact ⟨rfl, (h.absent hx).move (fun e => by rw [e, hx] at hy; cases hy) hy hw hk⟩
        · rw [if_neg hk, if_neg hk]
          exact fine_copy h hx oom hs
  | assign x y =>
    obtain rfl : oom = false := ho
    simp only [Heap.step, Spec.Value.step]
    cases hx : s.objs x with
    | none =>
      rw [h.gone hx]
      exact fine_same h _
    | some o =>
      obtain ⟨w, hw, hs⟩ := h.shows hx
      rw [hw]
      cases hy : s.objs y with
      | none => rw [h.gone hy]; exact fine_same h _
      | some o' =>
        obtain ⟨w', hw', hs'⟩ := h.shows hy
        rw [hw']
        dsimp only
        rw [← hs.kind, ← hs'.kind]
        by_cases hk : o.kind ≠ o'.kind ∨ x = y
        · rw [if_pos hk, if_pos hk]
          exact fine_same h _
        · rw [if_neg hk, if_neg hk]
          exact fine_assign h (fun e => hk (Or.inr e)) hx hy hs'
  | moveAssign x y =>
    obtain rfl : oom = false := ho
    simp only [Heap.step, Spec.Value.step]
    cases hx : s.objs x with
    | none =>
      rw [h.gone hx]
      exact fine_same h _
    | some o =>
      obtain ⟨w, hw, hs⟩ := h.shows hx
      rw [hw]
      cases hy : s.objs y with
      | none => rw [h.gone hy]; exact fine_same h _
      | some o' =>
        obtain ⟨w', hw', hs'⟩ := h.shows hy
        rw [hw']
        dsimp only
        rw [← hs.kind, ← hs'.kind]
        by_cases hk : o.kind ≠ o'.kind ∨ x = y
        · rw [if_pos hk, if_pos hk]
          exact fine_same h _
        · rw [if_neg hk, if_neg hk]
          by_cases hm : o.kind = .matrix
          · rw [if_pos hm, if_pos hm]
            have he : o.kind = o'.kind := by
              by_contra hne
              exact hk (Or.inl hne)
            exact fine_moveAssign h (fun e => hk (Or.inr e)) hx hy hw' (by rw [← he]; exact hm)
          · rw [if_neg hm, if_neg hm]
            exact fine_assign h (fun e => hk (Or.inr e)) hx hy hs'
  | reset x =>
    simp only [Heap.step, Spec.Value.step]
    cases hx : s.objs x with
    | none => rw [h.gone hx]; exact fine_same h _
    | some o =>
      obtain ⟨w, hw, hs⟩ := h.shows hx
      rw [hw]
      exact fine_reset h hx hs.kind
  | resizeMatrix x r c =>
    simp only [Heap.step, Spec.Value.step]
    cases hx : s.objs x with
    | none => rw [h.gone hx]; exact fine_same h _
    | some o =>
      obtain ⟨w, hw, hs⟩ := h.shows hx
      rw [hw]
      dsimp only
      rw [← hs.kind]
      by_cases hk : o.kind = .matrix
      · rw [if_pos hk, if_pos hk]
        refine fine_rebuild h hx oom hs hk rfl rfl (fun e => by rw [hk] at e; cases e) (fun _ => ho) fun src hsrc => ?_
        rw [← hs.rows, ← hs.cols]
        exact resizeCells_ok hsrc (hs.size hk) ho
      · rw [if_neg hk, if_neg hk]
        exact fine_same h _
  | resizeVector x n a =>
    simp only [Heap.step, Spec.Value.step]
    cases hx : s.objs x with
    | none => rw [h.gone hx]; exact fine_same h _
    | some o =>
      obtain ⟨w, hw, hs⟩ := h.shows hx
      rw [hw]
      dsimp only
      rw [← hs.kind]
      by_cases hk : o.kind = .vector
      · rw [if_pos hk, if_pos hk]
        refine fine_rebuild h hx oom hs hk rfl rfl (fun _ => rfl) (fun e => by rw [hk] at e; cases e) fun src hsrc => ?_
        rw [← hs.rows]
        rw [hs.one hk] at hsrc
        refine (resizeVecCells_ok (f := fun i => w.entry i 0) (rep2_one.1 hsrc) n a).mono fun d hd => ?_
        exact rep2_one.2 hd
      · rw [if_neg hk, if_neg hk]
        exact fine_same h _
  | pushBack x a =>
    simp only [Heap.step, Spec.Value.step]
    cases hx : s.objs x with
    | none => rw [h.gone hx]; exact fine_same h _
    | some o =>
      obtain ⟨w, hw, hs⟩ := h.shows hx
      rw [hw]
      dsimp only
      rw [← hs.kind]
      by_cases hk : o.kind = .vector
      · rw [if_pos hk, if_pos hk]
        refine fine_rebuild h hx oom hs hk (by rw [hs.rows]) rfl (fun _ => rfl)
          (fun e => by rw [hk] at e; cases e) fun src hsrc => ?_
        rw [← hs.rows]
        rw [hs.one hk] at hsrc
        refine (pushCells_ok (f := fun i => w.entry i 0) (rep2_one.1 hsrc) a).mono fun d hd => ?_
        exact rep2_one.2 hd
      · rw [if_neg hk, if_neg hk]
        exact fine_same h _
  | fill x a =>
    simp only [Heap.step, Spec.Value.step]
    cases hx : s.objs x with
    | none => rw [h.gone hx]; exact fine_same h _
    | some o =>
      obtain ⟨w, hw, hs⟩ := h.shows hx
      rw [hw]
      exact fine_fill h hx a hs
  | set x i j a =>
    simp only [Heap.step, Spec.Value.step]
    cases hx : s.objs x with
    | none => rw [h.gone hx]; exact fine_same h _
    | some o =>
      obtain ⟨w, hw, hs⟩ := h.shows hx
      rw [hw]
      exact fine_set h hx i j a hs
  | get x i j =>
    simp only [Heap.step, Spec.Value.step]
    cases hx : s.objs x with
    | none => rw [h.gone hx]; exact fine_same h _
    | some o =>
      obtain ⟨w, hw, hs⟩ := h.shows hx
      rw [hw]
      exact fine_get h i j hs
  | shape x =>
    simp only [Heap.step, Spec.Value.step]
    cases hx : s.objs x with
    | none => rw [h.gone hx]; exact fine_same h _
    | some o =>
      obtain ⟨w, hw, hs⟩ := h.shows hx
      rw [hw]
      dsimp only
      rw [hs.rows, hs.cols]
      exact fine_same h _
  | read x rows =>
    obtain ⟨rfl, hm, h32⟩ := ho
    simp only [Heap.step, Spec.Value.step]
    cases hx : s.objs x with
    | none => rw [h.gone hx]; exact fine_same h _
    | some o =>
      obtain ⟨w, hw, hs⟩ := h.shows hx
      rw [hw]
      dsimp only
      rw [← hs.kind]
      by_cases hk : o.kind = .matrix
      · rw [if_pos hk, if_pos hk]
        exact fine_read h hx rows hm h32
      · rw [if_neg hk, if_neg hk]
        exact fine_same h _
  | destroy x =>
    simp only [Heap.step, Spec.Value.step]
    cases hx : s.objs x with
    | none =>
      refine ⟨rfl, h.congr fun y => ?_⟩
      dsimp only
      by_cases hy : y = x
      · rw [hy, Function.update_self, h.gone hx]
      · rw [Function.update_of_ne hy]
    | some o => exact fine_destroy h hx

/-- The answers of the value semantics are never undefined behaviour. -/
theorem Spec.Value.step_defined (v : Vals K) (op : Op K) (oom : Bool) :
    (Spec.Value.step v op oom).2 ≠ .error .ub := by
  cases op <;> simp only [Spec.Value.step, become] <;> (repeat' split) <;>
    simp [badAlloc]

theorem Heap.run_fine (calls : List (Op K × Bool)) : ∀ {s : St K} {v : Vals K}, Inv s v →
    (∀ c ∈ calls, Ordinary c) →
    (Heap.run s calls).2 = Spec.Value.run v calls ∧ Except.error Err.ub ∉ (Heap.run s calls).2 ∧
      NoLeak (Heap.run s calls).1 := by
  induction calls with
  | nil => intro s v h _; exact ⟨rfl, by simp [Heap.run], h.owned⟩
  | cons c cs ih =>
    intro s v h hc
    obtain ⟨op, oom⟩ := c
    obtain ⟨h1, h2⟩ := Heap.step_fine h op oom (hc _ (by simp))
    obtain ⟨i1, i2, i3⟩ := ih h2 (fun c hm => hc c (by simp [hm]))
    refine ⟨?_, ?_, i3⟩
    · simp only [Heap.run, Spec.Value.run]
      rw [h1, i1]
    · simp only [Heap.run, List.mem_cons, not_or]
      refine ⟨?_, i2⟩
      rw [h1]
      exact (Spec.Value.step_defined v op oom).symm

/-- C108 for ordinary programs: no matrix of 2^32 or more elements, no lack of memory in an assignment or
when a file is read, and no file with rows of different lengths.  Any other call may run out of memory.
Missing: the programs of `C108_false`. -/
theorem C108_partial (calls : List (Op K × Bool)) (h : ∀ c ∈ calls, Ordinary c) :
    (Heap.run St.new calls).2 = Spec.Value.run (fun _ => none) calls ∧
    Except.error Err.ub ∉ (Heap.run St.new calls).2 ∧
    NoLeak (Heap.run St.new calls).1 :=
  Heap.run_fine calls inv_new h

/-- When all objects are destroyed, no memory is left allocated. -/
theorem C108_released (calls : List (Op K × Bool)) (h : ∀ c ∈ calls, Ordinary c)
    (hd : ∀ x, (Heap.run St.new calls).1.objs x = none) (a : Nat) (d : Cells K) :
    (Heap.run St.new calls).1.blocks[a]? ≠ some (some d) := by
  intro he
  obtain ⟨x, o, h1, -⟩ := (C108_partial calls h).2.2 a d he
  rw [hd x] at h1
  cases h1

/-- An assignment that runs out of memory leaves an object whose memory was released: its destructor
releases it again. -/
theorem C108_false : ¬ C108_full := by
  intro h
  have := (h [(.vector 0 2 1, false), (.vector 1 3 5, false), (.assign 0 1, true), (.destroy 0, false)]).2.1
  revert this
  decide +kernel

/-- The number of elements of a matrix is computed modulo 2^32: a matrix of 65536 x 65536 elements has no
element. -/
theorem C108_size : ¬ C108_full := by
  intro h
  have := (h [(.matrix 0 65536 65536 1, false), (.get 0 3 0, false)]).2.1
  revert this
  decide +kernel

/-- Reading a file with rows of different lengths throws, but the matrix has lost its value, and some of
its entries are indeterminate. -/
theorem C108_file : ¬ C108_full := by
  intro h
  have := (h [(.matrix 0 1 1 7, false), (.read 0 [[1, 2], [3]], false), (.get 0 1 1, false)]).2.1
  revert this
  decide +kernel

/-- A program with copies, moves, changes of size, lack of memory and the end of the scopes: the copy keeps
the old value, the moved matrix is empty. -/
def C108_program : List (Op ℚ × Bool) :=
  [(.matrix 0 2 2 1, false), (.copy 1 0, false), (.set 0 1 1 5, false), (.get 1 1 1, false), (.get 0 1 1, false),
   (.resizeMatrix 0 3 2, true), (.shape 0, false), (.resizeMatrix 0 3 2, false), (.get 0 1 1, false),
   (.move 2 0, false), (.shape 0, false), (.moveAssign 1 2, false), (.get 1 2 1, false), (.get 1 3 0, false),
   (.read 1 [[1, 2], [3, 4]], false), (.get 1 0 1, false),
   (.list 3 [1, 2], false), (.pushBack 3 9, false), (.get 3 2 0, false),
   (.destroy 0, false), (.destroy 1, false), (.destroy 2, false), (.destroy 3, false)]

example : (∀ c ∈ C108_program, Ordinary c) ∧
    (Heap.run St.new C108_program).2 =
      [.ok .done, .ok .done, .ok .done, .ok (.value 1), .ok (.value 5), .error badAlloc, .ok (.shape 2 2), .ok .done,
       .ok (.value 5), .ok .done, .ok (.shape 0 0), .ok .done, .ok (.value 0), .error .outOfRange, .ok .done,
       .ok (.value 2), .ok .done, .ok .done, .ok (.value 9), .ok .done, .ok .done, .ok .done, .ok .done] ∧
    (Heap.run St.new C108_program).1.blocks.all Option.isNone = true := by
  decide +kernel

example (x : Nat) : (Heap.run (St.new : St Nat) [(.vector 0 2 1, false), (.copy 1 0, false), (.destroy 0, false),
    (.destroy 1, false)]).1.objs x = none := by
  have e : (Heap.run (St.new : St Nat) [(.vector 0 2 1, false), (.copy 1 0, false), (.destroy 0, false),
      (.destroy 1, false)]).1.objs =
      Function.update (Function.update (Function.update (Function.update (fun _ => none) 0
        (some ⟨.vector, 2, 1, some 0⟩)) 1 (some ⟨.vector, 2, 1, some 1⟩)) 0 none) 1 none := rfl
  rw [e]
  simp only [Function.update_apply]
  split_ifs <;> rfl

end Rodeo
