import Verif.Spec.Heap
import Verif.Lemmas.Rep1

set_option linter.unusedSectionVars false

namespace Rodeo.Heap
open Spec.Value

variable {K : Type} [Zero K]

/-! ## The loops -/

theorem u32_of_lt {n : Nat} (h : n < 2 ^ 32) : u32 n = n := Nat.mod_eq_of_lt h

theorem copyCells_ok {src : Cells K} {n : Nat} {f : Nat → K} (h : Rep1 src n (fun i => some (f i))) :
    OkP (copyCells src n) (fun d => Rep1 d n (fun i => some (f i))) := by
  unfold copyCells
  obtain ⟨d, e, hd⟩ := forRange_inv (n := n) (s := (Mem.alloc n : Cells K)) (body := fun i d => do
      let v ← Mem.rd src i
      Mem.wr d i v)
    (fun k d => Rep1 d n (fun i => if i < k then some (f i) else none))
    ((rep1_alloc n).congr fun i _ => by simp) (by
      intro j d hj hd
      refine bind_okP (h.rd hj rfl) ?_
      refine (hd.wr hj).mono fun d' h' => h'.congr fun a _ => ?_
      by_cases h1 : a = j
      · subst h1; simp
      · have : a < j + 1 ↔ a < j := by omega
        simp [h1, this])
  exact ⟨d, e, hd.congr fun i hi => by simp [hi]⟩

theorem fillCells_ok {dst : Cells K} {n : Nat} (v : K) (h : dst.length = n) :
    OkP (fillCells dst n v) (fun d => Rep1 d n (fun _ => some v)) := by
  unfold fillCells
  obtain ⟨d, e, hd⟩ := forRange_inv (n := n) (s := dst) (body := fun i d => Mem.wr d i v)
    (fun k d => d.length = n ∧ ∀ i, i < k → d[i]? = some (some v))
    ⟨h, by omega⟩ (by
      intro j d hj hd
      refine ⟨d.set j (some v), Mem.wr_ok (by rw [hd.1]; exact hj), by simp [hd.1], ?_⟩
      intro a ha
      rw [List.getElem?_set]
      by_cases hc : j = a
      · subst hc
        rw [if_pos rfl, if_pos (by rw [hd.1]; exact hj)]
      · rw [if_neg hc]
        exact hd.2 a (by omega))
  exact ⟨d, e, hd⟩

theorem rep1_iff_rep2 {d : Cells K} {n m : Nat} {f : Nat → Option K} {F : Nat → Nat → Option K}
    (hF : ∀ i j, i < n → j < m → F i j = f (j * n + i)) (h : Rep1 d (n * m) f) : Rep2 d n m F :=
  ⟨h.1, fun i j hi hj => by rw [h.2 _ (colmajor_lt hi hj), hF i j hi hj]⟩

theorem rep2_flat {d : Cells K} {n m : Nat} {F : Nat → Nat → K} (h : Rep2 d n m (fun i j => some (F i j))) :
    Rep1 d (n * m) (fun k => some (F (k % n) (k / n))) := by
  refine ⟨h.1, fun k hk => ?_⟩
  obtain ⟨i, j, hi, hj, rfl⟩ := colmajor_split hk
  have h1 : (j * n + i) / n = j := by
    rw [Nat.mul_comm, Nat.mul_add_div (by omega), Nat.div_eq_of_lt hi]; omega
  have h2 : (j * n + i) % n = i := by
    rw [Nat.add_comm, Nat.add_mul_mod_self_right, Nat.mod_eq_of_lt hi]
  dsimp only
  rw [h.2 i j hi hj, h1, h2]

theorem copyCells_ok2 {src : Cells K} {n m : Nat} {F : Nat → Nat → K}
    (h : Rep2 src n m (fun i j => some (F i j))) :
    OkP (copyCells src (n * m)) (fun d => Rep2 d n m (fun i j => some (F i j))) := by
  refine (copyCells_ok (rep2_flat h)).mono fun d hd => rep1_iff_rep2 (fun i j hi hj => ?_) hd
  have h1 : (j * n + i) / n = j := by
    rw [Nat.mul_comm, Nat.mul_add_div (by omega), Nat.div_eq_of_lt hi]; omega
  have h2 : (j * n + i) % n = i := by
    rw [Nat.add_comm, Nat.add_mul_mod_self_right, Nat.mod_eq_of_lt hi]
  rw [h1, h2]

theorem fillCells_ok2 {dst : Cells K} {n m : Nat} (v : K) (h : dst.length = n * m) :
    OkP (fillCells dst (n * m) v) (fun d => Rep2 d n m (fun _ _ => some v)) :=
  (fillCells_ok v h).mono fun _ hd => rep1_iff_rep2 (fun _ _ _ _ => rfl) hd

theorem resizeCells_ok {src : Cells K} {n m : Nat} {F : Nat → Nat → K}
    (h : Rep2 src n m (fun i j => some (F i j))) (h1 : n * m < 2 ^ 32) {r c : Nat} (h2 : r * c < 2 ^ 32) :
    OkP (resizeCells src n m r c)
      (fun d => Rep2 d r c (fun i j => some (if i < n ∧ j < m then F i j else 0))) := by
  unfold resizeCells
  rw [u32_of_lt h2]
  refine OkP.bind (fillCells_ok2 0 (by simp)) fun d0 h0 => ?_
  refine (Mat.okP_for (fun k d => Rep2 d r c (fun i j =>
      if j < k ∧ i < n then some (F i j) else some 0)) ?_ ?_).mono ?_
  · exact h0.start (by omega)
  · intro k d hk hd
    refine (Mat.okP_for (fun q d => Rep2 d r c (fun i j =>
      if (j < k ∧ i < n) ∨ (j = k ∧ i < q) then some (F i j) else some 0)) ?_ ?_).mono ?_
    · exact hd.cond (by omega)
    · intro q d hq hd
      have e1 : u32 (k * n + q) = k * n + q :=
        u32_of_lt (lt_trans (colmajor_lt (show q < n by omega) (show k < m by omega)) h1)
      have e2 : u32 (k * r + q) = k * r + q :=
        u32_of_lt (lt_trans (colmajor_lt (show q < r by omega) (show k < c by omega)) h2)
      rw [e1, e2]
      refine bind_okP (h.rd (i := q) (j := k) (by omega) (by omega) rfl rfl) ?_
      exact hd.wr_next q k (by omega) (by omega) rfl rfl (by omega)
    · intro d hd
      exact hd.cond (by omega)
  · intro d hd
    refine hd.congr fun i j hi hj => ?_
    by_cases hc : i < n ∧ j < m
    · rw [if_pos (by omega), if_pos hc]
    · rw [if_neg (by omega), if_neg hc]

theorem rep2_one {d : Cells K} {n : Nat} {F : Nat → Nat → Option K} : Rep2 d n 1 F ↔ Rep1 d n (fun i => F i 0) := by
  constructor
  · intro h
    refine ⟨by simpa using h.1, fun i hi => ?_⟩
    have := h.2 i 0 hi (by norm_num)
    simpa using this
  · intro h
    refine ⟨by simpa using h.1, fun i j hi hj => ?_⟩
    obtain rfl : j = 0 := by omega
    simpa using h.2 i hi

theorem resizeVecCells_ok {src : Cells K} {n : Nat} {f : Nat → K} (h : Rep1 src n (fun i => some (f i))) (m : Nat)
    (v : K) : OkP (resizeVecCells src n m v) (fun d => Rep1 d m (fun i => some (if i < n then f i else v))) := by
  unfold resizeVecCells
  refine OkP.bind (P := fun d => Rep1 d m (fun i => if i < n then some (f i) else none)) ?_ fun d hd => ?_
  · refine (Mat.okP_for (fun k d => Rep1 d m (fun i => if i < k then some (f i) else none)) ?_ ?_).mono ?_
    · exact (rep1_alloc m).congr fun i _ => by simp
    · intro j d hj hd
      refine bind_okP (h.rd (by omega) rfl) ?_
      refine (hd.wr (by omega)).mono fun d' h' => h'.congr fun a _ => ?_
      by_cases h1 : a = j
      · subst h1; simp
      · have : a < j + 1 ↔ a < j := by omega
        simp [h1, this]
    · intro d hd
      refine hd.congr fun i hi => ?_
      by_cases h1 : i < n
      · rw [if_pos (by omega), if_pos h1]
      · rw [if_neg (by omega), if_neg h1]
  · split_ifs with hm
    · refine (Mat.okP_for (fun k d => Rep1 d m (fun i => if i < n then some (f i) else
        if i < n + k then some v else none)) ?_ ?_).mono ?_
      · refine hd.congr fun i _ => ?_
        by_cases h1 : i < n
        · simp [h1]
        · simp [h1]
      · intro j d hj hd
        refine (hd.wr (by omega)).mono fun d' h' => h'.congr fun a _ => ?_
        by_cases h1 : a = n + j
        · subst h1; simp
        · have : a < n + (j + 1) ↔ a < n + j := by omega
          simp only [h1, if_false, this]
      · intro d hd
        refine hd.congr fun i hi => ?_
        by_cases h1 : i < n
        · simp [h1]
        · rw [if_neg h1, if_pos (by omega), if_neg h1]
    · refine okP_ok (hd.congr fun i hi => ?_)
      rw [if_pos (by omega), if_pos (by omega)]

theorem pushCells_ok {src : Cells K} {n : Nat} {f : Nat → K} (h : Rep1 src n (fun i => some (f i)))
    (v : K) : OkP (pushCells src n v) (fun d => Rep1 d (n + 1) (fun i => some (if i < n then f i else v))) := by
  unfold pushCells
  refine OkP.bind (P := fun d => Rep1 d (n + 1) (fun i => if i < n then some (f i) else none)) ?_ fun d hd => ?_
  · refine Mat.okP_for (fun k d => Rep1 d (n + 1) (fun i => if i < k then some (f i) else none)) ?_ ?_
    · exact (rep1_alloc _).congr fun i _ => by simp
    · intro j d hj hd
      refine bind_okP (h.rd (by omega) rfl) ?_
      refine (hd.wr (by omega)).mono fun d' h' => h'.congr fun a _ => ?_
      by_cases h1 : a = j
      · subst h1; simp
      · have : a < j + 1 ↔ a < j := by omega
        simp [h1, this]
  · refine (hd.wr (by omega)).mono fun d' h' => h'.congr fun a ha => ?_
    by_cases h1 : a = n
    · subst h1; simp
    · have : a < n := by omega
      simp [h1, this]

theorem readLoop_ok {rows : List (List K)} {n m : Nat} (hn : rows.length = n) (hm : ∀ row ∈ rows, row.length = m)
    (h32 : n * m < 2 ^ 32) : ∀ (k i : Nat) (d : Cells K), i + k = n →
      Rep2 d n m (fun a b => if a < i then some ((rows.getD a []).getD b 0) else none) →
      ∃ d', readLoop rows n m i k d = (d', .ok ()) ∧ Rep2 d' n m (fun a b => some ((rows.getD a []).getD b 0)) := by
  intro k
  induction k with
  | zero =>
    intro i d hi hd
    exact ⟨d, rfl, hd.congr fun a b ha _ => by rw [if_pos (by omega)]⟩
  | succ k ih =>
    intro i d hi hd
    have hlt : i < rows.length := by omega
    have hrow : rows[i]? = some rows[i] := List.getElem?_eq_getElem hlt
    have hlen := hm rows[i] (List.getElem_mem hlt)
    unfold readLoop
    rw [hrow]
    dsimp only
    rw [if_neg (by simp [hlen])]
    obtain ⟨d', e, h'⟩ : OkP (forRange m (fun j d => do
          let v ← rawAt rows[i] j
          Mem.wr d (u32 (j * n + i)) v) d) (fun d => Rep2 d n m (fun a b =>
            if a < i + 1 then some ((rows.getD a []).getD b 0) else none)) := by
      refine (Mat.okP_for (fun q d => Rep2 d n m (fun a b =>
        if a < i ∨ a = i ∧ b < q then some ((rows.getD a []).getD b 0) else none)) ?_ ?_).mono ?_
      · exact hd.cond (by omega)
      · intro q d hq hd
        rw [u32_of_lt (lt_trans (colmajor_lt (show i < n by omega) hq) h32)]
        have e : rawAt rows[i] q = .ok ((rows.getD i []).getD q 0) := by
          unfold rawAt
          rw [List.getElem?_eq_getElem (by omega)]
          simp [List.getD, hlt, hlen, hq]
        refine bind_okP e ?_
        exact hd.wr_next i q (by omega) hq rfl rfl (by omega)
      · intro d hd
        exact hd.cond (by omega)
    rw [e]
    exact ih (i + 1) d' (by omega) h'

/-! ## Objects and their values -/

/-- The object holds this value. -/
structure Shows (bs : Blocks K) (o : Obj) (w : Val K) : Prop where
  kind : o.kind = w.kind
  rows : o.rows = w.rows
  cols : o.cols = w.cols
  one : o.kind = .vector → o.cols = 1
  size : o.kind = .matrix → o.rows * o.cols < 2 ^ 32
  cells : ∃ d, deref bs o.ptr = .ok d ∧ Rep2 d o.rows o.cols (fun i j => some (w.entry i j))

theorem Shows.len {bs : Blocks K} {o : Obj} {w : Val K} (h : Shows bs o w) : o.len = o.rows * o.cols := by
  unfold Obj.len
  split
  · exact u32_of_lt (h.size (by assumption))
  · rw [h.one (by assumption), mul_one]

theorem Shows.index {bs : Blocks K} {o : Obj} {w : Val K} (h : Shows bs o w) {i j : Nat} (hi : i < o.rows)
    (hj : j < o.cols) : o.index i j = j * o.rows + i := by
  unfold Obj.index
  split
  · exact u32_of_lt (lt_trans (colmajor_lt hi hj) (h.size (by assumption)))
  · have := h.one (by assumption)
    obtain rfl : j = 0 := by omega
    simp

def Same (bs : Blocks K) : Option Obj → Option (Val K) → Prop
  | none, none => True
  | some o, some w => Shows bs o w
  | _, _ => False

theorem Same.none_iff {bs : Blocks K} {o : Option Obj} {w : Option (Val K)} (h : Same bs o w) :
    o = none ↔ w = none := by
  cases o <;> cases w <;> simp_all [Same]

/-- The objects other than `x` hold their values, have their own blocks, and own all blocks. -/
structure InvX (bs : Blocks K) (objs : Nat → Option Obj) (v : Vals K) (x : Nat) : Prop where
  same : ∀ y, y ≠ x → Same bs (objs y) (v y)
  inj : ∀ y z o o' a, y ≠ x → z ≠ x → objs y = some o → objs z = some o' → o.ptr = some a →
    o'.ptr = some a → y = z
  owned : ∀ a d, bs[a]? = some (some d) → ∃ y o, y ≠ x ∧ objs y = some o ∧ o.ptr = some a

/-- All objects hold their values, have their own blocks, and own all blocks. -/
structure Inv (s : St K) (v : Vals K) : Prop where
  same : ∀ y, Same s.blocks (s.objs y) (v y)
  inj : ∀ y z o o' a, s.objs y = some o → s.objs z = some o' → o.ptr = some a → o'.ptr = some a → y = z
  owned : ∀ a d, s.blocks[a]? = some (some d) → ∃ y o, s.objs y = some o ∧ o.ptr = some a

theorem inv_new : Inv (St.new : St K) (fun _ => none) :=
  ⟨fun _ => trivial, fun _ _ _ _ _ h => (by cases h), fun a d h => by simp [St.new] at h⟩

theorem InvX.congr {bs : Blocks K} {objs objs' : Nat → Option Obj} {v v' : Vals K} {x : Nat} (h : InvX bs objs v x)
    (ho : ∀ y, y ≠ x → objs' y = objs y) (hv : ∀ y, y ≠ x → v' y = v y) : InvX bs objs' v' x := by
  refine ⟨fun y hy => by rw [ho y hy, hv y hy]; exact h.same y hy, fun y z o o' a hy hz h1 h2 => ?_, fun a d ha => ?_⟩
  · rw [ho y hy] at h1
    rw [ho z hz] at h2
    exact h.inj y z o o' a hy hz h1 h2
  · obtain ⟨y, o, h1, h2, h3⟩ := h.owned a d ha
    exact ⟨y, o, h1, by rw [ho y h1]; exact h2, h3⟩

theorem Inv.absent {s : St K} {v : Vals K} (h : Inv s v) {x : Nat} (hx : s.objs x = none) :
    InvX s.blocks s.objs v x := by
  refine ⟨fun y _ => h.same y, fun y z o o' a _ _ => h.inj y z o o' a, fun a d ha => ?_⟩
  obtain ⟨y, o, h1, h2⟩ := h.owned a d ha
  exact ⟨y, o, fun e => (by rw [e, hx] at h1; cases h1), h1, h2⟩

theorem Inv.shows {s : St K} {v : Vals K} (h : Inv s v) {x : Nat} {o : Obj} (hx : s.objs x = some o) :
    ∃ w, v x = some w ∧ Shows s.blocks o w := by
  have := h.same x
  rw [hx] at this
  cases hv : v x with
  | none => rw [hv] at this; cases this
  | some w => rw [hv] at this; exact ⟨w, rfl, this⟩

theorem Inv.gone {s : St K} {v : Vals K} (h : Inv s v) {x : Nat} (hx : s.objs x = none) : v x = none :=
  (h.same x).none_iff.1 hx

theorem Inv.congr {s : St K} {v v' : Vals K} (h : Inv s v) (hv : ∀ y, v' y = v y) : Inv s v' := by
  rwa [show v' = v from funext hv]

theorem Shows.keep {bs bs' : Blocks K} {o : Obj} {w : Val K} (h : Shows bs o w)
    (hk : ∀ a d, o.ptr = some a → bs[a]? = some (some d) → bs'[a]? = some (some d)) : Shows bs' o w := by
  obtain ⟨d, h1, h2⟩ := h.cells
  refine ⟨h.kind, h.rows, h.cols, h.one, h.size, d, ?_, h2⟩
  unfold deref at h1 ⊢
  cases hp : o.ptr with
  | none => rw [hp] at h1; exact h1
  | some a =>
    rw [hp] at h1
    dsimp only at h1 ⊢
    split at h1
    · rename_i d' e
      rw [hk a d' hp e]
      exact h1
    · cases h1

theorem Same.keep {bs bs' : Blocks K} {o : Option Obj} {w : Option (Val K)} (h : Same bs o w)
    (hk : ∀ q a d, o = some q → q.ptr = some a → bs[a]? = some (some d) → bs'[a]? = some (some d)) :
    Same bs' o w := by
  cases o with
  | none => cases w <;> simp_all [Same]
  | some q =>
    cases w with
    | none => cases h
    | some w => exact Shows.keep h (fun a d h1 h2 => hk q a d rfl h1 h2)

/-- Freeing the block of an object. -/
theorem Inv.free {s : St K} {v : Vals K} (h : Inv s v) {x : Nat} {o : Obj} (hx : s.objs x = some o) :
    ∃ bs, Heap.free s.blocks o.ptr = .ok bs ∧ InvX bs s.objs v x ∧
      ∀ y o', y ≠ x → s.objs y = some o' → deref bs o'.ptr = deref s.blocks o'.ptr := by
  obtain ⟨w, -, hw⟩ := h.shows hx
  obtain ⟨d, hd, -⟩ := hw.cells
  cases hp : o.ptr with
  | none =>
    refine ⟨s.blocks, rfl, ⟨fun y _ => h.same y, fun y z o o' a _ _ => h.inj y z o o' a, fun a d ha => ?_⟩,
      fun _ _ _ _ => rfl⟩
    obtain ⟨y, q, h1, h2⟩ := h.owned a d ha
    exact ⟨y, q, fun e => (by rw [e, hx] at h1; cases h1; rw [hp] at h2; cases h2), h1, h2⟩
  | some a =>
    rw [hp] at hd
    unfold deref at hd
    dsimp only at hd
    split at hd
    · rename_i d' e
      have hset : ∀ b, b ≠ a → (s.blocks.set a none)[b]? = s.blocks[b]? := fun b hb => by
        rw [List.getElem?_set, if_neg (fun h => hb h.symm)]
      refine ⟨s.blocks.set a none, by unfold Heap.free; dsimp only; rw [e], ⟨fun y hy => ?_,
        fun y z o o' a _ _ => h.inj y z o o' a, fun b c hb => ?_⟩, fun y o' hy ho' => ?_⟩
      · refine (h.same y).keep fun q b c h1 h2 h3 => ?_
        rw [hset b (fun hb => hy (h.inj y x q o a h1 hx (by rw [h2, hb]) hp))]
        exact h3
      · have hne : b ≠ a := by
          rintro rfl
          rw [List.getElem?_set, if_pos rfl] at hb
          split_ifs at hb
          simp at hb
        rw [hset b hne] at hb
        obtain ⟨y, q, h1, h2⟩ := h.owned b c hb
        exact ⟨y, q, fun e => (by rw [e, hx] at h1; cases h1; rw [hp] at h2; cases h2; exact hne rfl), h1, h2⟩
      · unfold deref
        cases hq : o'.ptr with
        | none => rfl
        | some b =>
          dsimp only
          rw [hset b (fun hb => hy (h.inj y x o' o a ho' hx (by rw [hq, hb]) hp))]
    · cases hd

/-- A new block for `x`. -/
theorem InvX.place {bs : Blocks K} {objs : Nat → Option Obj} {v : Vals K} {x : Nat} (h : InvX bs objs v x)
    {kind : Kind} {r c : Nat} {d : Cells K} {w : Val K} (hk : kind = w.kind) (hr : r = w.rows) (hc : c = w.cols)
    (h1 : kind = .vector → c = 1) (h32 : kind = .matrix → r * c < 2 ^ 32)
    (hd : Rep2 d r c (fun i j => some (w.entry i j))) :
    Inv (Heap.place ⟨bs, objs⟩ x kind r c d) (Function.update v x (some w)) := by
  have hold : ∀ (b : Nat) (q : Cells K), bs[b]? = some (some q) → (bs ++ [some d])[b]? = some (some q) := by
    intro b q hb
    rw [List.getElem?_append_left (by
      by_contra hlt
      rw [List.getElem?_eq_none (by omega)] at hb
      cases hb)]
    exact hb
  have hlt : ∀ y o a, y ≠ x → objs y = some o → o.ptr = some a → a < bs.length := by
    intro y o a hy ho ha
    have := h.same y hy
    rw [ho] at this
    cases hv : v y with
    | none => rw [hv] at this; cases this
    | some w' =>
      rw [hv] at this
      obtain ⟨q, hq, -⟩ := Shows.cells this
      rw [ha] at hq
      unfold deref at hq
      by_contra hle
      dsimp only at hq
      rw [List.getElem?_eq_none (by omega)] at hq
      cases hq
  unfold Heap.place
  refine ⟨fun y => ?_, fun y z o o' a hy hz ha ha' => ?_, fun a q hq => ?_⟩
  · by_cases hy : y = x
    · subst hy
      simp only [Function.update_self]
      refine ⟨hk, hr, hc, h1, h32, d, ?_, hd⟩
      simp [deref]
    · simp only [Function.update_of_ne hy]
      exact (h.same y hy).keep fun o a c _ _ h3 => hold a c h3
  · by_cases h2 : y = x <;> by_cases h3 : z = x
    · rw [h2, h3]
    · subst h2
      simp only [Function.update_self, Option.some.injEq] at hy
      simp only [Function.update_of_ne h3] at hz
      subst hy
      have := hlt z o' a h3 hz ha'
      simp only [Option.some.injEq] at ha
      omega
    · subst h3
      simp only [Function.update_self, Option.some.injEq] at hz
      simp only [Function.update_of_ne h2] at hy
      subst hz
      have := hlt y o a h2 hy ha
      simp only [Option.some.injEq] at ha'
      omega
    · simp only [Function.update_of_ne h2] at hy
      simp only [Function.update_of_ne h3] at hz
      exact h.inj y z o o' a h2 h3 hy hz ha ha'
  · by_cases hlt' : a < bs.length
    · rw [List.getElem?_append_left hlt'] at hq
      obtain ⟨y, o, e1, e2, e3⟩ := h.owned a q hq
      exact ⟨y, o, by simp only [Function.update_of_ne e1]; exact e2, e3⟩
    · have : a = bs.length := by
        by_contra hne
        rw [List.getElem?_eq_none (by simp; omega)] at hq
        cases hq
      exact ⟨x, _, Function.update_self .., by rw [this]⟩

/-- `x` is without a block. -/
theorem InvX.noBlock {bs : Blocks K} {objs : Nat → Option Obj} {v : Vals K} {x : Nat} (h : InvX bs objs v x)
    {q : Option Obj} {w : Option (Val K)} (hq : Same bs q w) (hp : ∀ o, q = some o → o.ptr = none) :
    Inv ⟨bs, Function.update objs x q⟩ (Function.update v x w) := by
  refine ⟨fun y => ?_, fun y z o o' a hy hz ha ha' => ?_, fun a d hd => ?_⟩
  · by_cases hy : y = x
    · subst hy
      simpa only [Function.update_self] using hq
    · simp only [Function.update_of_ne hy]
      exact h.same y hy
  · have hne : ∀ y o, (Function.update objs x q) y = some o → o.ptr = some a → y ≠ x := by
      rintro y o h1 h2 rfl
      rw [Function.update_self] at h1
      rw [hp o h1] at h2
      cases h2
    have h2 := hne y o hy ha
    have h3 := hne z o' hz ha'
    simp only [Function.update_of_ne h2] at hy
    simp only [Function.update_of_ne h3] at hz
    exact h.inj y z o o' a h2 h3 hy hz ha ha'
  · obtain ⟨y, o, e1, e2, e3⟩ := h.owned a d hd
    exact ⟨y, o, by simp only [Function.update_of_ne e1]; exact e2, e3⟩

theorem shows_nothing (bs : Blocks K) (kind : Kind) :
    Shows bs ⟨kind, 0, if kind = .vector then 1 else 0, none⟩ (nothing kind) :=
  ⟨rfl, rfl, rfl, fun h => if_pos h, fun _ => by norm_num, [], rfl, by simp, by simp⟩

/-- `x` takes over the block of `y`. -/
theorem InvX.move {bs : Blocks K} {objs : Nat → Option Obj} {v : Vals K} {x y : Nat} (h : InvX bs objs v x)
    (hxy : y ≠ x) {o : Obj} {w : Val K} (ho : objs y = some o) (hw : v y = some w) (hk : o.kind = .matrix) :
    Inv ⟨bs, Function.update (Function.update objs x (some o)) y (some { o with rows := 0, cols := 0, ptr := none })⟩
      (Function.update (Function.update v x (some w)) y (some (nothing .matrix))) := by
  have hs := h.same y hxy
  rw [ho, hw] at hs
  have hz : ∀ z, z ≠ x → z ≠ y → (Function.update (Function.update objs x (some o)) y
      (some { o with rows := 0, cols := 0, ptr := none })) z = objs z := by
    intro z h1 h2
    rw [Function.update_of_ne h2, Function.update_of_ne h1]
  have hX : (Function.update (Function.update objs x (some o)) y
      (some { o with rows := 0, cols := 0, ptr := none })) x = some o := by
    rw [Function.update_of_ne (Ne.symm hxy), Function.update_self]
  have hY : (Function.update (Function.update objs x (some o)) y
      (some { o with rows := 0, cols := 0, ptr := none })) y = some { o with rows := 0, cols := 0, ptr := none } :=
    Function.update_self ..
  refine ⟨fun z => ?_, fun z z' q q' a h1 h2 h3 h4 => ?_, fun a d hd => ?_⟩
  · show Same bs ((Function.update (Function.update objs x (some o)) y
      (some { o with rows := 0, cols := 0, ptr := none })) z) _
    by_cases h1 : z = y
    · subst h1
      rw [hY, Function.update_self]
      simp only [Same, hk]
      exact shows_nothing bs .matrix
    · by_cases h2 : z = x
      · subst h2
        rw [hX, Function.update_of_ne h1, Function.update_self]
        exact hs
      · rw [hz z h2 h1, Function.update_of_ne h1, Function.update_of_ne h2]
        exact h.same z h2
  · -- the name that owned the block before
    have key : ∀ z q, (Function.update (Function.update objs x (some o)) y
        (some { o with rows := 0, cols := 0, ptr := none })) z = some q → q.ptr = some a →
        z ≠ y ∧ ((z = x ∧ o.ptr = some a) ∨ (z ≠ x ∧ objs z = some q)) := by
      intro z q e1 e2
      have hzy : z ≠ y := by
        rintro rfl
        rw [hY] at e1
        cases e1
        cases e2
      refine ⟨hzy, ?_⟩
      by_cases hzx : z = x
      · subst hzx
        rw [hX] at e1
        cases e1
        exact Or.inl ⟨rfl, e2⟩
      · rw [hz z hzx hzy] at e1
        exact Or.inr ⟨hzx, e1⟩
    obtain ⟨n1, k1⟩ := key z q h1 h3
    obtain ⟨n2, k2⟩ := key z' q' h2 h4
    rcases k1 with ⟨rfl, p1⟩ | ⟨m1, p1⟩
    · rcases k2 with ⟨rfl, -⟩ | ⟨m2, p2⟩
      · rfl
      · exact absurd (h.inj z' y q' o a m2 hxy p2 ho h4 p1) n2
    · rcases k2 with ⟨rfl, p2⟩ | ⟨m2, p2⟩
      · exact absurd (h.inj z y q o a m1 hxy p1 ho h3 p2) n1
      · exact h.inj z z' q q' a m1 m2 p1 p2 h3 h4
  · obtain ⟨z, q, e1, e2, e3⟩ := h.owned a d hd
    by_cases h1 : z = y
    · subst h1
      rw [ho] at e2
      cases e2
      exact ⟨x, o, hX, e3⟩
    · exact ⟨z, q, (hz z e1 h1).trans e2, e3⟩

/-- New contents for the block of `x`. -/
theorem Inv.store {s : St K} {v : Vals K} (h : Inv s v) {x : Nat} {o : Obj} (hx : s.objs x = some o) {w : Val K}
    {d : Cells K} (hk : o.kind = w.kind) (hr : o.rows = w.rows) (hc : o.cols = w.cols)
    (hd : Rep2 d o.rows o.cols (fun i j => some (w.entry i j))) :
    Inv { s with blocks := Heap.store s.blocks o.ptr d } (Function.update v x (some w)) := by
  obtain ⟨w0, hw0, hs⟩ := h.shows hx
  obtain ⟨d0, hd0, hrep⟩ := hs.cells
  cases hp : o.ptr with
  | none =>
    rw [hp] at hd0
    cases hd0
    have hd1 : d = [] := by
      have := hd.1
      rw [← hrep.1] at this
      exact List.length_eq_zero_iff.1 this
    subst hd1
    refine ⟨fun y => ?_, h.inj, h.owned⟩
    by_cases hy : y = x
    · subst hy
      rw [hx, Function.update_self]
      exact ⟨hk, hr, hc, hs.one, hs.size, [], by rw [hp]; rfl, hd⟩
    · rw [Function.update_of_ne hy]
      exact h.same y
  | some a =>
    rw [hp] at hd0
    have hlt : a < s.blocks.length := by
      by_contra hle
      unfold deref at hd0
      dsimp only at hd0
      rw [List.getElem?_eq_none (by omega)] at hd0
      cases hd0
    have hset : ∀ b, b ≠ a → (s.blocks.set a (some d))[b]? = s.blocks[b]? := fun b hb => by
      rw [List.getElem?_set, if_neg (fun h => hb h.symm)]
    refine ⟨fun y => ?_, h.inj, fun b q hq => ?_⟩
    · show Same (s.blocks.set a (some d)) _ _
      by_cases hy : y = x
      · subst hy
        rw [hx, Function.update_self]
        refine ⟨hk, hr, hc, hs.one, hs.size, d, ?_, hd⟩
        rw [hp]
        simp [deref, hlt]
      · rw [Function.update_of_ne hy]
        refine (h.same y).keep fun q b c h1 h2 h3 => ?_
        rw [hset b (fun hb => hy (h.inj y x q o a h1 hx (by rw [h2, hb]) hp))]
        exact h3
    · by_cases hb : b = a
      · exact ⟨x, o, hx, by rw [hb]; exact hp⟩
      · have hq' : (s.blocks.set a (some d))[b]? = some (some q) := hq
        rw [hset b hb] at hq'
        exact h.owned b q hq'

/-! ## The calls -/

/-- What every call keeps: the same answer as for the values, and the objects still hold the values. -/
def Fine (p : St K × Res (Answer K)) (q : Vals K × Res (Answer K)) : Prop := p.2 = q.2 ∧ Inv p.1 q.1

theorem fine_same {s : St K} {v : Vals K} (h : Inv s v) (r : Res (Answer K)) : Fine (s, r) (v, r) := ⟨rfl, h⟩

theorem attempt_ok {α : Type} {s : St K} {r : Res α} {P : α → Prop} {f : α → St K × Res (Answer K)}
    {q : Vals K × Res (Answer K)} (h : OkP r P) (hf : ∀ a, P a → Fine (f a) q) : Fine (attempt s r f) q := by
  obtain ⟨a, rfl, ha⟩ := h
  exact hf a ha

theorem fine_construct {s : St K} {v : Vals K} (h : Inv s v) {x : Nat} (hx : s.objs x = none) (oom : Bool)
    {kind : Kind} {r c : Nat} (a : K) (h1 : kind = .vector → c = 1) (h32 : kind = .matrix → r * c < 2 ^ 32) :
    Fine (construct s oom x kind r c a) (become v oom x ⟨kind, r, c, fun _ _ => a⟩) := by
  unfold construct become
  cases oom with
  | true => exact fine_same h _
  | false =>
    have hlen : (Obj.mk kind r c none).len = r * c := by
      unfold Obj.len
      cases kind with
      | matrix => exact u32_of_lt (h32 rfl)
      | vector => simp [h1 rfl]
    simp only [Bool.false_eq_true, if_false]
    rw [hlen]
    exact attempt_ok (fillCells_ok2 a (by simp)) fun d hd =>
      ⟨rfl, (h.absent hx).place rfl rfl rfl h1 h32 hd⟩

theorem copy_cells {bs : Blocks K} {o : Obj} {w : Val K} (hs : Shows bs o w) :
    OkP (do
      let src ← deref bs o.ptr
      copyCells src o.len) (fun d => Rep2 d o.rows o.cols (fun i j => some (w.entry i j))) := by
  obtain ⟨d, h1, h2⟩ := hs.cells
  refine bind_okP h1 ?_
  rw [hs.len]
  exact copyCells_ok2 h2

theorem fine_copy {s : St K} {v : Vals K} (h : Inv s v) {x : Nat} (hx : s.objs x = none) (oom : Bool)
    {o : Obj} {w : Val K} (hs : Shows s.blocks o w) :
    Fine (copyConstruct s oom x o) (become v oom x w) := by
  unfold copyConstruct become
  cases oom with
  | true => exact fine_same h _
  | false =>
    simp only [Bool.false_eq_true, if_false]
    exact attempt_ok (copy_cells hs) fun d hd =>
      ⟨rfl, (h.absent hx).place hs.kind hs.rows hs.cols hs.one hs.size hd⟩

theorem Shows.deref_congr {bs bs' : Blocks K} {o : Obj} {w : Val K} (h : Shows bs o w)
    (hd : deref bs' o.ptr = deref bs o.ptr) : Shows bs' o w := by
  obtain ⟨d, h1, h2⟩ := h.cells
  exact ⟨h.kind, h.rows, h.cols, h.one, h.size, d, by rw [hd, h1], h2⟩

theorem fine_assign {s : St K} {v : Vals K} (h : Inv s v) {x y : Nat} (hxy : x ≠ y) {o o' : Obj} {w : Val K}
    (hx : s.objs x = some o) (hy : s.objs y = some o') (hs : Shows s.blocks o' w) :
    Fine (copyAssign s false x o o') (become v false x w) := by
  unfold copyAssign become
  obtain ⟨bs, e, hinv, hkeep⟩ := h.free hx
  refine attempt_ok (okP_of_eq e) fun b hb => ?_
  subst hb
  have hs' := hs.deref_congr (hkeep y o' (Ne.symm hxy) hy)
  simp only [Bool.false_eq_true, if_false]
  refine attempt_ok (copy_cells hs') fun d hd => ⟨rfl, ?_⟩
  exact InvX.place (hinv.congr (fun z hz => Function.update_of_ne hz _ _) fun _ _ => rfl)
    hs.kind hs.rows hs.cols hs.one hs.size hd

theorem fine_moveAssign {s : St K} {v : Vals K} (h : Inv s v) {x y : Nat} (hxy : x ≠ y) {o o' : Obj} {w : Val K}
    (hx : s.objs x = some o) (hy : s.objs y = some o') (hw : v y = some w) (hk : o'.kind = .matrix) :
    Fine (moveAssign s x y o o')
      (Function.update (Function.update v x (some w)) y (some (nothing .matrix)), .ok .done) := by
  unfold moveAssign
  obtain ⟨bs, e, hinv, hkeep⟩ := h.free hx
  refine attempt_ok (okP_of_eq e) fun b hb => ?_
  subst hb
  exact ⟨rfl, hinv.move (Ne.symm hxy) hy hw hk⟩

theorem fine_rebuild {s : St K} {v : Vals K} (h : Inv s v) {x : Nat} {o : Obj} (hx : s.objs x = some o) (oom : Bool)
    {r c : Nat} {cells : Cells K → Res (Cells K)} {w w' : Val K} (hs : Shows s.blocks o w)
    (hk : o.kind = w'.kind) (hr : r = w'.rows) (hc : c = w'.cols)
    (h1 : o.kind = .vector → c = 1) (h32 : o.kind = .matrix → r * c < 2 ^ 32)
    (hcells : ∀ src, Rep2 src o.rows o.cols (fun i j => some (w.entry i j)) →
      OkP (cells src) (fun d => Rep2 d r c (fun i j => some (w'.entry i j)))) :
    Fine (rebuild s oom x o r c cells) (become v oom x w') := by
  unfold rebuild become
  cases oom with
  | true => exact fine_same h _
  | false =>
    simp only [Bool.false_eq_true, if_false]
    obtain ⟨src, e1, e2⟩ := hs.cells
    refine attempt_ok (bind_okP e1 (hcells src e2)) fun d hd => ?_
    obtain ⟨bs, e, hinv, hkeep⟩ := h.free hx
    refine attempt_ok (okP_of_eq e) fun b hb => ?_
    subst hb
    exact ⟨rfl, hinv.place hk hr hc h1 h32 hd⟩

theorem fine_fill {s : St K} {v : Vals K} (h : Inv s v) {x : Nat} {o : Obj} (hx : s.objs x = some o) (a : K)
    {w : Val K} (hs : Shows s.blocks o w) :
    Fine (fillObj s o a) (Function.update v x (some { w with entry := fun _ _ => a }), .ok .done) := by
  unfold fillObj
  obtain ⟨src, e1, e2⟩ := hs.cells
  refine attempt_ok (bind_okP e1 (by rw [hs.len]; exact fillCells_ok2 a e2.1)) fun d hd => ⟨rfl, ?_⟩
  exact h.store hx hs.kind hs.rows hs.cols hd

theorem fine_set {s : St K} {v : Vals K} (h : Inv s v) {x : Nat} {o : Obj} (hx : s.objs x = some o) (i j : Nat)
    (a : K) {w : Val K} (hs : Shows s.blocks o w) :
    Fine (setObj s o i j a) (if i < w.rows ∧ j < w.cols then
        (Function.update v x (some { w with entry := fun k l => if k = i ∧ l = j then a else w.entry k l }),
          .ok .done)
      else (v, .error .outOfRange)) := by
  unfold setObj
  by_cases hb : i < o.rows ∧ j < o.cols
  · rw [if_neg (by omega), if_pos (by rw [← hs.rows, ← hs.cols]; exact hb)]
    obtain ⟨src, e1, e2⟩ := hs.cells
    refine attempt_ok (bind_okP e1 (by rw [hs.index hb.1 hb.2]; exact e2.wr hb.1 hb.2 rfl)) fun d hd => ⟨rfl, ?_⟩
    refine h.store hx hs.kind hs.rows hs.cols (hd.congr fun k l _ _ => ?_)
    by_cases hc : k = i ∧ l = j <;> simp [hc]
  · rw [if_pos (by omega), if_neg (by rw [← hs.rows, ← hs.cols]; exact hb)]
    exact fine_same h _

theorem fine_get {s : St K} {v : Vals K} (h : Inv s v) {o : Obj} (i j : Nat)
    {w : Val K} (hs : Shows s.blocks o w) :
    Fine (getObj s o i j) (if i < w.rows ∧ j < w.cols then (v, .ok (.value (w.entry i j)))
      else (v, .error .outOfRange)) := by
  unfold getObj
  by_cases hb : i < o.rows ∧ j < o.cols
  · rw [if_neg (by omega), if_pos (by rw [← hs.rows, ← hs.cols]; exact hb)]
    obtain ⟨src, e1, e2⟩ := hs.cells
    refine attempt_ok (P := fun q => q = w.entry i j) (bind_okP e1 (by
      rw [hs.index hb.1 hb.2, e2.rd hb.1 hb.2 rfl rfl]; exact okP_ok rfl)) fun q hq => ?_
    subst hq
    exact fine_same h _
  · rw [if_pos (by omega), if_neg (by rw [← hs.rows, ← hs.cols]; exact hb)]
    exact fine_same h _

theorem fine_reset {s : St K} {v : Vals K} (h : Inv s v) {x : Nat} {o : Obj} (hx : s.objs x = some o)
    {kind : Kind} (hk : o.kind = kind) :
    Fine (reset s x o) (Function.update v x (some (nothing kind)), .ok .done) := by
  subst hk
  unfold reset
  obtain ⟨bs, e, hinv, hkeep⟩ := h.free hx
  refine attempt_ok (okP_of_eq e) fun b hb => ?_
  subst hb
  exact ⟨rfl, hinv.noBlock (shows_nothing b o.kind) fun q hq => by cases hq; rfl⟩

theorem fine_destroy {s : St K} {v : Vals K} (h : Inv s v) {x : Nat} {o : Obj} (hx : s.objs x = some o) :
    Fine (destroy s x o) (Function.update v x none, .ok .done) := by
  unfold destroy
  obtain ⟨bs, e, hinv, hkeep⟩ := h.free hx
  refine attempt_ok (okP_of_eq e) fun b hb => ?_
  subst hb
  exact ⟨rfl, hinv.noBlock trivial fun q hq => by cases hq⟩

theorem fine_read {s : St K} {v : Vals K} (h : Inv s v) {x : Nat} {o : Obj} (hx : s.objs x = some o)
    (rows : List (List K)) (hm : ∀ row ∈ rows, row.length = (rows.headD []).length)
    (h32 : rows.length * (rows.headD []).length < 2 ^ 32) :
    Fine (readObj s false x o rows) (if rows = [] then (v, .error .runtimeError)
        else if ∀ row ∈ rows, row.length = (rows.headD []).length then
          become v false x ⟨.matrix, rows.length, (rows.headD []).length, fun i j => (rows.getD i []).getD j 0⟩
        else (v, .error .runtimeError)) := by
  unfold readObj become
  rw [if_pos hm]
  cases rows with
  | nil => exact fine_same h _
  | cons row0 rest =>
    rw [if_neg (by simp)]
    simp only [List.headD_cons] at hm h32 ⊢
    obtain ⟨bs, e, hinv, hkeep⟩ := h.free hx
    refine attempt_ok (okP_of_eq e) fun b hb => ?_
    subst hb
    simp only [Bool.false_eq_true, if_false]
    rw [u32_of_lt h32]
    obtain ⟨d, e, hd⟩ := readLoop_ok (rows := row0 :: rest) (n := (row0 :: rest).length) (m := row0.length) rfl hm h32
      (row0 :: rest).length 0 (Mem.alloc ((row0 :: rest).length * row0.length)) (by omega)
      ((rep2_alloc _ _).congr fun _ _ _ _ => by simp)
    rw [e]
    exact ⟨rfl, InvX.place (hinv.congr (fun z hz => Function.update_of_ne hz _ _) fun _ _ => rfl)
      rfl rfl rfl (fun h => by cases h) (fun _ => h32) hd⟩

end Rodeo.Heap
