import Verif.Lemmas.Mem
import Verif.Lemmas.Bounds
import Verif.Model.Vec
import Mathlib.Tactic.FieldSimp

set_option linter.unusedSectionVars false

namespace Rodeo
open Spec

variable {K : Type} [Field K] [LinearOrder K] [IsStrictOrderedRing K]

namespace Vec

theorem appendVector_eq (v other : List K) {position : Int} (pos : Nat) (hp : pos ≤ v.length)
    (h : position = pos ∨ (position = -1 ∧ pos = v.length)) :
    appendVector v other position = .ok (v.take pos ++ other ++ v.drop pos) := by
  unfold appendVector
  rw [if_neg (by omega)]
  have hpos : (if position = -1 then v.length else position.toNat) = pos := by
    split_ifs with hc <;> omega
  simp only [hpos]
  obtain ⟨d1, h1, l1, g1⟩ := Mem.copyRange_ok (src := v) (start := 0) (count := pos)
    (dst := Mem.alloc (v.length + other.length)) (pos := 0) (by omega) (by simp; omega)
  obtain ⟨d2, h2, l2, g2⟩ := Mem.copyRange_ok (src := other) (start := 0) (count := other.length)
    (dst := d1) (pos := pos) (by omega) (by simp [l1]; omega)
  obtain ⟨d3, h3, l3, g3⟩ := Mem.copyRange_ok (src := v) (start := pos) (count := v.length - pos)
    (dst := d2) (pos := pos + other.length) (by omega) (by simp [l1, l2]; omega)
  simp only [h1, h2, h3, bind, Except.bind]
  apply Mem.freeze_ok
  · simp [l1, l2, l3]; omega
  · intro j hj
    have hj' : j < v.length + other.length := by
      simp at hj; omega
    rw [g3 j, g2 j, g1 j]
    by_cases c1 : j < pos
    · rw [if_neg (by omega), if_neg (by omega), if_pos (by omega)]
      rw [List.append_assoc, List.getElem?_append_left (by simp; omega)]
      simp [c1]
    · by_cases c2 : j < pos + other.length
      · rw [if_neg (by omega), if_pos (by omega)]
        rw [List.append_assoc, List.getElem?_append_right (by simp; omega),
          List.getElem?_append_left (by simp; omega)]
        simp [Nat.min_eq_left hp]
      · rw [if_pos (by omega)]
        rw [List.getElem?_append_right (by simp; omega)]
        simp [Nat.min_eq_left hp]

theorem head_eq (v : List K) {n : Nat} (h : n ≤ v.length) : head v n = .ok (v.take n) := by
  unfold head
  rw [if_neg (by omega)]
  obtain ⟨d1, h1, l1, g1⟩ := Mem.copyRange_ok (src := v) (start := 0) (count := n)
    (dst := Mem.alloc n) (pos := 0) (by omega) (by simp)
  simp only [h1, bind, Except.bind]
  apply Mem.freeze_ok
  · simp [l1]; omega
  · intro j hj
    simp at hj
    rw [g1 j, if_pos (by omega)]
    simp [hj.1]

theorem tail_eq (v : List K) {n : Nat} (h : n ≤ v.length) :
    tail v n = .ok (v.drop (v.length - n)) := by
  unfold tail
  rw [if_neg (by omega)]
  obtain ⟨d1, h1, l1, g1⟩ := Mem.copyRange_ok (src := v) (start := v.length - n) (count := n)
    (dst := Mem.alloc n) (pos := 0) (by omega) (by simp)
  simp only [h1, bind, Except.bind]
  apply Mem.freeze_ok
  · simp [l1]; omega
  · intro j hj
    simp at hj
    rw [g1 j, if_pos (by omega)]
    simp

theorem pushBack_eq (v : List K) (a : K) : pushBack v a = .ok (v ++ [a]) := by
  unfold pushBack
  obtain ⟨d1, h1, l1, g1⟩ := Mem.copyRange_ok (src := v) (start := 0) (count := v.length)
    (dst := Mem.alloc (v.length + 1)) (pos := 0) (by omega) (by simp)
  have hw : Mem.wr d1 v.length a = .ok (d1.set v.length (some a)) := Mem.wr_ok (by simp [l1])
  simp only [h1, hw, bind, Except.bind]
  apply Mem.freeze_ok
  · simp [l1]
  · intro j hj
    simp at hj
    rw [List.getElem?_set]
    by_cases hc : v.length = j
    · subst hc; simp [l1]
    · rw [if_neg hc, g1 j, if_pos (by omega), List.getElem?_append_left (by omega)]
      simp

theorem copyVector_eq (v source : List K) {position : Int} (pos : Nat) (hp : pos < v.length)
    (h : position = pos) :
    copyVector v source position =
      .ok (v.take pos ++ source.take (v.length - pos) ++ v.drop (pos + source.length)) := by
  unfold copyVector
  rw [if_neg (by omega)]
  have hpos : position.toNat = pos := by omega
  simp only [hpos]
  obtain ⟨d1, h1, l1, g1⟩ := Mem.copyRange_ok (src := source) (start := 0)
    (count := min (v.length - pos) source.length)
    (dst := v.map some) (pos := pos) (by omega) (by simp; omega)
  simp only [h1, bind, Except.bind]
  apply Mem.freeze_ok
  · simp [l1]; omega
  · intro j hj
    have hj' : j < v.length := by simp at hj; omega
    rw [g1 j]
    by_cases c1 : j < pos
    · rw [if_neg (by omega), List.append_assoc, List.getElem?_append_left (by simp; omega)]
      simp [c1, hj']
    · by_cases c2 : j < pos + source.length
      · rw [if_pos (by omega), List.append_assoc, List.getElem?_append_right (by simp; omega),
          List.getElem?_append_left (by simp; omega)]
        simp only [List.getElem?_take, List.length_take, Nat.min_eq_left hp.le, Nat.zero_add]
        rw [if_pos (by omega)]
      · rw [if_neg (by omega), List.getElem?_append_right (by simp; omega)]
        simp only [List.getElem?_map, List.length_append, List.length_take, List.getElem?_drop]
        have : pos + source.length + (j - (min pos v.length + min (v.length - pos) source.length)) = j := by
          omega
        rw [this]
        simp [hj']

end Vec
end Rodeo

namespace Rodeo
open Spec

variable {K : Type} [Field K] [LinearOrder K] [IsStrictOrderedRing K]

namespace Vec

/-- What normalization computes, entry by entry. -/
theorem normalizeVector_eq {d : Nat} {x lb ub n : List K} (hx : x.length = d)
    (hl : lb.length = d) (hu : ub.length = d) (hn : n.length = d)
    (h : ∀ i (hi : i < d), n[i] = (1 / (d : K)) * (x[i] - lb[i]) / (ub[i] - lb[i])) :
    normalizeVector x lb ub = .ok n := by
  unfold normalizeVector
  apply tab_ok_list (by omega)
  intro j hj
  have h1 : j < x.length := by omega
  have h2 : j < lb.length := by omega
  have h3 : j < ub.length := by omega
  simp only [rawAt_ok_of_lt h1, vat_ok_of_lt h2, vat_ok_of_lt h3, h j (by omega), hx]

theorem denormalizeVector_eq {d : Nat} {x lb ub n : List K} (hx : x.length = d)
    (hl : lb.length = d) (hu : ub.length = d) (hn : n.length = d)
    (h : ∀ i (hi : i < d), x[i] = (n[i] * (d : K)) * (ub[i] - lb[i]) + lb[i]) :
    denormalizeVector n lb ub = .ok x := by
  unfold denormalizeVector
  apply tab_ok_list (by omega)
  intro j hj
  have h1 : j < n.length := by omega
  have h2 : j < lb.length := by omega
  have h3 : j < ub.length := by omega
  simp only [rawAt_ok_of_lt h1, vat_ok_of_lt h2, vat_ok_of_lt h3, h j (by omega), hn]

/-- The normalized vector as a list. -/
def nrm (d : Nat) (x lb ub : List K) (hx : x.length = d) (hl : lb.length = d)
    (hu : ub.length = d) : List K :=
  List.ofFn (fun i : Fin d => (1 / (d : K)) * (x[i] - lb[i]) / (ub[i] - lb[i]))

/-- The denormalized vector as a list. -/
def dnrm (d : Nat) (x lb ub : List K) (hx : x.length = d) (hl : lb.length = d)
    (hu : ub.length = d) : List K :=
  List.ofFn (fun i : Fin d => (x[i] * (d : K)) * (ub[i] - lb[i]) + lb[i])

theorem isSortedAsc_eq (x : List K) :
    ∃ r, isSortedAsc x = .ok r ∧ (r = true ↔ x.Pairwise (· ≤ ·)) := by
  unfold isSortedAsc
  split_ifs with h
  · refine ⟨true, rfl, ?_⟩
    match x, h with
    | [], _ => simp
    | [a], _ => simp
  · obtain ⟨r, hr, hr'⟩ := noneOf_ok (n := x.length - 1)
      (test := fun i =>
        match rawAt x i, rawAt x (i + 1) with
        | .ok a, .ok b => .ok (decide (a > b))
        | .error e, _ => .error e
        | _, .error e => .error e)
      (b := fun i => if h : i + 1 < x.length then decide (x[i] > x[i + 1]) else false)
      (by
        intro j hj
        have h1 : j < x.length := by omega
        have h2 : j + 1 < x.length := by omega
        simp [rawAt_ok_of_lt h1, rawAt_ok_of_lt h2, h2])
    refine ⟨r, hr, ?_⟩
    rw [hr', ← List.isChain_iff_pairwise, List.isChain_iff_getElem]
    constructor
    · intro h i hi
      have := h i (by omega)
      simpa [hi] using this
    · intro h j hj
      have hj' : j + 1 < x.length := by omega
      have := h j hj'
      simpa [hj'] using this

theorem findIntervalLoop_spec (x : List K) (value : K) :
    ∀ (k i : Nat), i + k < x.length →
      (∃ j, i ≤ j ∧ ∃ (_ : j < i + k) (h' : j + 1 < x.length),
        findIntervalLoop x value i k = .ok (some j) ∧ x[j] ≤ value ∧ value < x[j + 1]) ∨
      (findIntervalLoop x value i k = .ok none ∧
        ∀ j (_ : i ≤ j) (_ : j < i + k) (h' : j + 1 < x.length), ¬ (x[j] ≤ value ∧ value < x[j + 1])) := by
  intro k
  induction k with
  | zero => intro i _; right; exact ⟨rfl, fun j h1 h2 => by omega⟩
  | succ k ih =>
    intro i hi
    have h1 : i < x.length := by omega
    have h2 : i + 1 < x.length := by omega
    simp only [findIntervalLoop, rawAt_ok_of_lt h1, rawAt_ok_of_lt h2]
    by_cases hc : value ≥ x[i] ∧ value < x[i + 1]
    · left
      exact ⟨i, le_refl _, by omega, h2, by rw [if_pos hc], hc.1, hc.2⟩
    · rw [if_neg hc]
      rcases ih (i + 1) (by omega) with ⟨j, hj, hj1, hj2, h3, h4⟩ | ⟨h3, h4⟩
      · left; exact ⟨j, by omega, by omega, hj2, h3, h4⟩
      · right
        refine ⟨h3, ?_⟩
        intro j hj1 hj2 hj3
        by_cases hji : j = i
        · subst hji; exact hc
        · exact h4 j (by omega) (by omega) hj3

end Vec
end Rodeo
