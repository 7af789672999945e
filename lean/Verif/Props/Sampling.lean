import Verif.Model.Sampling
import Verif.Lemmas.History
import Verif.Spec.Box
import Mathlib.Tactic.FieldSimp
import Mathlib.Tactic.Linarith
import Mathlib.Tactic.Ring
import Mathlib.Tactic.NormNum
import Mathlib.Data.Rat.Defs
import Mathlib.Algebra.Order.Ring.Rat

/-! # C42: random and Latin hypercube samples -/

set_option linter.unusedSectionVars false

namespace Rodeo
open Spec

variable {K : Type} [Field K] [LinearOrder K] [IsStrictOrderedRing K]

namespace Mat

theorem isMat_congr {A : Mat K} {n m : Nat} {F G : Nat → Nat → K} (hA : IsMat A n m F)
    (h : ∀ i j, i < n → j < m → F i j = G i j) : IsMat A n m G :=
  ⟨hA.1, hA.2.1, hA.2.2.1, fun i j hi hj => by rw [hA.2.2.2 i j hi hj, h i j hi hj]⟩

theorem writeColumn_ok {A : Mat K} {n m : Nat} {F : Nat → Nat → K} (hA : IsMat A n m F)
    {values : List K} (hv : values.length = n) {col : Nat} (hc : col < m) :
    OkP (writeColumn values col A)
      (fun B => IsMat B n m (fun i j => if j = col then values.getD i 0 else F i j)) := by
  unfold writeColumn
  rw [hA.1]
  refine (okP_for (fun k B => IsMat B n m
    (fun i j => if i < k ∧ j = col then values.getD i 0 else F i j)) ?_ ?_).mono ?_
  · exact isMat_congr hA (fun i j _ _ => by simp)
  · intro k B hk hB
    have hk' : k < values.length := by omega
    refine OkP.bind (okP_of_eq (rawAt_ok_of_lt hk')) ?_
    rintro v rfl
    refine (put_ok hB hk hc _).mono fun B' hB' => isMat_congr hB' fun i j _ _ => ?_
    by_cases h1 : i = k ∧ j = col
    · obtain ⟨rfl, rfl⟩ := h1
      simp [List.getD, hk']
    · rw [if_neg h1]
      by_cases h2 : i < k ∧ j = col
      · rw [if_pos h2, if_pos ⟨by omega, h2.2⟩]
      · rw [if_neg h2, if_neg (by rintro ⟨h3, rfl⟩; exact h2 ⟨by
          rcases Nat.lt_succ_iff_lt_or_eq.1 h3 with h | h
          · exact h
          · exact absurd ⟨h, rfl⟩ h1, rfl⟩)]
  · intro B hB
    refine isMat_congr hB fun i j hi _ => ?_
    by_cases h : j = col
    · rw [if_pos ⟨hi, h⟩, if_pos h]
    · rw [if_neg (fun hh => h hh.2), if_neg h]

theorem columns_ok {A : Mat K} {n m : Nat} {F : Nat → Nat → K} (hA : IsMat A n m F)
    {body : Nat → Mat K → Res (Mat K)} {V : Nat → List K} (hV : ∀ c, c < m → (V c).length = n)
    (hb : ∀ c B G, c < m → IsMat B n m G → body c B = writeColumn (V c) c B) :
    OkP (forRange m body A) (fun B => IsMat B n m (fun i j => (V j).getD i 0)) := by
  refine (okP_for (fun k B => IsMat B n m
    (fun i j => if j < k then (V j).getD i 0 else F i j)) ?_ ?_).mono ?_
  · exact isMat_congr hA (fun i j _ _ => by simp)
  · intro k B hk hB
    rw [hb k B _ hk hB]
    refine (writeColumn_ok hB (hV k hk) hk).mono fun B' hB' => isMat_congr hB' fun i j _ _ => ?_
    by_cases h1 : j = k
    · subst h1; simp
    · rw [if_neg h1]
      by_cases h2 : j < k
      · rw [if_pos h2, if_pos (by omega)]
      · rw [if_neg h2, if_neg (by omega)]
  · intro B hB
    exact isMat_congr hB fun i j _ hj => if_pos hj

/-- Row `r` of the unshuffled column. -/
theorem strata_ok (n : Nat) (l h : K) (u : Nat → K) :
    strata n l h u = .ok ((List.range n).map fun r : Nat =>
      l + (r : K) * ((h - l) / (n : K)) + u r * ((h - l) / (n : K))) := by
  unfold strata
  refine tab_ok fun j _ => ?_
  unfold uniformReal
  congr 1
  push_cast
  ring

end Mat

open Mat

/-- Entry `x` lies in part number `r` of the range from `l` to `h` cut into `n` equal parts. -/
def Spec.InStratum (n : Nat) (l h : K) (r : Nat) (x : K) : Prop :=
  l + (r : K) * ((h - l) / (n : K)) ≤ x ∧ x < l + ((r : K) + 1) * ((h - l) / (n : K))

/-- Latin hypercube sampling of `n` points in a valid box, for all draws and shuffles: the call
returns, in every column every one of the `n` equal parts of the range holds exactly one sample, and
every sample lies in the box. -/
theorem C42_lhs {A : Mat K} {n m : Nat} {F : Nat → Nat → K} (hA : IsMat A n m F)
    {lb ub : List K} (hbox : ValidBox m lb ub)
    {u : Nat → Nat → K} (hu : ∀ c r, 0 ≤ u c r ∧ u c r < 1)
    {perm : Nat → List Nat} (hp : ∀ c, (perm c).Perm (List.range n)) :
    ∃ B G, fillRandomLHS A lb ub u perm = .ok B ∧ IsMat B n m G ∧
      ∀ c l h, lb[c]? = some l → ub[c]? = some h →
        (∀ r, r < n → ∃ i, i < n ∧ InStratum n l h r (G i c) ∧
          ∀ j, j < n → InStratum n l h r (G j c) → j = i) ∧
        ∀ i, i < n → l ≤ G i c ∧ G i c < h := by
  obtain ⟨hm, hlb, hub, hlt⟩ := hbox
  have hlen : ∀ c, (perm c).length = n := fun c => by rw [(hp c).length_eq]; simp
  have hmem : ∀ c k, k ∈ perm c → k < n := fun c k hk => by
    have := (hp c).mem_iff.1 hk; simpa using this
  let val : Nat → Nat → K := fun c r =>
    lb.getD c 0 + (r : K) * ((ub.getD c 0 - lb.getD c 0) / (n : K)) +
      u c r * ((ub.getD c 0 - lb.getD c 0) / (n : K))
  let V : Nat → List K := fun c => (perm c).map (val c)
  have hcols := columns_ok hA (body := fun col A => do
    let l ← rawAt lb col
    let h ← rawAt ub col
    if l > h then .error .invalidArgument
    else do
      let intervals ← strata A.nrows l h (u col)
      let shuffled ← tab A.nrows fun row => do
        let k ← rawAt (perm col) row
        rawAt intervals k
      writeColumn shuffled col A) (V := V) (fun c _ => by simp [V, hlen]) (by
    intro c B G hc hB
    have hl : c < lb.length := by omega
    have hh : c < ub.length := by omega
    have h1 := hlt c lb[c] ub[c] (by simp [hl]) (by simp [hh])
    refine bind_eq (rawAt_ok_of_lt hl) (bind_eq (rawAt_ok_of_lt hh) ?_)
    rw [if_neg (not_lt.2 h1.le), hB.1]
    refine bind_eq (strata_ok n _ _ _) (bind_eq (tab_ok_list (l := V c) (by simp [V, hlen]) ?_) rfl)
    intro j hj
    have hj' : j < (perm c).length := by simpa [V] using hj
    refine bind_eq (rawAt_ok_of_lt hj') ?_
    have hk := hmem c _ (List.getElem_mem hj')
    rw [rawAt_ok_of_lt (by simpa using hk)]
    simp [V, val, List.getD, hl, hh])
  obtain ⟨B, h1, h2⟩ := hcols
  refine ⟨B, _, ?_, h2, ?_⟩
  · unfold fillRandomLHS
    rw [if_neg (by rw [hA.2.1]; omega), hA.2.1]
    exact h1
  · intro c l h hl hh
    obtain ⟨hcl, rfl⟩ := List.getElem?_eq_some_iff.1 hl
    obtain ⟨hch, rfl⟩ := List.getElem?_eq_some_iff.1 hh
    have hpos : 0 < ub[c] - lb[c] := sub_pos.2 (hlt c _ _ hl hh)
    have hval : ∀ i, (hi : i < n) → (V c).getD i 0 = lb[c] +
        (((perm c)[i]'(by rw [hlen]; exact hi) : Nat) : K) * ((ub[c] - lb[c]) / (n : K)) +
        u c ((perm c)[i]'(by rw [hlen]; exact hi)) * ((ub[c] - lb[c]) / (n : K)) := by
      intro i hi
      simp [V, val, List.getD, hcl, hch, hlen, hi]
    have hstr : ∀ i, (hi : i < n) → ∀ r : Nat, InStratum n lb[c] ub[c] r ((V c).getD i 0) ↔
        (perm c)[i]'(by rw [hlen]; exact hi) = r := by
      intro i hi r
      have hn : (0 : K) < n := by exact_mod_cast (by omega : 0 < n)
      have hs : 0 < (ub[c] - lb[c]) / (n : K) := div_pos hpos hn
      rw [hval i hi]
      generalize (perm c)[i]'(by rw [hlen]; exact hi) = k
      obtain ⟨hu0, hu1⟩ := hu c k
      unfold InStratum
      generalize (ub[c] - lb[c]) / (n : K) = s at hs
      constructor
      · rintro ⟨ha, hb⟩
        have ha' : (r : K) * s < ((k : K) + 1) * s := by nlinarith
        have hb' : (k : K) * s < ((r : K) + 1) * s := by nlinarith
        have ha2 := lt_of_mul_lt_mul_right ha' hs.le
        have hb2 := lt_of_mul_lt_mul_right hb' hs.le
        have : r < k + 1 := by exact_mod_cast ha2
        have : k < r + 1 := by exact_mod_cast hb2
        omega
      · rintro rfl
        constructor
        · nlinarith [mul_nonneg hu0 hs.le]
        · nlinarith [mul_lt_mul_of_pos_right hu1 hs]
    refine ⟨?_, ?_⟩
    · intro r hr
      have hrm : r ∈ perm c := (hp c).mem_iff.2 (by simpa using hr)
      obtain ⟨i, hi, rfl⟩ := List.getElem_of_mem hrm
      have hi' : i < n := by rw [← hlen c]; exact hi
      refine ⟨i, hi', (hstr i hi' _).2 rfl, ?_⟩
      intro j hj hs
      have e := (hstr j hj _).1 hs
      have hnd : (perm c).Nodup := (hp c).nodup_iff.2 List.nodup_range
      exact (hnd.getElem_inj_iff).1 e
    · intro i hi
      have hn : (0 : K) < n := by exact_mod_cast (by omega : 0 < n)
      have hs : 0 < (ub[c] - lb[c]) / (n : K) := div_pos hpos hn
      have hns : (n : K) * ((ub[c] - lb[c]) / (n : K)) = ub[c] - lb[c] := by field_simp
      have hk := hmem c _ (List.getElem_mem (l := perm c) (n := i) (by rw [hlen]; exact hi))
      obtain ⟨ha, hb⟩ := (hstr i hi _).2 rfl
      refine ⟨le_trans ?_ ha, lt_of_lt_of_le hb ?_⟩
      · have := mul_nonneg (Nat.cast_nonneg (α := K)
          ((perm c)[i]'(by rw [hlen]; exact hi))) hs.le
        linarith
      · have h1 : (((perm c)[i]'(by rw [hlen]; exact hi) : Nat) : K) + 1 ≤ n := by exact_mod_cast hk
        have := mul_le_mul_of_nonneg_right h1 hs.le
        linarith

/-- Random sampling in a valid box: every sample lies in the box. -/
theorem C42_random {A : Mat K} {n m : Nat} {F : Nat → Nat → K} (hA : IsMat A n m F)
    {lb ub : List K} (hbox : ValidBox m lb ub)
    {u : Nat → Nat → K} (hu : ∀ c r, 0 ≤ u c r ∧ u c r < 1) :
    ∃ B G, fillRandom A lb ub u = .ok B ∧ IsMat B n m G ∧
      ∀ c l h, lb[c]? = some l → ub[c]? = some h → ∀ i, i < n → l ≤ G i c ∧ G i c < h := by
  obtain ⟨hm, hlb, hub, hlt⟩ := hbox
  let V : Nat → List K := fun c => (List.range n).map fun r =>
    uniformReal (lb.getD c 0) (ub.getD c 0) (u c r)
  obtain ⟨B, h1, h2⟩ := columns_ok hA (body := fun col A => do
    let l ← rawAt lb col
    let h ← rawAt ub col
    if l > h then .error .invalidArgument
    else do
      let values ← tab A.nrows fun row => .ok (uniformReal l h (u col row))
      writeColumn values col A) (V := V) (fun c _ => by simp [V]) (by
    intro c B G hc hB
    have hl : c < lb.length := by omega
    have hh : c < ub.length := by omega
    have h1 := hlt c lb[c] ub[c] (by simp [hl]) (by simp [hh])
    refine bind_eq (rawAt_ok_of_lt hl) (bind_eq (rawAt_ok_of_lt hh) ?_)
    rw [if_neg (not_lt.2 h1.le), hB.1]
    exact bind_eq (tab_ok fun j _ => rfl) (by
      simp [V, List.getD, hl, hh]))
  refine ⟨B, _, ?_, h2, ?_⟩
  · unfold fillRandom
    rw [if_neg (by rw [hA.2.1]; omega), hA.2.1]
    exact h1
  · intro c l h hl hh i hi
    obtain ⟨hcl, rfl⟩ := List.getElem?_eq_some_iff.1 hl
    obtain ⟨hch, rfl⟩ := List.getElem?_eq_some_iff.1 hh
    have hpos := hlt c _ _ hl hh
    obtain ⟨hu0, hu1⟩ := hu c i
    have e : (V c).getD i 0 = lb[c] + u c i * (ub[c] - lb[c]) := by
      simp [V, List.getD, hcl, hch, hi, uniformReal]
    rw [e]
    constructor
    · nlinarith
    · nlinarith

/-- Bounds of the wrong size are rejected. -/
theorem C42_rejects {A : Mat K} {n m : Nat} {F : Nat → Nat → K} (hA : IsMat A n m F)
    (lb ub : List K) (u : Nat → Nat → K) (perm : Nat → List Nat) (h : lb.length ≠ m ∨ ub.length ≠ m) :
    fillRandomLHS A lb ub u perm = .error .invalidArgument ∧
      fillRandom A lb ub u = .error .invalidArgument := by
  constructor
  · unfold fillRandomLHS; rw [if_pos (by rw [hA.2.1]; exact h)]
  · unfold fillRandom; rw [if_pos (by rw [hA.2.1]; exact h)]

/-- Three points in two dimensions, shuffled differently in the two columns. -/
example : fillRandomLHS (⟨3, 2, [0, 0, 0, 0, 0, 0]⟩ : Mat ℚ) [0, 10] [3, 40] (fun _ _ => 1 / 2)
    (fun c => if c = 0 then [2, 0, 1] else [1, 2, 0]) =
    .ok ⟨3, 2, [5 / 2, 1 / 2, 3 / 2, 25, 35, 15]⟩ := by decide +kernel

example : ValidBox 2 [(0 : ℚ), 10] [3, 40] ∧
    (∀ c, (if c = 0 then [2, 0, 1] else [1, 2, 0] : List Nat).Perm (List.range 3)) := by
  refine ⟨⟨by omega, rfl, rfl, ?_⟩, ?_⟩
  · intro i l u h1 h2
    rcases i with _ | _ | i
    · simp at h1 h2; subst h1 h2; norm_num
    · simp at h1 h2; subst h1 h2; norm_num
    · simp at h1
  · intro c
    split_ifs <;> decide

end Rodeo
