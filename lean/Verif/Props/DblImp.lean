import Verif.Model.DblImp
import Verif.Lemmas.DblTrip
import Verif.Lemmas.DblSum
import Verif.Props.History
import Mathlib.Data.Rat.Floor

/-! # C141: improvement values in double arithmetic -/

set_option linter.unusedSectionVars false

namespace Rodeo
open Spec

variable {K : Type} [Field K] [LinearOrder K] [IsStrictOrderedRing K] [FloorRing K]

/-- A double that can be subtracted from another one without overflow. -/
def HalfRange (x : K) : Prop := IsDouble x ∧ |x| ≤ 2 ^ 1022

/-- Of two designs that are measured against the same feasible design and are better than it, the one with the
smaller objective value has the larger improvement value. -/
def RanksStrictly (initial : Option K) (designs : List (Bool × K)) (values : List K) : Prop :=
  ∀ (i j : Nat) (v v' w w' r : K), designs[i]? = some (true, v) → designs[j]? = some (true, v') →
    values[i]? = some w → values[j]? = some w' → reference initial designs i = some r →
    reference initial designs j = some r → v < v' → v' < r → w' < w

/-- **C141** as stated: the improvement values tell every better design from every worse one. -/
def C141_full (K : Type) [Field K] [LinearOrder K] [IsStrictOrderedRing K] [FloorRing K] : Prop :=
  ∀ (h : History K) (n m : Nat) (F : Nat → Nat → K) (initial : Option K) (designs : List (Bool × K)),
    IsMat h.data n m F → n ≠ 0 → h.dimension ≠ 0 → h.dimension < m →
    (∀ i, i < n → FeasibleRow F m i → HalfRange (F i h.dimension)) →
    (∀ d ∈ designs, d.1 = true → HalfRange d.2) → IsBestFeasible F n m h.dimension initial →
    ∃ best values, h.calculateInitialImprovementValue = .ok best ∧
      Dbl.improvementValues best designs = .ok values ∧
      ImprovementOK initial designs values ∧ RanksStrictly initial designs values

/-- The best value carried by the loop represents the reference. -/
def DblRefState (best : K) : Option K → Prop
  | none => best = -dblMax
  | some r => best = r ∧ HalfRange r

/-- Improvement of a design against a reference, in doubles. -/
def dblImpOf : Option K → Bool → K → K
  | _, false, _ => 0
  | none, true, _ => dblEps
  | some r, true, v => if v < r then Dbl.fl (r - v) else 0

theorem dblMax_ge : (2 : K) ^ 1023 ≤ dblMax := by
  have e : (2 : K) ^ 1024 = 2 ^ 1023 + 2 ^ 1023 := by rw [← mul_two, ← pow_succ]
  have h : (2 : K) ^ 971 ≤ 2 ^ 1023 := pow_le_pow_right₀ one_le_two (by norm_num)
  unfold dblMax
  rw [e]
  generalize (2 : K) ^ 971 = a at *
  generalize (2 : K) ^ 1023 = b at *
  linarith

theorem half_lt_dblMax {x : K} (h : |x| ≤ 2 ^ 1022) : x < dblMax ∧ 1 ≤ x + dblMax := by
  have h1 := dblMax_ge (K := K)
  have h2 : (2 : K) ^ 1023 = 2 ^ 1022 + 2 ^ 1022 := by rw [← mul_two, ← pow_succ]
  have h3 : (1 : K) ≤ 2 ^ 1022 := one_le_pow₀ one_le_two
  rw [h2] at h1
  obtain ⟨h4, h5⟩ := abs_le.1 h
  clear h2
  generalize (2 : K) ^ 1022 = b at *
  constructor <;> linarith

theorem isLowest_max : Dbl.isLowest (-dblMax : K) = true := by
  unfold Dbl.isLowest Dbl.add Dbl.dbl
  rw [neg_add_cancel, Dbl.fl_zero, abs_zero, if_pos (by positivity)]
  simp only [abs_zero, decide_eq_true_eq]
  have hd : IsDouble (1 / 2 ^ 20 : K) := ⟨1, -20, by norm_num, by norm_num, by norm_num⟩
  have : (1 / 2 ^ 20 : K) ≤ Dbl.lit (1 / 10 ^ 5) := Dbl.double_le_fl hd (by norm_num)
  exact lt_of_lt_of_le (by positivity) this

theorem isLowest_half {x : K} (h : |x| ≤ 2 ^ 1022) : Dbl.isLowest x = false := by
  unfold Dbl.isLowest Dbl.add Dbl.dbl
  split_ifs with h1
  · simp only [decide_eq_false_iff_not, not_lt]
    have h2 : (1 : K) ≤ Dbl.fl (x + dblMax) := Dbl.double_le_fl Dbl.isDouble_one (half_lt_dblMax h).2
    have h3 : Dbl.lit (1 / 10 ^ 5 : K) ≤ 1 := Dbl.fl_le_double Dbl.isDouble_one (by norm_num)
    exact h3.trans (h2.trans (le_abs_self _))
  · rfl

theorem sub_half {a b : K} (ha : HalfRange a) (hb : HalfRange b) :
    Dbl.sub a b = .ok (Dbl.fl (a - b)) := by
  have h2 : (2 : K) ^ 1023 = 2 ^ 1022 + 2 ^ 1022 := by rw [← mul_two, ← pow_succ]
  have h : |a - b| ≤ 2 ^ (1023 : ℤ) := by
    rw [show (2 : K) ^ (1023 : ℤ) = 2 ^ 1023 from zpow_ofNat _ _, h2]
    exact (abs_sub a b).trans (add_le_add ha.2 hb.2)
  have h4 := Dbl.fl_abs_le (by norm_num) h
  rw [show (2 : K) ^ (1023 : ℤ) = 2 ^ 1023 from zpow_ofNat _ _] at h4
  unfold Dbl.sub Dbl.dbl
  rw [if_pos (lt_of_le_of_lt h4 (pow_lt_pow_right₀ one_lt_two (by norm_num)))]

theorem dbl_improvement_step {best : K} {R : Option K} (h : DblRefState best R) (f : Bool) (v : K)
    (hv : f = true → HalfRange v) :
    ∃ b', Dbl.improvementValue best f v = .ok (b', dblImpOf R f v) ∧
    DblRefState b' (match R with
      | some r => some r
      | none => if f = true then some v else none) := by
  unfold Dbl.improvementValue
  cases f with
  | false =>
    cases R with
    | none => exact ⟨best, rfl, h⟩
    | some r => exact ⟨best, rfl, h⟩
  | true =>
    cases R with
    | none =>
      have hb : best = -dblMax := h
      refine ⟨v, ?_, rfl, hv rfl⟩
      rw [if_pos rfl, hb, isLowest_max]
      simp only [if_true, lt_irrefl, if_false]
      rfl
    | some r =>
      obtain ⟨rfl, hr⟩ := h
      refine ⟨best, ?_, rfl, hr⟩
      rw [if_pos rfl, isLowest_half hr.2]
      simp only [Bool.false_eq_true, if_false, dblImpOf, sub_half hr (hv rfl)]
      split_ifs <;> rfl

theorem dbl_improvementValues_spec : ∀ (designs : List (Bool × K)) (best : K) (R : Option K),
    DblRefState best R → (∀ d ∈ designs, d.1 = true → HalfRange d.2) →
    ∃ values, Dbl.improvementValues best designs = .ok values ∧ values.length = designs.length ∧
    ∀ (i : Nat) (f : Bool) (v : K), designs[i]? = some (f, v) →
      values[i]? = some (dblImpOf (reference R designs i) f v) := by
  intro designs
  induction designs with
  | nil => intro best R _ _; exact ⟨[], rfl, rfl, by simp⟩
  | cons d l ih =>
    intro best R h hv
    obtain ⟨f0, v0⟩ := d
    obtain ⟨b', s1, s2⟩ := dbl_improvement_step h f0 v0 (hv (f0, v0) (by simp))
    obtain ⟨t, e, i1, i2⟩ := ih _ _ s2 (fun d hd => hv d (by simp [hd]))
    refine ⟨dblImpOf R f0 v0 :: t, ?_, by simp [i1], ?_⟩
    · simp only [Dbl.improvementValues, s1, bind, Except.bind, e]
    intro i f v hi
    cases i with
    | zero =>
      simp only [List.getElem?_cons_zero, Option.some.injEq, Prod.mk.injEq] at hi
      obtain ⟨rfl, rfl⟩ := hi
      have : reference R ((f0, v0) :: l) 0 = R := by cases R <;> rfl
      rw [this]
      simp only [List.getElem?_cons_zero]
    | succ i =>
      simp only [List.getElem?_cons_succ] at hi
      have := i2 i f v hi
      simp only [List.getElem?_cons_succ]
      rw [this]
      congr 2
      cases R with
      | some r => rfl
      | none =>
        cases f0 with
        | true => simp [reference]
        | false => simp [reference]

/-- The reference is one of the values. -/
theorem reference_half {initial : Option K} {designs : List (Bool × K)} {i : Nat} {r : K}
    (hI : ∀ r, initial = some r → HalfRange r) (hD : ∀ d ∈ designs, d.1 = true → HalfRange d.2)
    (h : reference initial designs i = some r) : HalfRange r := by
  cases initial with
  | some r' => simp only [reference, Option.some.injEq] at h; subst h; exact hI _ rfl
  | none =>
    simp only [reference, Option.map_eq_some_iff] at h
    obtain ⟨a, h1, rfl⟩ := h
    exact hD a (List.mem_of_mem_take (List.mem_of_find?_eq_some h1)) (by simpa using List.find?_some h1)

theorem fl_sub_bounds {r v : K} (hr : IsDouble r) (hv : IsDouble v) (h : v < r) :
    |Dbl.fl (r - v) - (r - v)| ≤ (r - v) / 2 ^ 53 ∧ 0 < Dbl.fl (r - v) := by
  have h1 := Dbl.fl_sub_err hr hv
  rw [abs_of_pos (sub_pos.2 h)] at h1
  refine ⟨h1, ?_⟩
  have h2 := (abs_le.1 h1).1
  have h3 : (r - v) / 2 ^ 53 < r - v := div_lt_self (sub_pos.2 h) (by norm_num)
  linarith

/-- C141 without the strict order, which two close designs need not have (`C141_false`).  For every history
and every sequence of designs with values in the half range: the improvement values are numbers, have the
properties of C30, and are the exact ones up to a relative error of 2^-53; and a design that is better by more
than 2^-52 of its distance from the reference has the larger improvement value.  Missing: closer designs. -/
theorem C141_partial {h : History K} {n m : Nat} {F : Nat → Nat → K} {initial : Option K}
    {designs : List (Bool × K)} (hA : IsMat h.data n m F) (hn : n ≠ 0) (hd : h.dimension ≠ 0)
    (hm : h.dimension < m) (hF : ∀ i, i < n → FeasibleRow F m i → HalfRange (F i h.dimension))
    (hD : ∀ d ∈ designs, d.1 = true → HalfRange d.2) (hI : IsBestFeasible F n m h.dimension initial) :
    ∃ best values, h.calculateInitialImprovementValue = .ok best ∧
      Dbl.improvementValues best designs = .ok values ∧ ImprovementOK initial designs values ∧
      (∀ (i : Nat) (v w r : K), designs[i]? = some (true, v) → values[i]? = some w →
        reference initial designs i = some r →
        (r ≤ v → w = 0) ∧ (v < r → |w - (r - v)| ≤ (r - v) / 2 ^ 53)) ∧
      ∀ (i j : Nat) (v v' w w' r : K), designs[i]? = some (true, v) → designs[j]? = some (true, v') →
        values[i]? = some w → values[j]? = some w' → reference initial designs i = some r →
        reference initial designs j = some r → v < r → (r - v) / 2 ^ 52 < v' - v → w' < w := by
  obtain ⟨best, e, hbest⟩ := History.initialImprovement_ok hA hn hd hm
  have hinit : ∀ r, initial = some r → HalfRange r := by
    rintro r rfl
    obtain ⟨⟨i, h1, h2, h3⟩, -⟩ := hI
    rw [← h3]; exact hF i h1 h2
  have hstate : DblRefState best initial := by
    cases initial with
    | none =>
      rcases hbest with ⟨k, h1, h2, -⟩ | ⟨h1, -⟩
      · exact absurd h2 (hI k h1)
      · exact h1
    | some r =>
      obtain ⟨⟨i, h1, h2, h3⟩, h4⟩ := hI
      rcases hbest with ⟨k, g1, g2, g3, g4, g5⟩ | ⟨g1, g2⟩
      · have : best = r := le_antisymm (h3 ▸ g5 i h1 h2) (g3 ▸ h4 k g1 g2)
        exact ⟨this, hinit r rfl⟩
      · exact absurd (half_lt_dblMax (hF i h1 h2).2).1 (not_lt.2 (g2 i h1 h2))
  obtain ⟨values, ev, l1, l2⟩ := dbl_improvementValues_spec designs best initial hstate hD
  refine ⟨best, values, e, ev, ⟨l1, ?_⟩, ?_, ?_⟩
  · have heps : (0 : K) < dblEps := by unfold dblEps; positivity
    intro i f v w hi hw
    rw [l2 i f v hi] at hw
    simp only [Option.some.injEq] at hw
    subst hw
    have hmem : (f, v) ∈ designs := List.mem_of_getElem? hi
    refine ⟨?_, ?_, ?_, ?_⟩
    · rintro rfl
      cases reference initial designs i <;> rfl
    · cases f <;> cases hr : reference initial designs i <;> simp only [dblImpOf]
      · exact le_refl _
      · exact le_refl _
      · exact heps.le
      · split_ifs with h1
        · exact Dbl.fl_nonneg (sub_nonneg.2 h1.le)
        · exact le_refl _
    · cases f <;> cases hr : reference initial designs i <;> simp only [dblImpOf]
      · simp
      · simp
      · simp [heps]
      · rename_i r
        constructor
        · intro h0
          refine ⟨trivial, ?_⟩
          intro r' hr'; cases hr'
          by_contra hc
          rw [if_neg hc] at h0
          exact lt_irrefl _ h0
        · rintro ⟨-, h0⟩
          rw [if_pos (h0 r rfl)]
          exact (fl_sub_bounds (reference_half hinit hD hr).1 (hD _ hmem rfl).1 (h0 r rfl)).2
    · intro j v' w' hj hw' hf hri hrj hvv
      rw [l2 j true v' hj] at hw'
      simp only [Option.some.injEq] at hw'
      subst hw' hf
      obtain ⟨r, hr⟩ := Option.ne_none_iff_exists'.1 hri
      obtain ⟨r', hr'⟩ := Option.ne_none_iff_exists'.1 hrj
      have : r = r' := by
        rcases Nat.le_total i j with hij | hij
        · have := reference_mono hr hij
          rw [hr'] at this; cases this; rfl
        · have := reference_mono hr' hij
          rw [hr] at this; cases this; rfl
      subst this
      rw [hr, hr']
      simp only [dblImpOf]
      split_ifs with h1 h2
      · exact Dbl.fl_mono (by linarith)
      · exact absurd (lt_of_le_of_lt hvv h1) h2
      · exact Dbl.fl_nonneg (by linarith)
      · exact le_refl _
  · intro i v w r hi hw hr
    rw [l2 i true v hi, hr] at hw
    simp only [Option.some.injEq, dblImpOf] at hw
    subst hw
    refine ⟨fun h1 => if_neg (not_lt.2 h1), fun h1 => ?_⟩
    rw [if_pos h1]
    exact (fl_sub_bounds (reference_half hinit hD hr).1 (hD _ (List.mem_of_getElem? hi) rfl).1 h1).1
  · intro i j v v' w w' r hi hj hw hw' hr hr' hvr hgap
    rw [l2 i true v hi, hr] at hw
    rw [l2 j true v' hj, hr'] at hw'
    simp only [Option.some.injEq, dblImpOf] at hw hw'
    subst hw hw'
    have hdr := (reference_half hinit hD hr).1
    obtain ⟨b1, b2⟩ := fl_sub_bounds hdr (hD _ (List.mem_of_getElem? hi) rfl).1 hvr
    rw [if_pos hvr]
    split_ifs with h1
    · obtain ⟨c1, -⟩ := fl_sub_bounds hdr (hD _ (List.mem_of_getElem? hj) rfl).1 h1
      have hb := (abs_le.1 b1).1
      have hc := (abs_le.1 c1).2
      generalize Dbl.fl (r - v) = x at *
      generalize Dbl.fl (r - v') = y at *
      have hpos : 0 < (r - v) / 2 ^ 52 := div_pos (sub_pos.2 hvr) (by norm_num)
      have : (r - v') / 2 ^ 53 ≤ (r - v) / 2 ^ 53 :=
        div_le_div_of_nonneg_right (by linarith) (by norm_num)
      have h2 : (r - v) / 2 ^ 52 = (r - v) / 2 ^ 53 + (r - v) / 2 ^ 53 := by ring
      linarith
    · exact b2

set_option maxRecDepth 100000 in
/-- Objective values 2 and 1 have the same improvement over 2^60; so the second is not seen as an improvement
over the first. -/
theorem C141_tie : Dbl.improvementValues (2 ^ 60 : ℚ) [(true, 2), (true, 1), (false, 0), (true, 2 ^ 59)] =
    .ok [2 ^ 60, 2 ^ 60, 0, 2 ^ 59] := by
  decide +kernel

theorem halfRange_int {z : ℚ} (k : ℤ) (e : ℤ) (hk : |k| < 2 ^ 53) (he : -1074 ≤ e) (hz : z = k * 2 ^ e)
    (hb : |z| ≤ 2 ^ 60) : HalfRange z :=
  ⟨⟨k, e, hk, he, hz⟩, hb.trans (pow_le_pow_right₀ one_le_two (by norm_num))⟩

/-- A history with one feasible sample, of value 2^60. -/
def impDemo : History ℚ := { (History.new : History ℚ) with dimension := 1, data := ⟨1, 4, [0, 2 ^ 60, 0, 1]⟩ }

set_option maxRecDepth 100000 in
/-- C141: the hypotheses are met by `impDemo` and the four designs of `C141_tie`. -/
theorem C141_demo : IsMat impDemo.data 1 4 (fun i j => impDemo.data.buf.getD (j * 1 + i) 0) ∧
    (∀ i, i < 1 → FeasibleRow (fun i j => impDemo.data.buf.getD (j * 1 + i) 0) 4 i →
      HalfRange (impDemo.data.buf.getD (impDemo.dimension * 1 + i) 0)) ∧
    (∀ d ∈ ([(true, 2), (true, 1), (false, 0), (true, 2 ^ 59)] : List (Bool × ℚ)), d.1 = true → HalfRange d.2) ∧
    IsBestFeasible (fun i j => impDemo.data.buf.getD (j * 1 + i) 0) 1 4 impDemo.dimension (some (2 ^ 60)) ∧
    impDemo.calculateInitialImprovementValue.toOption = some (2 ^ 60) := by
  refine ⟨HistDemo.isMat 1 4 _ rfl, ?_, ?_, ?_, by decide +kernel⟩
  · intro i hi _
    obtain rfl : i = 0 := by omega
    exact halfRange_int 1 60 (by norm_num) (by norm_num) (by norm_num [impDemo]) (by norm_num [impDemo])
  · intro d hd
    simp only [List.mem_cons, List.not_mem_nil, or_false] at hd
    rcases hd with rfl | rfl | rfl | rfl
    · exact fun _ => halfRange_int 2 0 (by norm_num) (by norm_num) (by norm_num) (by norm_num)
    · exact fun _ => halfRange_int 1 0 (by norm_num) (by norm_num) (by norm_num) (by norm_num)
    · exact fun h => absurd h (by simp)
    · exact fun _ => halfRange_int 1 59 (by norm_num) (by norm_num) (by norm_num) (by norm_num)
  · refine ⟨⟨0, by decide, by norm_num [FeasibleRow, impDemo], by norm_num [impDemo]⟩, ?_⟩
    intro i hi _
    obtain rfl : i = 0 := by omega
    norm_num [impDemo]

theorem C141_false : ¬ C141_full ℚ := by
  intro hfull
  obtain ⟨d1, d2, d3, d4, d5⟩ := C141_demo
  obtain ⟨best, values, e, ev, -, h⟩ := hfull impDemo 1 4 _ (some (2 ^ 60)) _ d1 (by decide) (by simp [impDemo])
    (by simp [impDemo]) d2 d3 d4
  rw [e] at d5
  simp only [Except.toOption, Option.some.injEq] at d5
  subst d5
  rw [C141_tie] at ev
  cases ev
  exact lt_irrefl _ (h 1 0 1 2 _ _ (2 ^ 60) rfl rfl rfl rfl rfl rfl (by norm_num) (by norm_num))

/-- C141: the designs of value 2 and 2^59 are far enough apart to be told from each other. -/
example : ((2 ^ 60 - 2) / 2 ^ 52 : ℚ) < 2 ^ 59 - 2 := by norm_num

set_option maxRecDepth 100000 in
/-- Without a feasible sample the first feasible design becomes the reference. -/
example : Dbl.improvementValues (-dblMax : ℚ) [(false, 1), (true, 5), (true, 3), (true, 6)] =
    .ok [0, dblEps, 2, 0] := by
  decide +kernel

end Rodeo
