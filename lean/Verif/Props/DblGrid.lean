import Verif.Lemmas.DblTrip
import Mathlib.Data.Rat.Floor

/-! # C113: the values of a discrete parameter given in decimal notation -/

set_option linter.unusedSectionVars false

namespace Rodeo

open Spec Dbl

variable {K : Type} [Field K] [LinearOrder K] [IsStrictOrderedRing K] [FloorRing K]

/-- Parameter `i` was given the bounds `lb`, `ub` (decimal numbers, read to the nearest doubles). -/
def ReadBounds (s : DiscreteSetup K) (i : Nat) (lb ub : K) : Prop :=
  s.lb[i]? = some (lit lb) ∧ s.ub[i]? = some (lit ub)

/-- C113 in full: if the upper bound is the lower bound plus a whole number of steps, the upper bound is
one of the values that the parameter can take. -/
def C113_full (K : Type) [Field K] [LinearOrder K] [IsStrictOrderedRing K] [FloorRing K] : Prop :=
  ∀ (s : DiscreteSetup K) (i : Nat) (lb ub dx : K) (m : Nat) (vs : List K), 1 ≤ m → 0 < dx →
    ub = lb + m * dx → ReadBounds s i lb ub →
    Dbl.generateDiscreteValues s i (lit dx) = .ok vs → lit ub ∈ vs

/-- Between 0 and 0.3 in steps of 0.1 there are only the values 0, 0.1 and 0.2. -/
theorem C113_false : ¬ C113_full ℚ := by
  intro h
  have := h ⟨[lit 0], [lit (3 / 10)], [lit (1 / 10)], [0]⟩ 0 0 (3 / 10) (1 / 10) 3
    [0, fl (1 / 10), fl (2 / 10)] (by norm_num) (by norm_num) (by norm_num) ⟨rfl, rfl⟩ (by decide +kernel)
  exact absurd this (by decide +kernel)

/-- So a design at the upper bound 0.3 is simulated at 0.2. -/
theorem C113_lost : Dbl.designToSimulate (K := ℚ) ⟨[lit 0], [lit (3 / 10)], [lit (1 / 10)], [0]⟩ [1] =
    .ok ([1], [lit (2 / 10)]) := by decide +kernel

/-- C113, what holds of the code: for bounds up to `2 ^ 47` steps away from zero the values are computed,
there are as many of them as there should be or one less, and value number `k` differs from
`lower bound + k * step` by at most `2 ^ (-50)` of the size of the bounds.  Missing: the last value can be
lost (`C113_false`). -/
theorem C113_partial {s : DiscreteSetup K} {i : Nat} {lb ub dx : K} {m : Nat} (hm : 1 ≤ m)
    (hm32 : m + 1 < 2 ^ 32) (hub : ub = lb + m * dx) (hdx : 2 ^ (-1000 : ℤ) ≤ dx)
    (hS : |lb| + |ub| ≤ 2 ^ 47 * dx) (hbig : |lb| + |ub| ≤ 2 ^ (1000 : ℤ)) (hr : ReadBounds s i lb ub) :
    ∃ vs, Dbl.generateDiscreteValues s i (lit dx) = .ok vs ∧ (vs.length = m ∨ vs.length = m + 1) ∧
      ∀ (k : Nat) (v : K), vs[k]? = some v → |v - (lb + k * dx)| ≤ (|lb| + |ub|) / 2 ^ 50 := by
  have hdx0 : 0 < dx := (zp _).trans_le hdx
  have hnear := steps_near hm hub hdx hS
  set S := |lb| + |ub| with hSd
  have hm1 : (1 : K) ≤ m := by exact_mod_cast hm
  have hmS : (m : K) * dx ≤ S := by
    have h1 := le_abs_self ub; have h2 := neg_abs_le lb; linarith
  have hdS : dx ≤ S := by
    have : 1 * dx ≤ m * dx := mul_le_mul_of_nonneg_right hm1 hdx0.le
    linarith
  have hlS : |lb| ≤ S := by have := abs_nonneg ub; linarith
  have huS : |ub| ≤ S := by have := abs_nonneg lb; linarith
  have hL : |fl lb| ≤ 2 ^ (1000 : ℤ) := fl_abs_le (by norm_num) (hlS.trans hbig)
  have hU : |fl ub| ≤ 2 ^ (1000 : ℤ) := fl_abs_le (by norm_num) (huS.trans hbig)
  have hadx : |dx| = dx := abs_of_pos hdx0
  have c1 := lit_rel (x := dx) (by rw [hadx]; exact hdx)
  rw [hadx] at c1
  have c2 := abs_le.1 c1
  have c3 : eps * dx ≤ 1 / 2 * dx := mul_le_mul_of_nonneg_right (by unfold eps; norm_num) hdx0.le
  have hd0 : 0 < fl dx := by linarith
  have hd2 : fl dx ≤ 2 * dx := by linarith
  have e1001 : (2 : K) ^ (1001 : ℤ) = 2 ^ (1000 : ℤ) + 2 ^ (1000 : ℤ) := by
    have : (1001 : ℤ) = 1000 + 1 := by norm_num
    rw [this, zp_add, zpow_one]; ring
  have hsub : Dbl.sub (fl ub) (fl lb) = .ok (fl (fl ub - fl lb)) := by
    refine dbl_of_le (n := 1001) (by norm_num) (by norm_num) ?_
    rw [e1001]
    exact (abs_sub _ _).trans (add_le_add hU hL)
  set q := fl (fl (fl ub - fl lb) / fl dx) with hq
  have hqm := abs_le.1 hnear
  have hmb : (m : K) ≤ 2 ^ 32 := by
    have : ((m : Nat) : K) ≤ ((2 ^ 32 : Nat) : K) := by exact_mod_cast (by omega : m ≤ 2 ^ 32)
    exact this.trans (le_of_eq (by norm_num))
  have hdiv : Dbl.div (fl (fl ub - fl lb)) (fl dx) = .ok q := by
    unfold Dbl.div dbl
    rw [if_neg hd0.ne', if_pos]
    rw [← hq]
    have h1 : |q| ≤ 2 ^ 32 + 1 := by rw [abs_le]; constructor <;> linarith
    have h2 : (2 : K) ^ 32 + 1 < 2 ^ 33 := by norm_num
    have h3 : (2 : K) ^ 33 ≤ 2 ^ 1024 := pow_le_pow_right₀ (by norm_num) (by norm_num)
    exact h1.trans_lt (h2.trans_le h3)
  have hfl : ⌊q⌋.toNat = m - 1 ∨ ⌊q⌋.toNat = m := by
    have h1 : ⌊q⌋ ≤ m := by
      rw [← Int.lt_add_one_iff, Int.floor_lt]
      push_cast
      linarith
    have h2 : (m : ℤ) - 1 ≤ ⌊q⌋ := by
      rw [Int.le_floor]
      push_cast
      linarith
    omega
  have hu32 : toU32 q = .ok ⌊q⌋.toNat := by
    unfold toU32
    rw [if_neg]
    push Not
    refine ⟨by linarith, ?_⟩
    have h1 : (m : K) + 1 ≤ 2 ^ 32 - 1 := by
      have : ((m + 1 : Nat) : K) ≤ ((2 ^ 32 - 1 : Nat) : K) := by exact_mod_cast (by omega : m + 1 ≤ 2 ^ 32 - 1)
      push_cast at this
      norm_num at this ⊢
      exact this
    linarith
  set n := ⌊q⌋.toNat with hn
  have hmod : (n + 1) % 2 ^ 32 = n + 1 := Nat.mod_eq_of_lt (by omega)
  have hval : ∀ k, k < n + 1 → (do
      let l ← vat s.lb i
      let p ← Dbl.mul (k : K) (lit dx)
      Dbl.add l p) = .ok (fl (fl lb + fl ((k : K) * fl dx))) := by
    intro k hk
    have hkm : k ≤ m := by omega
    have hkm' : (k : K) ≤ m := by exact_mod_cast hkm
    have hkS : (k : K) * dx ≤ S := (mul_le_mul_of_nonneg_right hkm' hdx0.le).trans hmS
    have hk0 : (0 : K) ≤ k := by positivity
    refine bind_eq (vat_eq_ok.2 hr.1) ?_
    have hp : |(k : K) * fl dx| ≤ 2 ^ (1001 : ℤ) := by
      rw [abs_of_nonneg (mul_nonneg hk0 hd0.le), e1001]
      have : (k : K) * fl dx ≤ k * (2 * dx) := mul_le_mul_of_nonneg_left hd2 hk0
      linarith
    refine bind_eq (a := fl ((k : K) * fl dx)) (dbl_of_le (n := 1001) (by norm_num) (by norm_num) hp) ?_
    refine dbl_of_le (n := 1002) (by norm_num) (by norm_num) ?_
    have e1002 : (2 : K) ^ (1002 : ℤ) = 2 ^ (1001 : ℤ) + 2 ^ (1001 : ℤ) := by
      have : (1002 : ℤ) = 1001 + 1 := by norm_num
      rw [this, zp_add, zpow_one]; ring
    rw [e1002]
    refine (abs_add_le _ _).trans (add_le_add ?_ (fl_abs_le (by norm_num) hp))
    exact hL.trans (zp_mono (by norm_num))
  refine ⟨(List.range (n + 1)).map (fun k : Nat => fl (fl lb + fl ((k : K) * fl dx))), ?_, ?_, ?_⟩
  · unfold Dbl.generateDiscreteValues
    refine bind_eq (vat_eq_ok.2 hr.2) (bind_eq (vat_eq_ok.2 hr.1) ?_)
    rw [if_neg (show ¬ lit dx = 0 from hd0.ne')]
    refine bind_eq hsub (bind_eq hdiv (bind_eq hu32 ?_))
    rw [hmod]
    exact tab_ok hval
  · simp only [List.length_map, List.length_range]
    omega
  · intro k v hv
    have hk : k < n + 1 := by
      have := (List.getElem?_eq_some_iff.1 hv).1
      simpa using this
    rw [List.getElem?_map, List.getElem?_range hk, Option.map_some] at hv
    obtain rfl := Option.some.inj hv
    exact value_near hm (by omega) hub hdx

/-- The steps 0, 0.1, 0.2, 0.3 meet the hypotheses of `C113_partial`, and so do 10 000 steps of 0.01
from -50. -/
example : (1 ≤ 3 ∧ 3 + 1 < 2 ^ 32) ∧ (3 / 10 : ℚ) = 0 + (3 : Nat) * (1 / 10) ∧
    (2 : ℚ) ^ (-1000 : ℤ) ≤ 1 / 10 ∧ |(0 : ℚ)| + |3 / 10| ≤ 2 ^ 47 * (1 / 10) ∧
    |(0 : ℚ)| + |3 / 10| ≤ 2 ^ (1000 : ℤ) ∧
    ReadBounds (K := ℚ) ⟨[lit 0], [lit (3 / 10)], [lit (1 / 10)], [0]⟩ 0 0 (3 / 10) :=
  ⟨by decide, by decide +kernel, by decide +kernel, by decide +kernel, by decide +kernel, rfl, rfl⟩

example : (1 ≤ 10000 ∧ 10000 + 1 < 2 ^ 32) ∧ (50 : ℚ) = -50 + (10000 : Nat) * (1 / 100) ∧
    (2 : ℚ) ^ (-1000 : ℤ) ≤ 1 / 100 ∧ |(-50 : ℚ)| + |50| ≤ 2 ^ 47 * (1 / 100) ∧
    |(-50 : ℚ)| + |50| ≤ 2 ^ (1000 : ℤ) :=
  ⟨by decide, by decide +kernel, by decide +kernel, by decide +kernel, by decide +kernel⟩

theorem isDouble_int {z : ℤ} (h : |z| < 2 ^ 53) : IsDouble (z : K) :=
  ⟨z, 0, h, by norm_num, by simp⟩

theorem dbl_int {z : ℤ} (h : |z| < 2 ^ 53) : dbl (z : K) = .ok (z : K) := by
  have hd := isDouble_int (K := K) h
  unfold dbl
  rw [fl_of_double hd, if_pos]
  have h1 : ((|z| : ℤ) : K) < ((2 ^ 53 : ℤ) : K) := by exact_mod_cast h
  rw [Int.cast_abs] at h1
  have h2 : ((2 ^ 53 : ℤ) : K) = 2 ^ 53 := by norm_num
  rw [h2] at h1
  exact h1.trans_le (pow_le_pow_right₀ (by norm_num) (by norm_num))

/-- When bounds and step are integers nothing is lost and every value is exact. -/
theorem C113_integers {s : DiscreteSetup K} {i : Nat} {a : ℤ} {d m : Nat} (hd : 1 ≤ d) (hm : 1 ≤ m) (hm32 : m + 1 < 2 ^ 32)
    (ha : |a| < 2 ^ 53) (hb : |a + m * d| < 2 ^ 53) (hw : m * d < 2 ^ 53)
    (hr : ReadBounds s i (a : K) ((a + m * d : ℤ) : K)) :
    Dbl.generateDiscreteValues s i (lit (d : K)) =
      .ok ((List.range (m + 1)).map fun k : Nat => ((a + k * d : ℤ) : K)) := by
  have hd0 : (0 : K) < d := by exact_mod_cast hd
  have hlit : ∀ z : ℤ, |z| < 2 ^ 53 → lit (z : K) = z := fun z hz => fl_of_double (isDouble_int hz)
  obtain ⟨hl, hu⟩ := hr
  rw [hlit _ ha] at hl
  rw [hlit _ hb] at hu
  have hnat : ∀ k : Nat, k < 2 ^ 53 → |((k : Nat) : ℤ)| < 2 ^ 53 := by
    intro k hk; rw [abs_of_nonneg (by positivity)]; exact_mod_cast hk
  have hkd : ∀ k : Nat, k ≤ m → k * d < 2 ^ 53 := fun k hk => (Nat.mul_le_mul_right d hk).trans_lt hw
  have hdb : d < 2 ^ 53 := (Nat.le_mul_of_pos_left d hm).trans_lt hw
  have hdl : lit (d : K) = d := by
    have := hlit (d : ℤ) (hnat d hdb)
    simpa using this
  rw [hdl]
  unfold Dbl.generateDiscreteValues
  refine bind_eq (vat_eq_ok.2 hu) (bind_eq (vat_eq_ok.2 hl) ?_)
  rw [if_neg hd0.ne']
  have e1 : Dbl.sub ((a + m * d : ℤ) : K) ((a : ℤ) : K) = .ok (((m * d : Nat) : ℤ) : K) := by
    have : ((a + m * d : ℤ) : K) - ((a : ℤ) : K) = (((m * d : Nat) : ℤ) : K) := by push_cast; ring
    unfold Dbl.sub
    rw [this]
    exact dbl_int (hnat _ hw)
  have e2 : Dbl.div (((m * d : Nat) : ℤ) : K) (d : K) = .ok (((m : Nat) : ℤ) : K) := by
    have : (((m * d : Nat) : ℤ) : K) / (d : K) = (((m : Nat) : ℤ) : K) := by
      push_cast
      field_simp
    unfold Dbl.div
    rw [if_neg hd0.ne', this]
    exact dbl_int (hnat _ (by omega))
  have e3 : toU32 (((m : Nat) : ℤ) : K) = .ok m := by
    unfold toU32
    rw [if_neg]
    · simp
    · push Not
      have h1 : ((m : Nat) : K) ≤ ((2 ^ 32 - 2 : Nat) : K) := by exact_mod_cast (by omega : m ≤ 2 ^ 32 - 2)
      have h2 : ((2 ^ 32 - 2 : Nat) : K) < 2 ^ 32 := by norm_num
      have h3 : (0 : K) ≤ m := by positivity
      constructor
      · push_cast; linarith
      · push_cast; linarith
  refine bind_eq e1 (bind_eq e2 (bind_eq e3 ?_))
  rw [Nat.mod_eq_of_lt hm32]
  refine tab_ok fun k hk => ?_
  refine bind_eq (vat_eq_ok.2 hl) ?_
  have e4 : Dbl.mul (k : K) (d : K) = .ok (((k * d : Nat) : ℤ) : K) := by
    have : (k : K) * (d : K) = (((k * d : Nat) : ℤ) : K) := by push_cast; ring
    unfold Dbl.mul
    rw [this]
    exact dbl_int (hnat _ (hkd k (by omega)))
  refine bind_eq e4 ?_
  have : ((a : ℤ) : K) + (((k * d : Nat) : ℤ) : K) = ((a + k * d : ℤ) : K) := by push_cast; ring
  unfold Dbl.add
  rw [this]
  refine dbl_int ?_
  have h0 : (0 : ℤ) ≤ (k : ℤ) * d := by positivity
  have h1 : (k : ℤ) * d ≤ m * d := by exact_mod_cast Nat.mul_le_mul_right d (by omega : k ≤ m)
  rw [abs_lt] at ha hb ⊢
  constructor <;> linarith

/-- Seven values from -3 to 15 in steps of 3. -/
example : (1 ≤ 3 ∧ 1 ≤ 6 ∧ 6 + 1 < 2 ^ 32) ∧ |(-3 : ℤ)| < 2 ^ 53 ∧ |(-3 : ℤ) + (6 : Nat) * (3 : Nat)| < 2 ^ 53 ∧ 6 * 3 < 2 ^ 53 ∧
    ReadBounds (K := ℚ) ⟨[lit 0, lit (-3)], [lit 1, lit 15], [lit 3], [1]⟩ 1 ((-3 : ℤ) : ℚ)
      (((-3 : ℤ) + (6 : Nat) * (3 : Nat) : ℤ) : ℚ) ∧
    Dbl.generateDiscreteValues (K := ℚ) ⟨[lit 0, lit (-3)], [lit 1, lit 15], [lit 3], [1]⟩ 1 (lit 3) =
      .ok [-3, 0, 3, 6, 9, 12, 15] :=
  ⟨by decide, by decide, by decide, by decide, ⟨by decide +kernel, by decide +kernel⟩, by decide +kernel⟩

end Rodeo
