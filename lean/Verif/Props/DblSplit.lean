import Verif.Model.DblSplit
import Verif.Lemmas.DblSum
import Mathlib.Data.Rat.Floor

/-! # C140: how many samples are kept for validation, in double arithmetic -/

set_option linter.unusedSectionVars false

namespace Rodeo
open Spec

variable {K : Type} [Field K] [LinearOrder K] [IsStrictOrderedRing K] [FloorRing K]

/-- **C140** as stated: the share of the samples the user asked for, rounded down.  `Dbl.lit q` is the double
that the program has for the number `q`. -/
def C140_full (K : Type) [Field K] [LinearOrder K] [IsStrictOrderedRing K] [FloorRing K] : Prop :=
  ∀ (q : K) (N : Nat), 0 ≤ q → q ≤ 1 → N < 2 ^ 31 →
    ∃ k, Dbl.validationCount N (Dbl.lit q) = .ok k ∧ (k : Int) = ⌊q * N⌋

/-- The number of validation samples for a double between 0 and 1: the exact product rounded to a double,
rounded down; it lies between the floor and the ceiling of the exact product and is at most the number of
samples. -/
theorem C140_double {r : K} {N : Nat} (h0 : 0 ≤ r) (h1 : r ≤ 1) (hN : N < 2 ^ 31) :
    ∃ k, Dbl.validationCount N r = .ok k ∧ k ≤ N ∧ (k : Int) = ⌊Dbl.fl (r * N)⌋ ∧
      ⌊r * N⌋ ≤ (k : Int) ∧ (k : Int) ≤ ⌈r * N⌉ := by
  have hNd : IsDouble (N : K) := Dbl.isDouble_nat (hN.trans (by norm_num))
  have hp0 : 0 ≤ r * N := mul_nonneg h0 (Nat.cast_nonneg N)
  have hpN : r * N ≤ N := mul_le_of_le_one_left (Nat.cast_nonneg N) h1
  have hf0 : 0 ≤ Dbl.fl (r * N) := Dbl.double_le_fl Dbl.isDouble_zero hp0
  have hfN : Dbl.fl (r * N) ≤ N := Dbl.fl_le_double hNd hpN
  have hk0 : 0 ≤ ⌊Dbl.fl (r * N)⌋ := Int.floor_nonneg.2 hf0
  have hkN : ⌊Dbl.fl (r * N)⌋ ≤ N := by
    have := Int.floor_le_floor hfN
    simpa using this
  have hint : ∀ z : Int, 0 ≤ z → z ≤ N → IsDouble (z : K) := by
    intro z hz hzN
    obtain ⟨n, rfl⟩ := Int.eq_ofNat_of_zero_le hz
    have : IsDouble ((n : Nat) : K) := Dbl.isDouble_nat (by
      have : n ≤ N := by exact_mod_cast hzN
      exact (lt_of_le_of_lt this hN).trans (by norm_num))
    simpa using this
  have e1 : Dbl.mul r (N : K) = .ok (Dbl.fl (r * N)) := by
    refine Dbl.dbl_of_le (n := 31) (by norm_num) (by norm_num) ?_
    rw [abs_of_nonneg hp0]
    refine hpN.trans ?_
    have : (N : K) ≤ ((2 ^ 31 : Nat) : K) := by exact_mod_cast hN.le
    refine this.trans (by norm_num)
  have e2 : Dbl.toInt (Dbl.fl (r * N)) = .ok ⌊Dbl.fl (r * N)⌋ := by
    unfold Dbl.toInt
    dsimp only
    rw [if_pos hf0, if_pos (by constructor <;> omega)]
  refine ⟨⌊Dbl.fl (r * N)⌋.toNat, ?_, by omega, Int.toNat_of_nonneg hk0, ?_, ?_⟩
  · unfold Dbl.validationCount
    refine bind_eq e1 (bind_eq e2 ?_)
    rw [if_neg (by omega), if_neg (by omega)]
  · rw [Int.toNat_of_nonneg hk0, Int.le_floor]
    refine Dbl.double_le_fl (hint _ (Int.floor_nonneg.2 hp0) ?_) (Int.floor_le _)
    have := Int.floor_le_floor hpN
    simpa using this
  · rw [Int.toNat_of_nonneg hk0]
    have h2 : Dbl.fl (r * N) ≤ (⌈r * N⌉ : K) :=
      Dbl.fl_le_double (hint _ (Int.ceil_nonneg hp0) (by rw [Int.ceil_le]; exact_mod_cast hpN)) (Int.le_ceil _)
    have h3 := Int.floor_le_floor h2
    simpa using h3

/-- C140 if the ratio is exactly a double and the share is a whole number (one half, one quarter, all, none):
exactly that many samples. -/
theorem C140_whole {r : K} {N M : Nat} (h0 : 0 ≤ r) (h1 : r ≤ 1) (hN : N < 2 ^ 31) (hM : r * N = M) :
    Dbl.validationCount N r = .ok M := by
  obtain ⟨k, e, -, -, h2, h3⟩ := C140_double h0 h1 hN
  rw [hM] at h2 h3
  simp only [Int.floor_natCast, Int.ceil_natCast] at h2 h3
  rw [e]; congr 1; omega

/-- C140 for any number between 0 and 1 whose share is not within `2 ^ -20` of a whole number; in general
the number differs by at most one.  Missing: shares that are whole numbers or very close to one
(`C140_false`). -/
theorem C140_partial {q : K} {N : Nat} (h0 : 0 ≤ q) (h1 : q ≤ 1) (hN : N < 2 ^ 31) :
    ∃ k, Dbl.validationCount N (Dbl.lit q) = .ok k ∧ k ≤ N ∧
      ⌊q * N⌋ - 1 ≤ (k : Int) ∧ (k : Int) ≤ ⌊q * N⌋ + 1 ∧
      ((∀ z : Int, 1 / 2 ^ 20 ≤ |q * N - z|) → (k : Int) = ⌊q * N⌋) := by
  have hl0 : 0 ≤ Dbl.lit q := Dbl.double_le_fl Dbl.isDouble_zero h0
  have hl1 : Dbl.lit q ≤ 1 := Dbl.fl_le_double Dbl.isDouble_one h1
  obtain ⟨k, e, hk, h2, -, -⟩ := C140_double hl0 hl1 hN
  have hNK : (N : K) ≤ 2 ^ 31 := by
    have : (N : K) ≤ ((2 ^ 31 : Nat) : K) := by exact_mod_cast hN.le
    refine this.trans (by norm_num)
  have hN0 : (0 : K) ≤ N := Nat.cast_nonneg N
  have heta : (Dbl.eta : K) ≤ 1 / 2 ^ 60 := by
    have : (Dbl.eta : K) ≤ 2 ^ (-60 : ℤ) := Dbl.zp_mono (by norm_num)
    refine this.trans (le_of_eq ?_)
    rw [zpow_neg]; norm_num
  have hrel : ∀ {x B : K}, 0 ≤ x → x ≤ B → |Dbl.fl x - x| ≤ 1 / 2 ^ 53 * B + 1 / 2 ^ 60 := by
    intro x B hx hB
    have := Dbl.fl_rel x
    rw [abs_of_nonneg hx] at this
    have h3 : Dbl.eps * x ≤ 1 / 2 ^ 53 * B := mul_le_mul_of_nonneg_left hB (Dbl.eps_pos).le
    linarith
  have ha := hrel h0 h1
  have hb : |Dbl.lit q * N - q * N| ≤ (1 / 2 ^ 53 * 1 + 1 / 2 ^ 60) * 2 ^ 31 := by
    rw [← sub_mul, abs_mul, abs_of_nonneg hN0]
    exact mul_le_mul ha hNK hN0 (by positivity)
  have hc := hrel (mul_nonneg hl0 hN0) ((mul_le_of_le_one_left hN0 hl1).trans hNK)
  have hdiff : |Dbl.fl (Dbl.lit q * N) - q * N| < 1 / 2 ^ 20 := by
    have := abs_sub_le (Dbl.fl (Dbl.lit q * N)) (Dbl.lit q * N) (q * N)
    have h3 : (1 / 2 ^ 53 * 1 + 1 / 2 ^ 60 : K) * 2 ^ 31 + (1 / 2 ^ 53 * 2 ^ 31 + 1 / 2 ^ 60) < 1 / 2 ^ 20 := by
      norm_num
    linarith
  generalize Dbl.fl (Dbl.lit q * N) = y at *
  generalize q * (N : K) = x at *
  have hs : (1 / 2 ^ 20 : K) < 1 := by norm_num
  have hd := abs_lt.1 hdiff
  have f1 := Int.floor_le x
  have f2 := Int.lt_floor_add_one x
  refine ⟨k, e, hk, ?_, ?_, ?_⟩
  · rw [h2, Int.le_floor]; push_cast; linarith [hd.1]
  · rw [h2, ← Int.lt_add_one_iff, Int.floor_lt]; push_cast; linarith [hd.2]
  · intro hz
    rw [h2, Int.floor_eq_iff]
    have z1 := hz ⌊x⌋
    have z2 := hz (⌊x⌋ + 1)
    rw [abs_of_nonneg (by linarith)] at z1
    rw [abs_of_nonpos (by push_cast; linarith)] at z2
    push_cast at z2
    constructor
    · linarith [hd.1]
    · linarith [hd.2]

set_option maxRecDepth 100000 in
/-- 29 percent of 100 samples are 28 samples; 70 percent of 10 are 7, although the double for 0.7 is less. -/
theorem C140_examples : Dbl.validationCount 100 (Dbl.lit (29 / 100) : ℚ) = .ok 28 ∧
    Dbl.validationCount 10 (Dbl.lit (7 / 10) : ℚ) = .ok 7 ∧ Dbl.lit (7 / 10) < (7 / 10 : ℚ) ∧
    Dbl.validationCount 10 (Dbl.lit (1 / 4) : ℚ) = .ok 2 := by
  decide +kernel

theorem C140_false : ¬ C140_full ℚ := by
  intro h
  obtain ⟨k, e, hk⟩ := h (29 / 100) 100 (by norm_num) (by norm_num) (by norm_num)
  rw [C140_examples.1] at e
  cases e
  norm_num at hk

/-- C140: a third of 10 samples: the hypotheses are met. -/
example : (∀ z : Int, (1 / 2 ^ 20 : ℚ) ≤ |(1 / 3 : ℚ) * ((10 : Nat) : ℚ) - (z : ℚ)|) := by
  intro z
  rcases le_or_gt z 3 with h | h
  · have : (z : ℚ) ≤ 3 := by exact_mod_cast h
    rw [abs_of_nonneg (by push_cast; linarith)]
    push_cast; linarith
  · have : (4 : ℚ) ≤ z := by exact_mod_cast h
    rw [abs_of_nonpos (by push_cast; linarith)]
    push_cast; linarith

/-- C140: half of 10 samples. -/
example : Dbl.validationCount 10 (1 / 2 : ℚ) = .ok 5 :=
  C140_whole (by norm_num) (by norm_num) (by norm_num) (by norm_num)

end Rodeo
