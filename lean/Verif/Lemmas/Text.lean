import Verif.Lemmas.Basic
import Verif.Model.Text
import Verif.Spec.Text
import Mathlib.Tactic.Linarith
import Mathlib.Tactic.FieldSimp
import Mathlib.Tactic.IntervalCases
import Mathlib.Tactic.Ring
import Mathlib.Tactic.Positivity
import Mathlib.Tactic.NormNum

set_option linter.unusedSectionVars false

/-! # Lemmas on text -/

namespace Rodeo.Text

theorem digitChar_spec (d : Nat) (h : d < 10) :
    isDigit (digitChar d) = true ∧ digitVal (digitChar d) = d := by
  interval_cases d <;> decide

/-- All characters are digits. -/
def AllDigits (s : Str) : Prop := ∀ c ∈ s, isDigit c = true

theorem padDigits_spec (p n : Nat) :
    AllDigits (padDigits p n) ∧ (padDigits p n).length = p ∧ digitsVal (padDigits p n) = n % 10 ^ p := by
  induction p generalizing n with
  | zero => exact ⟨by simp [padDigits, AllDigits], rfl, by simp [padDigits, digitsVal, Nat.mod_one]⟩
  | succ p ih =>
    obtain ⟨h1, h2, h3⟩ := ih (n / 10)
    have hd := digitChar_spec (n % 10) (Nat.mod_lt _ (by norm_num))
    refine ⟨?_, by simp [padDigits, h2], ?_⟩
    · intro c hc
      simp only [padDigits, List.mem_append, List.mem_singleton] at hc
      rcases hc with hc | rfl
      · exact h1 c hc
      · exact hd.1
    · have e : digitsVal (padDigits (p + 1) n) = 10 * digitsVal (padDigits p (n / 10)) +
          digitVal (digitChar (n % 10)) := by
        simp [padDigits, digitsVal, List.foldl_append]
      rw [e, h3, hd.2, pow_succ, Nat.mul_comm (10 ^ p) 10, Nat.mod_mul]
      omega

theorem natStr_spec (n : Nat) :
    AllDigits (natStr n) ∧ natStr n ≠ [] ∧ digitsVal (natStr n) = n := by
  obtain ⟨h1, h2, h3⟩ := padDigits_spec (Nat.log 10 n + 1) n
  refine ⟨h1, ?_, ?_⟩
  · intro h
    unfold natStr at h
    rw [h] at h2
    simp at h2
  · unfold natStr
    rw [h3]
    exact Nat.mod_eq_of_lt (Nat.lt_pow_succ_log_self (by norm_num) n)

theorem digitsVal_from (s : Str) (a : Nat) :
    s.foldl (fun a c => 10 * a + digitVal c) a = a * 10 ^ s.length + digitsVal s := by
  unfold digitsVal
  induction s generalizing a with
  | nil => simp
  | cons c s ih =>
    simp only [List.foldl_cons, List.length_cons]
    rw [ih (10 * a + digitVal c), ih (10 * 0 + digitVal c)]
    ring

theorem digitsVal_append (s t : Str) :
    digitsVal (s ++ t) = digitsVal s * 10 ^ t.length + digitsVal t := by
  conv_lhs => unfold digitsVal
  rw [List.foldl_append, digitsVal_from]
  rfl

theorem digitsVal_zeros (k : Nat) : digitsVal (List.replicate k '0') = 0 := by
  induction k with
  | zero => rfl
  | succ k ih =>
    rw [List.replicate_succ, ← List.singleton_append, digitsVal_append, ih]
    simp [digitsVal, digitVal]

/-- The text does not start with a digit. -/
def NoDigit (s : Str) : Prop := ∀ c, s.head? = some c → isDigit c = false

theorem takeDigits_append {ds rest : Str} (h : AllDigits ds) (hr : NoDigit rest) :
    takeDigits (ds ++ rest) = (ds, rest) := by
  induction ds with
  | nil =>
    cases rest with
    | nil => rfl
    | cons c s =>
      have := hr c rfl
      simp [takeDigits, this]
  | cons c s ih =>
    have h1 := h c (by simp)
    have h2 := ih (fun d hd => h d (by simp [hd]))
    simp [takeDigits, h1, h2]

theorem isDigit_not_sign {c : Char} (h : isDigit c = true) :
    c ≠ '-' ∧ c ≠ '+' ∧ isSpace c = false ∧ c ≠ '.' ∧ c ≠ ',' ∧ c ≠ '\n' ∧ c ≠ 'e' := by
  refine ⟨?_, ?_, ?_, ?_, ?_, ?_, ?_⟩ <;> try (rintro rfl; exact absurd h (by decide))
  simp only [isDigit, Bool.and_eq_true, decide_eq_true_eq] at h
  simp only [isSpace, Bool.or_eq_false_iff, beq_eq_false_iff_ne, Bool.and_eq_false_iff,
    decide_eq_false_iff_not]
  omega

section Numbers

variable {K : Type} [Field K] [LinearOrder K] [IsStrictOrderedRing K] [FloorRing K]

/-- What `stod` reads from a printed decimal number. -/
theorem stod_decimal (neg : Bool) {I Fr E : Str} (hI : AllDigits I) (hI0 : I ≠ [])
    (hF : AllDigits Fr) (hE : NoDigit E) (hE' : E.head? ≠ some '.') :
    stod ((if neg then ['-'] else []) ++ I ++ (if Fr = [] then [] else '.' :: Fr) ++ E) =
      .ok (if neg then
          -((digitsVal (I ++ Fr) : K) * (10 : K) ^ (takeExponent E - (Fr.length : Int)))
        else (digitsVal (I ++ Fr) : K) * (10 : K) ^ (takeExponent E - (Fr.length : Int))) := by
  obtain ⟨c, s, rfl⟩ := List.exists_cons_of_ne_nil hI0
  have hc := isDigit_not_sign (hI c (by simp))
  have hsp : skipSpace ((if neg then ['-'] else []) ++ (c :: s) ++
      (if Fr = [] then [] else '.' :: Fr) ++ E) = (if neg then ['-'] else []) ++ (c :: s) ++
      (if Fr = [] then [] else '.' :: Fr) ++ E := by
    cases neg
    · simp [skipSpace, hc.2.2.1]
    · have : isSpace '-' = false := by decide
      simp [skipSpace, this]
  have hsg : takeSign ((if neg then ['-'] else []) ++ (c :: s) ++
      (if Fr = [] then [] else '.' :: Fr) ++ E) =
      (neg, (c :: s) ++ ((if Fr = [] then [] else '.' :: Fr) ++ E)) := by
    cases neg
    · simp [takeSign, hc.1, hc.2.1]
    · simp [takeSign]
  have hnd : NoDigit ((if Fr = [] then [] else '.' :: Fr) ++ E) := by
    split_ifs
    · simpa using hE
    · intro d hd
      simp only [List.cons_append, List.head?_cons, Option.some.injEq] at hd
      rw [← hd]
      decide
  have hfr : takeFraction ((if Fr = [] then [] else '.' :: Fr) ++ E) = (Fr, E) := by
    split_ifs with h
    · subst h
      cases E with
      | nil => rfl
      | cons d E =>
        have : d ≠ '.' := by
          rintro rfl
          exact hE' rfl
        simp [takeFraction, this]
    · simp only [List.cons_append, takeFraction, if_true]
      exact takeDigits_append hF hE
  unfold stod
  rw [hsp, hsg]
  dsimp only
  rw [takeDigits_append hI hnd]
  dsimp only
  rw [hfr, if_neg (by simp)]

theorem padDigits_ne_nil {p : Nat} (hp : p ≠ 0) (n : Nat) : padDigits p n ≠ [] := by
  intro h
  have := (padDigits_spec p n).2.1
  rw [h] at this
  exact hp this.symm

theorem digits_split (p n : Nat) : digitsVal (natStr (n / 10 ^ p) ++ padDigits p n) = n := by
  rw [digitsVal_append, (natStr_spec _).2.2, (padDigits_spec p n).2.1, (padDigits_spec p n).2.2]
  exact Nat.div_add_mod' n (10 ^ p)

/-- A decimal fraction with the exponent suffix `E`. -/
theorem stod_parts (neg : Bool) (p n : Nat) {E : Str} (hE : NoDigit E) (hE' : E.head? ≠ some '.') :
    stod ((if neg then ['-'] else []) ++ natStr (n / 10 ^ p) ++
        (if p = 0 then [] else '.' :: padDigits p n) ++ E) =
      .ok (if neg then -((n : K) * (10 : K) ^ (takeExponent E - (p : Int)))
        else (n : K) * (10 : K) ^ (takeExponent E - (p : Int))) := by
  have h := stod_decimal (K := K) neg (natStr_spec (n / 10 ^ p)).1 (natStr_spec (n / 10 ^ p)).2.1
    (padDigits_spec p n).1 hE hE'
  rw [digits_split, (padDigits_spec p n).2.1] at h
  rw [← h]
  congr 3
  by_cases hp : p = 0
  · subst hp
    simp [padDigits]
  · rw [if_neg hp, if_neg (padDigits_ne_nil hp n)]

theorem signStr_eq (x : K) : signStr x = if decide (x < 0) then ['-'] else [] := by
  unfold signStr
  by_cases h : x < 0 <;> simp [h]

theorem round_toNat {y : K} (hy : 0 ≤ y) : ((round y).toNat : K) = (round y : K) := by
  have h0 : 0 ≤ round y := by
    rw [round_eq]
    exact Int.floor_nonneg.2 (by positivity)
  have : ((round y).toNat : Int) = round y := Int.toNat_of_nonneg h0
  exact_mod_cast congrArg (Int.cast : Int → K) this

theorem sign_mul_abs (x a : K) :
    (if decide (x < 0) then -a else a) - x = if x < 0 then -(a - |x|) else a - |x| := by
  by_cases h : x < 0
  · simp only [h, decide_true, if_true, abs_of_neg h]
    ring
  · simp only [h, decide_false, Bool.false_eq_true, if_false, abs_of_nonneg (not_lt.1 h)]

theorem abs_sign_sub (x a : K) :
    |(if decide (x < 0) then -a else a) - x| = |a - (|x|)| := by
  rw [sign_mul_abs]
  split_ifs
  · exact abs_neg _
  · rfl

/-- Fixed notation with `p` digits read back: an error of at most half a unit in the last digit. -/
theorem stod_fixedStr (p : Nat) (x : K) :
    ∃ y : K, stod (fixedStr p x) = .ok y ∧ |y - x| ≤ 1 / 2 / 10 ^ p := by
  have h := stod_parts (K := K) (decide (x < 0)) p (round (|x| * 10 ^ p)).toNat (E := [])
    (by intro c hc; cases hc) (by simp)
  rw [List.append_nil, ← signStr_eq] at h
  refine ⟨_, h, ?_⟩
  rw [abs_sign_sub]
  have hp : (0 : K) < 10 ^ p := by positivity
  have hz : (10 : K) ^ (takeExponent [] - (p : Int)) = (10 ^ p)⁻¹ := by
    simp [takeExponent, zpow_neg]
  rw [hz, round_toNat (by positivity)]
  have := abs_sub_round (|x| * 10 ^ p)
  rw [abs_sub_comm] at this
  have e : (round (|x| * 10 ^ p) : K) * (10 ^ p)⁻¹ - |x| =
      ((round (|x| * 10 ^ p) : K) - |x| * 10 ^ p) * (10 ^ p)⁻¹ := by
    field_simp
  rw [e, abs_mul, abs_of_pos (inv_pos.2 hp), div_eq_mul_inv]
  exact mul_le_mul_of_nonneg_right this (inv_pos.2 hp).le

/-- A number with at most `p` digits after the point survives unchanged. -/
theorem stod_fixedStr_exact (p : Nat) {x : K} (hx : Spec.Decimals p x) :
    stod (fixedStr p x) = .ok x := by
  have h := stod_parts (K := K) (decide (x < 0)) p (round (|x| * 10 ^ p)).toNat (E := [])
    (by intro c hc; cases hc) (by simp)
  rw [List.append_nil, ← signStr_eq] at h
  refine h.trans (congrArg _ ?_)
  obtain ⟨z, hz⟩ := hx
  have hp : (0 : K) < 10 ^ p := by positivity
  have e : |x| * 10 ^ p = ((|z| : Int) : K) := by
    rw [Int.cast_abs, ← hz, abs_mul, abs_of_pos hp]
  have hzp : (10 : K) ^ (takeExponent [] - (p : Int)) = (10 ^ p)⁻¹ := by
    simp [takeExponent, zpow_neg]
  have h1 : (((round (|x| * 10 ^ p)).toNat : K)) = |x| * 10 ^ p := by
    rw [round_toNat (by positivity), e, round_intCast]
  rw [h1, hzp, mul_assoc, mul_inv_cancel₀ hp.ne', mul_one]
  have := sign_mul_abs x |x|
  rw [sub_self, neg_zero, ite_self, sub_eq_zero] at this
  exact this

theorem takeExponent_expStr (e : Int) : takeExponent (expStr e) = e := by
  have key : ∀ ds : Str, AllDigits ds → takeDigits ds = (ds, []) := by
    intro ds h
    have := takeDigits_append (rest := []) h (by intro c hc; cases hc)
    simpa using this
  have hv : ∃ ds : Str, AllDigits ds ∧ digitsVal ds = e.natAbs ∧
      expStr e = 'e' :: (if e < 0 then '-' else '+') :: ds := by
    unfold expStr
    split_ifs with h1 h2 h2
    · exact ⟨_, (padDigits_spec 2 _).1, by
        rw [(padDigits_spec 2 _).2.2]; exact Nat.mod_eq_of_lt (by omega), rfl⟩
    · exact ⟨_, (natStr_spec _).1, (natStr_spec _).2.2, rfl⟩
    · exact ⟨_, (padDigits_spec 2 _).1, by
        rw [(padDigits_spec 2 _).2.2]; exact Nat.mod_eq_of_lt (by omega), rfl⟩
    · exact ⟨_, (natStr_spec _).1, (natStr_spec _).2.2, rfl⟩
  obtain ⟨ds, hd, hval, he⟩ := hv
  rw [he]
  by_cases h : e < 0
  · simp only [h, if_true, takeExponent, true_or, takeSign]
    rw [key ds hd, hval]
    omega
  · simp only [h, if_false, takeExponent, true_or, if_true, takeSign,
      if_neg (show ¬ ('+' = '-') by decide)]
    rw [key ds hd]
    simp only [Bool.false_eq_true, if_false, hval]
    omega

theorem expStr_head (e : Int) : NoDigit (expStr e) ∧ (expStr e).head? ≠ some '.' := by
  unfold expStr
  refine ⟨?_, by simp⟩
  intro c hc
  simp only [List.head?_cons, Option.some.injEq] at hc
  rw [← hc]
  decide

/-- The decimal approximation of a nonzero number with `p + 1` digits. -/
theorem sciParts_spec (p : Nat) {x : K} (hx : x ≠ 0) :
    (((sciParts p x).1 : K) * (10 : K) ^ ((sciParts p x).2 - (p : Int)) =
      (round (|x| / (10 : K) ^ (Int.log 10 |x| - (p : Int))) : K) *
        (10 : K) ^ (Int.log 10 |x| - (p : Int))) ∧
    10 ^ p ≤ (sciParts p x).1 ∧ (sciParts p x).1 < 10 ^ (p + 1) := by
  have hpos : 0 < |x| := abs_pos.2 hx
  set e := Int.log 10 |x| with he
  have h1 : (10 : K) ^ e ≤ |x| := by
    have := Int.zpow_log_le_self (R := K) (b := 10) (by norm_num) hpos
    exact_mod_cast this
  have h2 : |x| < (10 : K) ^ (e + 1) := by
    have := Int.lt_zpow_succ_log_self (R := K) (b := 10) (by norm_num) |x|
    exact_mod_cast this
  have hq : (0 : K) < (10 : K) ^ (e - (p : Int)) := zpow_pos (by norm_num) _
  set y := |x| / (10 : K) ^ (e - (p : Int)) with hy
  have hy1 : ((10 ^ p : Nat) : K) ≤ y := by
    rw [hy, le_div_iff₀ hq]
    refine le_trans (le_of_eq ?_) h1
    push_cast
    rw [← zpow_natCast, ← zpow_add₀ (by norm_num)]
    congr 1
    ring
  have hy2 : y < ((10 ^ (p + 1) : Nat) : K) := by
    rw [hy, div_lt_iff₀ hq]
    refine lt_of_lt_of_eq h2 ?_
    push_cast
    rw [← zpow_natCast, ← zpow_add₀ (by norm_num)]
    congr 1
    push_cast
    ring
  have hr1 : ((10 ^ p : Nat) : Int) ≤ round y := by
    rw [round_eq, Int.le_floor]
    push_cast at hy1 ⊢
    linarith
  have hr2 : round y ≤ ((10 ^ (p + 1) : Nat) : Int) := by
    rw [round_eq]
    apply Int.lt_add_one_iff.1
    rw [Int.floor_lt]
    push_cast at hy2 ⊢
    linarith
  have hm : ((round y).toNat : Int) = round y :=
    Int.toNat_of_nonneg (le_trans (by positivity) hr1)
  have hmK : ((round y).toNat : K) = (round y : K) := by exact_mod_cast congrArg (Int.cast : Int → K) hm
  have hm1 : 10 ^ p ≤ (round y).toNat := by
    have : ((10 ^ p : Nat) : Int) ≤ ((round y).toNat : Int) := by rw [hm]; exact hr1
    exact_mod_cast this
  have hm2 : (round y).toNat ≤ 10 ^ (p + 1) := by
    have : ((round y).toNat : Int) ≤ ((10 ^ (p + 1) : Nat) : Int) := by rw [hm]; exact hr2
    exact_mod_cast this
  have hdef : sciParts p x =
      if (round y).toNat = 10 ^ (p + 1) then (10 ^ p, e + 1) else ((round y).toNat, e) := rfl
  rw [hdef]
  split_ifs with hc
  · refine ⟨?_, le_refl _, by dsimp only; exact Nat.pow_lt_pow_right (by norm_num) (by omega)⟩
    dsimp only
    rw [← hmK, hc]
    push_cast
    rw [pow_succ, mul_assoc]
    congr 1
    rw [← zpow_one_add₀ (by norm_num)]
    congr 1
    ring
  · exact ⟨by dsimp only; rw [hmK], hm1, lt_of_le_of_ne hm2 hc⟩

/-- Relative error of the approximation with `p + 1` significant digits. -/
theorem sciParts_close (p : Nat) {x : K} (hx : x ≠ 0) :
    |((sciParts p x).1 : K) * (10 : K) ^ ((sciParts p x).2 - (p : Int)) - (|x|)| ≤
      1 / 2 / 10 ^ p * |x| := by
  rw [(sciParts_spec p hx).1]
  have hpos : 0 < |x| := abs_pos.2 hx
  set e := Int.log 10 |x| with he
  have h1 : (10 : K) ^ e ≤ |x| := by
    have := Int.zpow_log_le_self (R := K) (b := 10) (by norm_num) hpos
    exact_mod_cast this
  have hq : (0 : K) < (10 : K) ^ (e - (p : Int)) := zpow_pos (by norm_num) _
  set q := (10 : K) ^ (e - (p : Int)) with hqd
  have hr := abs_sub_round (|x| / q)
  rw [abs_sub_comm] at hr
  have e1 : (round (|x| / q) : K) * q - |x| = ((round (|x| / q) : K) - |x| / q) * q := by
    field_simp
  rw [e1, abs_mul, abs_of_pos hq]
  calc _ ≤ 1 / 2 * q := mul_le_mul_of_nonneg_right hr hq.le
    _ = 1 / 2 / 10 ^ p * (10 : K) ^ e := by
        rw [hqd, zpow_sub₀ (by norm_num), zpow_natCast]
        field_simp
    _ ≤ _ := mul_le_mul_of_nonneg_left h1 (by positivity)

/-- A number with at most `p + 1` significant digits is its own approximation. -/
theorem sciParts_exact (p : Nat) {x : K} (hx : x ≠ 0) (hs : Spec.SigDigits (p + 1) x) :
    ((sciParts p x).1 : K) * (10 : K) ^ ((sciParts p x).2 - (p : Int)) = |x| := by
  rw [(sciParts_spec p hx).1]
  have hpos : 0 < |x| := abs_pos.2 hx
  set e := Int.log 10 |x| with he
  have h1 : (10 : K) ^ e ≤ |x| := by
    have := Int.zpow_log_le_self (R := K) (b := 10) (by norm_num) hpos
    exact_mod_cast this
  obtain ⟨k, j, hk, hkl⟩ := hs
  have hj : e - (p : Int) ≤ j := by
    by_contra hlt
    have hlt : j + ((p + 1 : Nat) : Int) ≤ e := by push_cast; omega
    have h2 : (10 : K) ^ (j + ((p + 1 : Nat) : Int)) ≤ (k : K) * (10 : K) ^ j := by
      rw [← hk]
      exact le_trans (zpow_le_zpow_right₀ (by norm_num) hlt) h1
    rw [zpow_add₀ (by norm_num), mul_comm, zpow_natCast] at h2
    have h3 : (10 : K) ^ (p + 1) ≤ (k : K) := le_of_mul_le_mul_right h2 (zpow_pos (by norm_num) _)
    have h4 : 10 ^ (p + 1) ≤ k := by exact_mod_cast h3
    omega
  obtain ⟨t, ht⟩ := Int.eq_ofNat_of_zero_le (sub_nonneg.2 hj)
  have hy : |x| / (10 : K) ^ (e - (p : Int)) = ((k * 10 ^ t : Nat) : K) := by
    rw [hk, div_eq_iff (zpow_pos (by norm_num) _).ne']
    push_cast
    have : j = (t : Int) + (e - (p : Int)) := by omega
    rw [this, zpow_add₀ (by norm_num), zpow_natCast]
    ring
  rw [hy, round_natCast]
  rw [div_eq_iff (zpow_pos (by norm_num) _).ne'] at hy
  rw [hy]
  push_cast
  ring

/-- Scientific notation with `p + 1` significant digits read back. -/
theorem stod_sciStr (p : Nat) (x : K) :
    ∃ y : K, stod (sciStr p x) = .ok y ∧ |y - x| ≤ 1 / 2 / 10 ^ p * |x| ∧
      (Spec.SigDigits (p + 1) x → y = x) := by
  unfold sciStr
  dsimp only
  have h := fun n E => stod_parts (K := K) (decide (x < 0)) p n (E := expStr E)
    (expStr_head E).1 (expStr_head E).2
  rw [signStr_eq]
  refine ⟨_, h _ _, ?_⟩
  rw [takeExponent_expStr]
  by_cases hx : x = 0
  · subst hx
    simp
  · rw [if_neg hx]
    constructor
    · rw [abs_sign_sub]
      exact sciParts_close p hx
    · intro hs
      rw [sciParts_exact p hx hs]
      have := sign_mul_abs x |x|
      rw [sub_self, neg_zero, ite_self, sub_eq_zero] at this
      exact this

theorem rdrop_zeros (ds : Str) :
    ∃ k, ds = ds.rdropWhile (· = '0') ++ List.replicate k '0' := by
  refine ⟨(ds.rtakeWhile (· = '0')).length, ?_⟩
  have h : ds.rdropWhile (· = '0') ++ ds.rtakeWhile (· = '0') = ds := by
    unfold List.rdropWhile List.rtakeWhile
    rw [← List.reverse_append, List.takeWhile_append_dropWhile, List.reverse_reverse]
  conv_lhs => rw [← h]
  congr 1
  apply List.eq_replicate_of_mem
  intro b hb
  have := List.mem_rtakeWhile_imp hb
  simpa using this

/-- Trailing zeros of the fraction do not matter. -/
theorem stod_trim (neg : Bool) (p n : Nat) {E : Str} (hE : NoDigit E) (hE' : E.head? ≠ some '.') :
    stod ((if neg then ['-'] else []) ++ natStr (n / 10 ^ p) ++ trimFraction (padDigits p n) ++ E) =
      .ok (if neg then -((n : K) * (10 : K) ^ (takeExponent E - (p : Int)))
        else (n : K) * (10 : K) ^ (takeExponent E - (p : Int))) := by
  obtain ⟨k, hk⟩ := rdrop_zeros (padDigits p n)
  set t := (padDigits p n).rdropWhile (· = '0') with ht
  have had : AllDigits t := fun c hc => (padDigits_spec p n).1 c (by rw [hk]; simp [hc])
  have hlen : t.length + k = p := by
    have := congrArg List.length hk
    rw [(padDigits_spec p n).2.1] at this
    simpa using this.symm
  have hval : digitsVal (natStr (n / 10 ^ p) ++ t) * 10 ^ k = n := by
    have := digits_split p n
    rw [hk, ← List.append_assoc, digitsVal_append, digitsVal_zeros] at this
    simpa using this
  have h := stod_decimal (K := K) neg (natStr_spec (n / 10 ^ p)).1 (natStr_spec (n / 10 ^ p)).2.1
    had hE hE'
  have hf : trimFraction (padDigits p n) = if t = [] then [] else '.' :: t := rfl
  rw [hf, h]
  have e : (digitsVal (natStr (n / 10 ^ p) ++ t) : K) * (10 : K) ^ (takeExponent E - (t.length : Int)) =
      (n : K) * (10 : K) ^ (takeExponent E - (p : Int)) := by
    have hn : (n : K) = (digitsVal (natStr (n / 10 ^ p) ++ t) : K) * (10 : K) ^ (k : Int) := by
      rw [zpow_natCast]
      exact_mod_cast hval.symm
    conv_rhs => rw [hn, mul_assoc, ← zpow_add₀ (by norm_num)]
    congr 2
    omega
  rw [e]

/-- The default format with `p + 1` significant digits read back. -/
theorem stod_sigStr (p : Nat) (x : K) :
    ∃ y : K, stod (sigStr p x) = .ok y ∧ |y - x| ≤ 1 / 2 / 10 ^ p * |x| ∧
      (Spec.SigDigits (p + 1) x → y = x) := by
  unfold sigStr
  by_cases hx : x = 0
  · subst hx
    rw [if_pos rfl]
    refine ⟨0, ?_, by simp, fun _ => rfl⟩
    have := stod_parts (K := K) false 0 0 (E := []) (by intro c hc; cases hc) (by simp)
    simpa [natStr, padDigits, digitChar] using this
  · rw [if_neg hx]
    dsimp only
    have main : ∀ y : K, y = (if decide (x < 0) then
          -(((sciParts p x).1 : K) * (10 : K) ^ ((sciParts p x).2 - (p : Int)))
        else ((sciParts p x).1 : K) * (10 : K) ^ ((sciParts p x).2 - (p : Int))) →
        |y - x| ≤ 1 / 2 / 10 ^ p * |x| ∧ (Spec.SigDigits (p + 1) x → y = x) := by
      rintro y rfl
      constructor
      · rw [abs_sign_sub]
        exact sciParts_close p hx
      · intro hs
        rw [sciParts_exact p hx hs]
        have := sign_mul_abs x |x|
        rw [sub_self, neg_zero, ite_self, sub_eq_zero] at this
        exact this
    split_ifs with hr
    · have h := stod_trim (K := K) (decide (x < 0)) ((p : Int) - (sciParts p x).2).toNat (sciParts p x).1
        (E := []) (by intro c hc; cases hc) (by simp)
      rw [List.append_nil, ← signStr_eq] at h
      refine ⟨_, h, main _ ?_⟩
      have e : takeExponent [] - (((p : Int) - (sciParts p x).2).toNat : Int) =
          (sciParts p x).2 - (p : Int) := by
        have : (((p : Int) - (sciParts p x).2).toNat : Int) = (p : Int) - (sciParts p x).2 :=
          Int.toNat_of_nonneg (by omega)
        rw [this]
        simp [takeExponent]
      rw [e]
    · have h := stod_trim (K := K) (decide (x < 0)) p (sciParts p x).1
        (E := expStr (sciParts p x).2) (expStr_head _).1 (expStr_head _).2
      rw [← signStr_eq] at h
      refine ⟨_, h, main _ ?_⟩
      rw [takeExponent_expStr]

/-- The default format read back: six significant digits. -/
theorem stod_generalStr (x : K) :
    ∃ y : K, stod (generalStr x) = .ok y ∧ |y - x| ≤ 1 / 2 / 10 ^ 5 * |x| ∧
      (Spec.SigDigits 6 x → y = x) := stod_sigStr 5 x

end Numbers

/-! ## Pieces -/

theorem splitOn_ne_nil (c : Char) (s : Str) : splitOn c s ≠ [] := by
  cases s with
  | nil => simp [splitOn]
  | cons a s =>
    unfold splitOn
    split_ifs
    · simp
    · split <;> simp

theorem splitOn_none {c : Char} {t : Str} (h : c ∉ t) : splitOn c t = [t] := by
  induction t with
  | nil => rfl
  | cons a t ih =>
    have h1 : a ≠ c := fun e => h (by simp [e])
    have h2 := ih (fun hc => h (by simp [hc]))
    simp [splitOn, h1, h2]

theorem splitOn_cons {c : Char} {t s : Str} (h : c ∉ t) :
    splitOn c (t ++ c :: s) = t :: splitOn c s := by
  induction t with
  | nil => simp [splitOn]
  | cons a t ih =>
    have h1 : a ≠ c := fun e => h (by simp [e])
    have h2 := ih (fun hc => h (by simp [hc]))
    simp [splitOn, h1, h2]

/-- Lines that all end with the delimiter. -/
theorem splitOn_lines {c : Char} (ls : List Str) (h : ∀ l ∈ ls, c ∉ l) :
    splitOn c (ls.map (· ++ [c])).flatten = ls ++ [[]] := by
  induction ls with
  | nil => rfl
  | cons l ls ih =>
    have h1 := h l (by simp)
    have h2 := ih (fun l' hl => h l' (by simp [hl]))
    simp only [List.map_cons, List.flatten_cons, List.append_assoc, List.singleton_append]
    rw [splitOn_cons h1, h2]
    rfl

theorem pieces_lines {c : Char} (ls : List Str) (h : ∀ l ∈ ls, c ∉ l) :
    pieces c (ls.map (· ++ [c])).flatten = ls := by
  unfold pieces
  rw [splitOn_lines ls h]
  simp

/-- Pieces separated by the delimiter. -/
theorem splitOn_intercalate {c : Char} (ls : List Str) (h : ∀ l ∈ ls, c ∉ l) (h0 : ls ≠ []) :
    splitOn c ([c].intercalate ls) = ls := by
  induction ls with
  | nil => exact absurd rfl h0
  | cons l ls ih =>
    have h1 := h l (by simp)
    cases ls with
    | nil => simpa using splitOn_none h1
    | cons l' ls =>
      have h2 := ih (fun l'' hl => h l'' (by simp [hl])) (by simp)
      rw [List.intercalate_cons_cons]
      simp only [List.append_assoc, List.singleton_append]
      rw [splitOn_cons h1, h2]

theorem pieces_intercalate {c : Char} (ls : List Str) (h : ∀ l ∈ ls, c ∉ l ∧ l ≠ []) :
    pieces c ([c].intercalate ls) = ls := by
  by_cases h0 : ls = []
  · subst h0
    simp [pieces, splitOn, List.intercalate]
  · unfold pieces
    rw [splitOn_intercalate ls (fun l hl => (h l hl).1) h0, if_neg]
    intro hl
    have := List.mem_of_getLast? hl
    exact (h _ this).2 rfl

/-- The text of a natural number is its decimal representation. -/
theorem natStr_eq (n : Nat) : natStr n = Nat.toDigits 10 n := by
  induction n using Nat.strongRecOn with
  | ind n ih =>
    by_cases h : n < 10
    · rw [Nat.toDigits_of_lt_base h]
      unfold natStr
      rw [Nat.log_of_lt h]
      revert h
      revert n
      intro n _ h
      interval_cases n <;> decide
    · have h1 : natStr n = natStr (n / 10) ++ [digitChar (n % 10)] := by
        unfold natStr
        rw [Nat.log_div_base]
        have : 0 < Nat.log 10 n := Nat.log_pos (by norm_num) (by omega)
        rw [show Nat.log 10 n - 1 + 1 = Nat.log 10 n by omega]
        rfl
      rw [h1, ih (n / 10) (by omega)]
      have h2 := Nat.toDigits_append_toDigits (b := 10) (n := n / 10) (d := n % 10) (by norm_num) (by omega) (by omega)
      rw [Nat.div_add_mod] at h2
      rw [← h2]
      congr 1
      have : n % 10 < 10 := by omega
      rw [Nat.toDigits_of_lt_base this]
      generalize n % 10 = k at this
      interval_cases k <;> decide

end Rodeo.Text
