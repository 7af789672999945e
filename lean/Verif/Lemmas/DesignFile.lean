import Verif.Spec.DesignFile
import Verif.Lemmas.OptimumFile
import Verif.Lemmas.Evaluate
import Verif.Lemmas.CSV

/-! # Lemmas about the files and log messages about designs -/

set_option linter.unusedSectionVars false

namespace Rodeo.DesignFile

open Text Spec

variable {K : Type} [Field K] [LinearOrder K] [IsStrictOrderedRing K] [FloorRing K]

theorem writeLoop (fmt : K → Str) (e : Str) {params : List K} {n : Nat} (hn : n ≤ params.length) :
    forRange n (fun i s => do
      let x ← vat params i
      .ok (s ++ fmt x ++ e)) [] = .ok (((params.take n).map fun x => fmt x ++ e).flatten) := by
  obtain ⟨s, hs, rfl⟩ := forRange_inv (n := n) (s := ([] : Str))
    (body := fun i s => do
      let x ← vat params i
      .ok (s ++ fmt x ++ e))
    (fun i s => s = ((params.take i).map fun x => fmt x ++ e).flatten) (by simp) (by
      rintro i s hi rfl
      have hi' : i < params.length := by omega
      rw [vat_ok_of_lt hi']
      refine ⟨_, rfl, ?_⟩
      rw [List.take_succ_eq_append_getElem hi', List.map_append, List.flatten_append]
      simp)
  exact hs

theorem linesText_eq (params : List K) :
    linesText params = .ok ((params.map fun x => sigStr 9 x ++ ['\n']).flatten) := by
  unfold linesText
  rw [writeLoop (sigStr 9) ['\n'] le_rfl, List.take_length]

theorem flatten_init (fmt : K → Str) (c : Char) (init : List K) (x : K) :
    ((init.map fun x => fmt x ++ [c]).flatten ++ fmt x) = [c].intercalate ((init ++ [x]).map fmt) := by
  induction init with
  | nil => simp [List.intercalate]
  | cons a init ih =>
    rw [List.map_cons, List.flatten_cons, List.append_assoc, ih]
    cases init <;> simp [List.intercalate]

theorem csvText_eq {params : List K} (h0 : params ≠ []) (h1 : params.length < 2 ^ 32) :
    csvText params = .ok ([','].intercalate (params.map (sigStr 9))) := by
  have hl : 0 < params.length := List.length_pos_iff.2 h0
  have e : (params.length + (2 ^ 32 - 1)) % 2 ^ 32 = params.length - 1 := by omega
  unfold csvText
  rw [e, writeLoop (sigStr 9) [','] (by omega)]
  have h2 : vat params (params.length - 1) = .ok (params.getLast h0) := by
    rw [vat_ok_of_lt (i := params.length - 1) (by omega), List.getLast_eq_getElem]
  refine bind_eq rfl (bind_eq h2 ?_)
  rw [← List.dropLast_eq_take, flatten_init, List.dropLast_append_getLast h0]

theorem csvText_nil : csvText ([] : List K) = .error .outOfRange := by
  unfold csvText
  have : ((([] : List K).length + (2 ^ 32 - 1)) % 2 ^ 32) = (2 ^ 32 - 2) + 1 := by simp
  rw [this]
  have h : vat ([] : List K) 0 = .error .outOfRange := rfl
  unfold forRange
  rw [show loopFrom (fun i s => do
      let x ← vat ([] : List K) i
      .ok (s ++ sigStr 9 x ++ [','])) 0 ((2 ^ 32 - 2) + 1) ([] : Str) = .error .outOfRange from ?_]
  · rfl
  · unfold loopFrom
    rw [h]
    rfl

theorem fixedStr_shows (x : K) : ∃ y, Shows (fixedStr 6 x) y ∧ SixDecimals x y := by
  obtain ⟨y, hy, h2⟩ := OptimumFile.sixDecimals_fixedStr x
  set n : Numeral := ⟨decide (x < 0), natStr ((round (|x| * 10 ^ 6)).toNat / 10 ^ 6),
    padDigits 6 (round (|x| * 10 ^ 6)).toNat, none⟩ with hn
  have hv : n.Valid := ⟨digits_of (natStr_spec _).1, (natStr_spec _).2.1, digits_of (padDigits_spec _ _).1,
    by simp [hn]⟩
  have hs : fixedStr 6 x = n.shown true := by
    unfold fixedStr Numeral.shown
    rw [hn]
    dsimp only
    rw [signStr_eq, if_neg (show ¬ (6 : Nat) = 0 by norm_num), if_neg (padDigits_ne_nil (by norm_num) _),
      List.append_nil]
  rw [hs, stod_shown (K := K) true hv] at hy
  obtain rfl := Except.ok.inj hy
  exact ⟨_, ⟨true, n, hv, hs, rfl⟩, h2⟩

theorem lineOf_text (xs : List K) : LineOf ((xs.map fun x => fixedStr 6 x ++ [' ']).flatten) xs := by
  refine ⟨xs.map (fixedStr 6), by simp [List.map_map, Function.comp_def], ?_⟩
  rw [List.forall₂_map_left_iff]
  exact List.forall₂_same.2 fun x _ => fixedStr_shows x

theorem line_no_newline (xs : List K) : '\n' ∉ (xs.map fun x => fixedStr 6 x ++ [' ']).flatten := by
  intro h
  obtain ⟨l, hl, h⟩ := List.mem_flatten.1 h
  obtain ⟨x, _, rfl⟩ := List.mem_map.1 hl
  rcases List.mem_append.1 h with h | h
  · exact ((fixedStr_chars 6 x).1 _ h).ne.2 rfl
  · simp at h

theorem evenMessage_even (msg : Str) : (evenMessage msg).length % 2 = 0 ∧
    msg.length ≤ (evenMessage msg).length ∧ (evenMessage msg).length ≤ msg.length + 1 := by
  unfold evenMessage
  split_ifs with h
  · simp; omega
  · omega

theorem borderLength_fit {len total : Nat} (h : len + 2 ≤ total) (h1 : total < 2 ^ 31) :
    borderLength len total = (((total - len - 2) / 2 : Nat) : Int) := by
  unfold borderLength toInt32
  have e : (((total : Int) - len - 2) % 2 ^ 64).toNat = total - len - 2 := by
    rw [Int.emod_eq_of_lt (by omega) (by omega)]
    omega
  rw [e]
  have h2 : (total - len - 2) / 2 % 2 ^ 32 = (total - len - 2) / 2 := Nat.mod_eq_of_lt (by omega)
  rw [h2, if_pos (by omega)]

theorem borderLength_long {len total : Nat} (h : total < len + 2) (h1 : len < 2 ^ 31) :
    borderLength len total < 0 := by
  unfold borderLength toInt32
  have e : (((total : Int) - len - 2) % 2 ^ 64).toNat = 2 ^ 64 - (len + 2 - total) := by
    have : ((total : Int) - len - 2) % 2 ^ 64 = (total : Int) - len - 2 + 2 ^ 64 := by omega
    rw [this]
    omega
  rw [e, if_neg (by omega)]
  omega

end Rodeo.DesignFile
