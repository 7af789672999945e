import Verif.Model.Evaluate
import Verif.Spec.Evaluate
import Verif.Props.Parse
import Verif.Lemmas.CSV

/-! # Lemmas on reading numbers from streams and on external evaluations -/

set_option linter.unusedSectionVars false

namespace Rodeo

open Text Spec

namespace Text

theorem takeSign_split (s : Str) : ∃ sign : Str, (sign = [] ∨ sign = ['+'] ∨ sign = ['-']) ∧
    s = sign ++ (takeSign s).2 ∧ ((takeSign s).1 = true ↔ sign = ['-']) := by
  rcases s with _ | ⟨c, s⟩
  · exact ⟨[], Or.inl rfl, rfl, by simp [takeSign]⟩
  · simp only [takeSign]
    split_ifs with h1 h2
    · subst h1; exact ⟨['-'], by simp, rfl, by simp⟩
    · subst h2; exact ⟨['+'], by simp, rfl, by simp⟩
    · exact ⟨[], Or.inl rfl, rfl, by simp⟩

theorem takeDigits_split (s : Str) : s = (takeDigits s).1 ++ (takeDigits s).2 ∧
    ∀ c ∈ (takeDigits s).1, Digit c := by
  induction s with
  | nil => exact ⟨rfl, by simp [takeDigits]⟩
  | cons c s ih =>
    unfold takeDigits
    split_ifs with h
    · refine ⟨by simpa using ih.1, ?_⟩
      intro d hd
      rcases List.mem_cons.1 hd with rfl | hd
      · exact (Parse.isDigit_iff _).1 h
      · exact ih.2 d hd
    · exact ⟨rfl, by simp⟩

theorem takeFraction_split (s : Str) : ∃ point : Str,
    (point = ['.'] ∨ (point = [] ∧ (takeFraction s).1 = [])) ∧
    s = point ++ (takeFraction s).1 ++ (takeFraction s).2 ∧ ∀ c ∈ (takeFraction s).1, Digit c := by
  rcases s with _ | ⟨c, s⟩
  · exact ⟨[], Or.inr ⟨rfl, rfl⟩, rfl, by simp [takeFraction]⟩
  · simp only [takeFraction]
    split_ifs with h
    · subst h
      refine ⟨['.'], Or.inl rfl, ?_, (takeDigits_split s).2⟩
      rw [List.append_assoc, ← (takeDigits_split s).1]; rfl
    · exact ⟨[], Or.inr ⟨rfl, rfl⟩, rfl, by simp⟩

theorem streamExponent_split {s rest : Str} {e : Int} (h : streamExponent s = some (e, rest)) :
    ∃ exponent, s = exponent ++ rest ∧ (exponent = [] ∧ e = 0 ∨
      ∃ mark sg ds, (mark = 'e' ∨ mark = 'E') ∧ (sg = [] ∨ sg = ['+'] ∨ sg = ['-']) ∧
        (∀ c ∈ ds, Digit c) ∧ ds ≠ [] ∧ exponent = mark :: (sg ++ ds) ∧
        e = if sg = ['-'] then -(digitsValue ds : Int) else (digitsValue ds : Int)) := by
  rcases s with _ | ⟨c, s⟩
  · simp only [streamExponent, Option.some.injEq, Prod.mk.injEq] at h
    exact ⟨[], by simp [← h.2], Or.inl ⟨rfl, h.1.symm⟩⟩
  · simp only [streamExponent] at h
    split at h
    · rename_i hc
      split at h
      · cases h
      · rename_i hd
        simp only [Option.some.injEq, Prod.mk.injEq] at h
        obtain ⟨sg, h1, h2, h3⟩ := takeSign_split s
        obtain ⟨h4, h5⟩ := takeDigits_split (takeSign s).2
        refine ⟨c :: (sg ++ (takeDigits (takeSign s).2).1), ?_, Or.inr ⟨c, sg, _, hc, h1, h5, hd, rfl, ?_⟩⟩
        · rw [← h.2, List.cons_append, List.append_assoc, ← h4, ← h2]
        · rw [← h.1]
          by_cases hs : sg = ['-']
          · rw [if_pos hs, if_pos (h3.2 hs)]; rfl
          · rw [if_neg hs, if_neg (fun hh => hs (h3.1 hh))]; rfl
    · simp only [Option.some.injEq, Prod.mk.injEq] at h
      exact ⟨[], by simp [← h.2], Or.inl ⟨rfl, h.1.symm⟩⟩

section Numbers

variable {K : Type} [Field K] [LinearOrder K] [IsStrictOrderedRing K] [FloorRing K]

theorem mantissa_value (w f : Str) (e : Int) :
    ((digitsVal (w ++ f) : Nat) : K) * (10 : K) ^ (e - (f.length : Int)) =
      ((digitsValue w : K) + (digitsValue f : K) / 10 ^ f.length) * (10 : K) ^ e := by
  rw [digitsVal_append, zpow_sub₀ (by norm_num), zpow_natCast]
  have e1 : digitsVal w = digitsValue w := rfl
  have e2 : digitsVal f = digitsValue f := rfl
  rw [e1, e2]
  push_cast
  field_simp

/-- What `>>` accepts starts with the number it delivers. -/
theorem streamRead_sound {text rest : Str} {v : K} (h : streamRead text = some (v, rest)) :
    StartsWith text v := by
  unfold streamRead at h
  dsimp only at h
  split at h
  · cases h
  · rename_i hne
    split at h
    · cases h
    · rename_i e r he
      simp only [Option.some.injEq, Prod.mk.injEq] at h
      obtain ⟨gap, g1, g2, -⟩ := Parse.skipSpace_split text
      obtain ⟨sign, s1, s2, s3⟩ := takeSign_split (skipSpace text)
      obtain ⟨w1, w2⟩ := takeDigits_split (takeSign (skipSpace text)).2
      obtain ⟨point, p1, p2, p3⟩ := takeFraction_split (takeDigits (takeSign (skipSpace text)).2).2
      obtain ⟨ex, x1, x2⟩ := streamExponent_split he
      refine ⟨gap, sign, _, point, _, ex, r, e, g1, s1, w2, p3, ?_, p1, x2, ?_, ?_⟩
      · by_contra hh
        rw [not_or, not_not, not_not] at hh
        exact hne hh
      · conv_lhs => rw [g2, s2, w1, p2, x1]
        simp only [List.append_assoc]
      · rw [← h.1, mantissa_value]
        by_cases hs : sign = ['-']
        · rw [if_pos hs, if_pos (s3.2 hs)]; ring
        · rw [if_neg hs, if_neg (fun hh => hs (s3.1 hh))]; ring

/-- The exponent part of a numeral. -/
def expText (plus : Bool) (n : Numeral) : Str :=
  match n.exponent with
  | none => []
  | some (neg, ds) => 'e' :: ((if neg then ['-'] else if plus then ['+'] else []) ++ ds)

theorem expText_spec (plus : Bool) {n : Numeral} (hn : n.Valid) {rest : Str}
    (hr : ∀ c, rest.head? = some c → White c) :
    NoDigit (expText plus n ++ rest) ∧ (expText plus n ++ rest).head? ≠ some '.' ∧
      streamExponent (expText plus n ++ rest) = some (n.scale, rest) ∧
      takeExponent (expText plus n ++ rest) = n.scale := by
  have hrd : NoDigit rest := by
    intro c hc
    have := hr c hc
    rcases this with rfl | rfl | rfl | rfl | rfl | rfl <;> decide
  have hrp : rest.head? ≠ some '.' := by
    intro h
    have := hr _ h
    revert this; decide
  unfold expText Numeral.scale
  rcases h : n.exponent with _ | ⟨neg, ds⟩
  · refine ⟨by simpa using hrd, by simpa using hrp, ?_, ?_⟩
    · rcases rest with _ | ⟨c, rest⟩
      · rfl
      · have hc : White c := hr c rfl
        have : ¬ (c = 'e' ∨ c = 'E') := by
          rintro (rfl | rfl) <;> revert hc <;> decide
        simp [streamExponent, this]
    · rcases rest with _ | ⟨c, rest⟩
      · rfl
      · have hc : White c := hr c rfl
        have : ¬ (c = 'e' ∨ c = 'E') := by
          rintro (rfl | rfl) <;> revert hc <;> decide
        simp [takeExponent, this]
  · obtain ⟨h1, h2⟩ := hn.2.2.2 _ h
    have hd : takeDigits (ds ++ rest) = (ds, rest) :=
      takeDigits_append (Parse.allDigits h1) hrd
    have hs : takeSign ((if neg then ['-'] else if plus then ['+'] else []) ++ (ds ++ rest)) =
        (neg, ds ++ rest) := by
      cases neg
      · cases plus
        · obtain ⟨c, l, rfl⟩ := List.exists_cons_of_ne_nil h2
          have := isDigit_not_sign ((Parse.isDigit_iff c).2 (h1 c (by simp)))
          simp [takeSign, this]
        · simp [takeSign]
      · simp [takeSign]
    refine ⟨?_, by simp, ?_, ?_⟩
    · intro c hc
      simp only [List.cons_append, List.head?_cons, Option.some.injEq] at hc
      subst hc; decide
    · simp only [List.cons_append, List.append_assoc, streamExponent, hs, hd, true_or, if_true, h2, if_false]
      rfl
    · simp only [List.cons_append, List.append_assoc, takeExponent, hs, hd, true_or, if_true]
      rfl

theorem shown_eq (plus : Bool) (n : Numeral) : n.shown plus = (if n.negative then ['-'] else []) ++ n.whole ++
    (if n.fraction = [] then [] else '.' :: n.fraction) ++ expText plus n := rfl

/-- A number written down, followed by white space or nothing, is read back. -/
theorem streamRead_shown (plus : Bool) {n : Numeral} (hn : n.Valid) {gap rest : Str} (hg : Gap gap)
    (hr : ∀ c, rest.head? = some c → White c) :
    streamRead (gap ++ n.shown plus ++ rest) = some ((n.value : K), rest) := by
  obtain ⟨h1, h2, h3, h4⟩ := expText_spec plus hn hr
  obtain ⟨c, s, hw⟩ := List.exists_cons_of_ne_nil hn.2.1
  have hc := isDigit_not_sign ((Parse.isDigit_iff c).2 (hn.1 c (by rw [hw]; simp)))
  have hsp : skipSpace (gap ++ n.shown plus ++ rest) = n.shown plus ++ rest := by
    rw [List.append_assoc, Parse.skipSpace_gap hg, shown_eq, hw]
    cases n.negative
    · simp [skipSpace, hc.2.2.1]
    · have : isSpace '-' = false := by decide
      simp [skipSpace, this]
  have hsg : takeSign (n.shown plus ++ rest) = (n.negative,
      n.whole ++ ((if n.fraction = [] then [] else '.' :: n.fraction) ++ (expText plus n ++ rest))) := by
    rw [shown_eq, hw]
    cases n.negative
    · simp [takeSign, hc.1, hc.2.1]
    · simp [takeSign]
  have hnd : NoDigit ((if n.fraction = [] then [] else '.' :: n.fraction) ++ (expText plus n ++ rest)) := by
    split_ifs
    · simpa using h1
    · intro d hd
      simp only [List.cons_append, List.head?_cons, Option.some.injEq] at hd
      rw [← hd]
      decide
  have hfr : takeFraction ((if n.fraction = [] then [] else '.' :: n.fraction) ++ (expText plus n ++ rest)) =
      (n.fraction, expText plus n ++ rest) := by
    split_ifs with h
    · rw [h]
      rcases e : expText plus n ++ rest with _ | ⟨d, E⟩
      · rfl
      · have : d ≠ '.' := by
          rintro rfl
          exact h2 (by rw [e]; rfl)
        simp [takeFraction, this]
    · simp only [List.cons_append, takeFraction, if_true]
      rw [takeDigits_append (Parse.allDigits hn.2.2.1) h1]
  unfold streamRead
  dsimp only
  rw [hsp, hsg]
  dsimp only
  rw [takeDigits_append (Parse.allDigits hn.1) hnd]
  dsimp only
  rw [hfr, if_neg (fun hh => hn.2.1 hh.1)]
  dsimp only
  rw [h3]
  dsimp only
  rw [mantissa_value]
  unfold Numeral.value
  congr 2
  split_ifs <;> ring

theorem streamRead_output {text : Str} {v : K} (h : Output text v) :
    ∃ rest, streamRead text = some (v, rest) := by
  obtain ⟨gap, t, rest, hg, ⟨plus, n, hn, rfl, rfl⟩, rfl, hr⟩ := h
  exact ⟨rest, streamRead_shown plus hn hg hr⟩

theorem stod_shown (plus : Bool) {n : Numeral} (hn : n.Valid) :
    (stod (n.shown plus) : Res K) = .ok n.value := by
  obtain ⟨h1, h2, h3, h4⟩ := expText_spec plus hn (rest := []) (by intro c hc; cases hc)
  rw [List.append_nil] at h1 h2 h4
  have h := stod_decimal (K := K) n.negative (Parse.allDigits hn.1) hn.2.1 (Parse.allDigits hn.2.2.1) h1 h2
  rw [shown_eq, h, h4, mantissa_value]
  unfold Numeral.value
  congr 1
  split_ifs <;> ring

theorem digits_of {s : Str} (h : AllDigits s) : ∀ c ∈ s, Digit c := fun c hc =>
  (Parse.isDigit_iff c).1 (h c hc)

/-- The numbers written by the default format of a stream. -/
theorem sigStr_shown (p : Nat) (x : K) : ∃ n : Numeral, n.Valid ∧ sigStr p x = n.shown true := by
  have hdrop : ∀ s : Str, AllDigits s → ∀ c ∈ s.rdropWhile (· = '0'), Digit c := by
    intro s hs c hc
    exact digits_of hs c ((List.rdropWhile_prefix _ s).subset hc)
  unfold sigStr
  split_ifs with h0
  · exact ⟨⟨false, ['0'], [], none⟩, ⟨by simp [Digit], by simp, by simp, by simp⟩, rfl⟩
  · dsimp only
    split_ifs with hr
    · refine ⟨⟨decide (x < 0), natStr ((sciParts p x).1 / 10 ^ ((p : Int) - (sciParts p x).2).toNat),
        (padDigits ((p : Int) - (sciParts p x).2).toNat (sciParts p x).1).rdropWhile (· = '0'), none⟩,
        ⟨digits_of (natStr_spec _).1, (natStr_spec _).2.1, hdrop _ (padDigits_spec _ _).1, by simp⟩, ?_⟩
      unfold Numeral.shown trimFraction
      rw [signStr_eq]
      simp
    · refine ⟨⟨decide (x < 0), natStr ((sciParts p x).1 / 10 ^ p),
        (padDigits p (sciParts p x).1).rdropWhile (· = '0'), some (decide ((sciParts p x).2 < 0),
          if (sciParts p x).2.natAbs < 10 then padDigits 2 (sciParts p x).2.natAbs
          else natStr (sciParts p x).2.natAbs)⟩,
        ⟨digits_of (natStr_spec _).1, (natStr_spec _).2.1, hdrop _ (padDigits_spec _ _).1, ?_⟩, ?_⟩
      · rintro e he
        obtain rfl := Option.some.inj he
        dsimp only
        split_ifs
        · exact ⟨digits_of (padDigits_spec _ _).1, padDigits_ne_nil (by norm_num) _⟩
        · exact ⟨digits_of (natStr_spec _).1, (natStr_spec _).2.1⟩
      · unfold Numeral.shown trimFraction expStr
        rw [signStr_eq]
        by_cases he : (sciParts p x).2 < 0 <;> simp [he]

/-- What the default format of a stream with `p + 1` digits writes. -/
theorem sigStr_shows (p : Nat) (x : K) : ∃ y : K, Shows (sigStr p x) y ∧ |y - x| ≤ 1 / 2 / 10 ^ p * |x| ∧
    (SigDigits (p + 1) x → y = x) := by
  obtain ⟨n, hn, hs⟩ := sigStr_shown p x
  obtain ⟨y, hy, h1, h2⟩ := stod_sigStr p x
  rw [hs, stod_shown (K := K) true hn] at hy
  obtain rfl := Except.ok.inj hy
  exact ⟨_, ⟨true, n, hn, hs, rfl⟩, h1, h2⟩

/-- What the default format of a stream writes. -/
theorem generalStr_shows (x : K) : ∃ y : K, Shows (generalStr x) y ∧ |y - x| ≤ 1 / 2 / 10 ^ 5 * |x| ∧
    (SigDigits 6 x → y = x) := sigStr_shows 5 x

end Numbers

end Text

namespace ExternalFn

variable {K : Type} [Field K] [LinearOrder K] [IsStrictOrderedRing K] [FloorRing K]

theorem designText_eq (F : ExternalFn K) {params : List K} (h : params.length = F.dim) :
    F.designText params = .ok ((params.map fun x => generalStr x ++ ['\n']).flatten) := by
  unfold designText
  have := forRange_inv (n := F.dim) (s := ([] : Str))
    (body := fun i s => do
      let x ← vat params i
      .ok (s ++ generalStr x ++ ['\n']))
    (fun i s => s = ((params.take i).map fun x => generalStr x ++ ['\n']).flatten) (by simp) ?_
  · obtain ⟨s, hs, rfl⟩ := this
    rw [hs, ← h, List.take_length]
  · rintro i s hi rfl
    have hi' : i < params.length := by omega
    rw [vat_ok_of_lt hi']
    refine ⟨_, rfl, ?_⟩
    rw [List.take_succ_eq_append_getElem hi', List.map_append, List.flatten_append]
    simp

/-- The design file lists the parameters to six digits. -/
theorem designText_listing (F : ExternalFn K) {params : List K} (h : params.length = F.dim) :
    ∃ (text : Str) (ys : List K), F.designText params = .ok text ∧ Listing text ys ∧ SixDigits ys params := by
  choose g h1 h2 using (generalStr_shows (K := K))
  refine ⟨_, params.map g, designText_eq F h, ⟨params.map generalStr, by simp [List.map_map, Function.comp_def], ?_⟩, ?_⟩
  · rw [List.forall₂_map_left_iff, List.forall₂_map_right_iff]
    exact List.forall₂_same.2 fun x _ => h1 x
  · unfold SixDigits
    rw [List.forall₂_map_left_iff]
    exact List.forall₂_same.2 fun x _ => h2 x

theorem readOutput_one (fs : Files) {name : Str} (hname : name ≠ []) :
    (readOutput fs name 1 : Res (List K)) =
      match fs name with
      | none => .error .runtimeError
      | some text =>
        match (streamRead text : Option (K × Str)) with
        | none => .error .runtimeError
        | some (v, _) => .ok [v] := by
  unfold readOutput
  rw [if_neg hname]
  rcases fs name with _ | text
  · rfl
  · dsimp only
    rcases h : (streamRead text : Option (K × Str)) with _ | ⟨v, r⟩
    · simp [forRange, loopFrom, h, bind, Except.bind]
    · simp [forRange, loopFrom, h, bind, Except.bind]

end ExternalFn

end Rodeo
