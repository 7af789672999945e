import Verif.Model.Parse
import Verif.Spec.Parse
import Verif.Lemmas.CSV
import Mathlib.Data.Rat.Floor

/-! # C39, C40, C67: constraint expressions -/

set_option linter.unusedSectionVars false

namespace Rodeo
open Text Spec Parse

/-! ## C39 -/

theorem Parse.isBlank_iff (c : Char) : isBlank c = true ↔ Blank c := by
  simp [isBlank, Blank, or_assoc]

theorem Parse.isBlank_false (c : Char) : isBlank c = false ↔ ¬ Blank c := by
  rw [← isBlank_iff]; simp

/-- Every string is blanks, a part that neither starts nor ends with a blank, and blanks. -/
theorem Parse.split_blanks (s : Str) : ∃ a t b, s = a ++ t ++ b ∧ (∀ c ∈ a, Blank c) ∧
    (∀ c ∈ b, Blank c) ∧ Clean t ∧ (t = [] → b = []) := by
  set r := s.dropWhile isBlank with hr
  have h1 : s = s.takeWhile isBlank ++ r := (List.takeWhile_append_dropWhile).symm
  have h2 : r = r.rdropWhile isBlank ++ r.rtakeWhile isBlank := by
    unfold List.rdropWhile List.rtakeWhile
    rw [← List.reverse_append, List.takeWhile_append_dropWhile, List.reverse_reverse]
  have hhead : ∀ c, r.head? = some c → ¬ Blank c := by
    intro c hc hb
    have := List.head?_dropWhile_not isBlank s
    rw [← hr, hc] at this
    simp only [] at this
    rw [(isBlank_iff c).2 hb] at this
    exact absurd this (by simp)
  have hnil : r.rdropWhile isBlank = [] → r = [] := by
    intro h
    rcases e : r with _ | ⟨c, l⟩
    · rfl
    · exfalso
      have h3 : ∀ d ∈ r, isBlank d = true := by
        rw [List.rdropWhile_eq_nil_iff] at h
        exact h
      exact hhead c (by rw [e]; rfl) ((isBlank_iff c).1 (h3 c (by rw [e]; simp)))
  refine ⟨s.takeWhile isBlank, r.rdropWhile isBlank, r.rtakeWhile isBlank, ?_, ?_, ?_, ⟨?_, ?_⟩, ?_⟩
  · rw [List.append_assoc, ← h2]; exact h1
  · intro c hc
    exact (isBlank_iff c).1 (List.mem_takeWhile_imp hc)
  · intro c hc
    exact (isBlank_iff c).1 (List.mem_rtakeWhile_imp hc)
  · intro c hc
    refine hhead c ?_
    rw [h2, List.head?_append, hc]
    rfl
  · intro c hc
    have hne : r.rdropWhile isBlank ≠ [] := by
      intro e; rw [e] at hc; cases hc
    have := List.rdropWhile_last_not isBlank r hne
    rw [List.getLast?_eq_some_getLast hne] at hc
    rw [Option.some.inj hc] at this
    rw [← isBlank_iff]
    exact this
  · intro h
    rw [hnil h]
    rfl

theorem Parse.findFirstNotOf_eq {a t b : Str} (ha : ∀ c ∈ a, Blank c) (ht : Clean t) (h0 : t ≠ []) :
    findFirstNotOf (a ++ t ++ b) = some a.length := by
  unfold findFirstNotOf
  rw [List.append_assoc, List.findIdx?_append]
  have h1 : a.findIdx? (fun c => !isBlank c) = none := by
    rw [List.findIdx?_eq_none_iff]
    intro c hc
    simp [(isBlank_iff c).2 (ha c hc)]
  rw [h1]
  rcases t with _ | ⟨c, t⟩
  · exact absurd rfl h0
  · have : isBlank c = false := (isBlank_false c).2 (ht.1 c rfl)
    simp [List.findIdx?_cons, this]

theorem Parse.findLastNotOf_eq {a t b : Str} (hb : ∀ c ∈ b, Blank c) (ht : Clean t) (h0 : t ≠ []) :
    findLastNotOf (a ++ t ++ b) = some (a.length + t.length - 1) := by
  unfold findLastNotOf
  have hrev : (a ++ t ++ b).reverse = b.reverse ++ t.reverse ++ a.reverse := by simp
  have := findFirstNotOf_eq (a := b.reverse) (t := t.reverse) (b := a.reverse)
    (by simpa using hb) ⟨by simpa using ht.2, by simpa using ht.1⟩ (by simpa using h0)
  unfold findFirstNotOf at this
  rw [hrev, this]
  have hpos : 0 < t.length := List.length_pos_iff.2 h0
  simp only [Option.map_some, List.length_reverse, List.length_append]
  congr 1
  omega

/-- What `trim` does, for every string: with `n` leading blanks it keeps the first `n` trailing
blanks. -/
theorem C39_trim {a t b : Str} (ha : ∀ c ∈ a, Blank c) (hb : ∀ c ∈ b, Blank c) (ht : Clean t) :
    trim (a ++ t ++ b) = if t = [] then [] else t ++ b.take a.length := by
  split_ifs with h0
  · subst h0
    unfold trim findFirstNotOf
    have : (a ++ [] ++ b).findIdx? (fun c => !isBlank c) = none := by
      rw [List.findIdx?_eq_none_iff]
      intro c hc
      have hB : Blank c := by
        simp only [List.append_nil, List.mem_append] at hc
        exact hc.elim (ha c) (hb c)
      simp [(isBlank_iff c).2 hB]
    rw [this]
  · unfold trim
    rw [findFirstNotOf_eq ha ht h0, findLastNotOf_eq hb ht h0]
    dsimp only
    unfold substr
    have hpos : 0 < t.length := List.length_pos_iff.2 h0
    rw [List.append_assoc, List.drop_left, List.take_append]
    have e : a.length + t.length - 1 + 1 - t.length = a.length := by omega
    rw [e, List.take_of_length_le (by omega)]

theorem Spec.isTrim_core {a t b : Str} (ha : ∀ c ∈ a, Blank c) (hb : ∀ c ∈ b, Blank c)
    (ht : Clean t) : IsTrim (a ++ t ++ b) t := by
  refine ⟨⟨a, b, rfl⟩, ht, ?_⟩
  rintro t' ⟨p, q, h⟩ ht'
  rcases t' with _ | ⟨c, u⟩
  · simp
  · have h1 : a.length ≤ p.length := by
      by_contra hlt
      push Not at hlt
      have e1 : (a ++ t ++ b)[p.length]? = some c := by rw [h]; simp
      have e2 : (a ++ t ++ b)[p.length]? = some a[p.length] := by
        rw [List.append_assoc, List.getElem?_append_left hlt]; simp [hlt]
      rw [e1] at e2
      exact ht'.1 c rfl (by rw [Option.some.inj e2]; exact ha _ (List.getElem_mem hlt))
    have h2 : b.length ≤ q.length := by
      by_contra hlt
      push Not at hlt
      have hrev : b.reverse ++ (a ++ t).reverse = q.reverse ++ ((c :: u).reverse ++ p.reverse) := by
        have := congrArg List.reverse h
        simpa using this
      obtain ⟨d, hd⟩ : ∃ d, (c :: u).getLast? = some d := ⟨_, List.getLast?_eq_some_getLast (by simp)⟩
      have e1 : (b.reverse ++ (a ++ t).reverse)[q.length]? = some d := by
        rw [hrev, List.getElem?_append_right (by simp)]
        simp only [List.length_reverse, Nat.sub_self]
        rw [List.getElem?_append_left (by simp), ← List.head?_eq_getElem?, List.head?_reverse]
        exact hd
      have hlt' : q.length < b.reverse.length := by simpa using hlt
      rw [List.getElem?_append_left hlt'] at e1
      have : d ∈ b := by
        have := List.mem_of_getElem? e1
        simpa using this
      exact ht'.2 d hd (hb d this)
    have := congrArg List.length h
    simp only [List.length_append] at this
    omega

/-- The full property. -/
def C39_full : Prop := ∀ s : Str, IsTrim s (trim s)

/-- Not true: `trim("  a  ")` is `"a  "`. -/
theorem C39_false : ¬ C39_full := by
  intro h
  have h1 := (h "  a  ".toList).2.1.2 ' ' (by decide)
  exact h1 (Or.inl rfl)

/-- Strings that do not start or do not end with a blank are trimmed correctly.  Missing for the full
property: blanks on both sides; then blanks stay at the end (`C39_trim`). -/
theorem C39_partial (s : Str)
    (h : (∀ c, s.head? = some c → ¬ Blank c) ∨ ∀ c, s.getLast? = some c → ¬ Blank c) :
    IsTrim s (trim s) := by
  obtain ⟨a, t, b, rfl, ha, hb, ht, h0⟩ := split_blanks s
  have key : trim (a ++ t ++ b) = t := by
    rw [C39_trim ha hb ht]
    split_ifs with e
    · exact e.symm
    · rcases h with h | h
      · rcases a with _ | ⟨c, a⟩
        · simp
        · exact absurd (ha c (by simp)) (h c rfl)
      · rcases List.eq_nil_or_concat b with rfl | ⟨b', c, rfl⟩
        · simp
        · exact absurd (hb c (by simp)) (h c (by simp))
  rw [key]
  exact isTrim_core ha hb ht

example : trim "mass < 3 ".toList = "mass < 3".toList ∧ trim "  x".toList = "x".toList ∧
    trim " \t ".toList = [] ∧ trim "  a  ".toList = "a  ".toList := by decide

/-! ## C40 -/

theorem Parse.isSpace_iff (c : Char) : isSpace c = true ↔ White c := by
  constructor
  · intro h
    simp only [isSpace, Bool.or_eq_true, beq_iff_eq, Bool.and_eq_true, decide_eq_true_eq] at h
    have key : ∀ d : Char, c.toNat = d.toNat → c = d := fun d hd => by
      rw [← Char.ofNat_toNat c, hd, Char.ofNat_toNat]
    unfold White
    rcases h with h | ⟨h1, h2⟩
    · exact Or.inl (key ' ' h)
    · have : c.toNat = 9 ∨ c.toNat = 10 ∨ c.toNat = 11 ∨ c.toNat = 12 ∨ c.toNat = 13 := by omega
      rcases this with h | h | h | h | h
      · exact Or.inr (Or.inl (key '\t' h))
      · exact Or.inr (Or.inr (Or.inl (key '\n' h)))
      · exact Or.inr (Or.inr (Or.inr (Or.inl (key '\x0b' h))))
      · exact Or.inr (Or.inr (Or.inr (Or.inr (Or.inl (key '\x0c' h)))))
      · exact Or.inr (Or.inr (Or.inr (Or.inr (Or.inr (key '\r' h)))))
  · rintro (rfl | rfl | rfl | rfl | rfl | rfl) <;> decide

theorem Parse.isSpace_false (c : Char) : isSpace c = false ↔ ¬ White c := by
  rw [← isSpace_iff]; simp

theorem Spec.Blank.white {c : Char} (h : Blank c) : White c := by
  rcases h with rfl | rfl | rfl | rfl <;> simp [White]

theorem Parse.skipSpace_gap {w s : Str} (hw : Gap w) : skipSpace (w ++ s) = skipSpace s := by
  induction w with
  | nil => rfl
  | cons c w ih =>
    have := (isSpace_iff c).2 (hw c (by simp))
    simp only [List.cons_append, skipSpace, this, if_true]
    exact ih fun d hd => hw d (by simp [hd])

theorem Parse.skipSpace_word {s t : Str} (hs : Word s) : skipSpace (s ++ t) = s ++ t := by
  rcases s with _ | ⟨c, s⟩
  · exact absurd rfl hs.1
  · have := (isSpace_false c).2 (hs.2 c (by simp))
    simp [skipSpace, this]

/-- Text after a word: nothing, or something that starts with white space. -/
def Spec.Ends (t : Str) : Prop := ∀ c, t.head? = some c → White c

theorem Parse.takeWhile_word {s t : Str} (hs : ∀ c ∈ s, ¬ White c) (ht : Ends t) :
    (s ++ t).takeWhile (fun c => !isSpace c) = s ∧ (s ++ t).dropWhile (fun c => !isSpace c) = t := by
  have h1 : ∀ c ∈ s, (!isSpace c) = true := fun c hc => by simp [(isSpace_false c).2 (hs c hc)]
  have h2 : t.takeWhile (fun c => !isSpace c) = [] ∧ t.dropWhile (fun c => !isSpace c) = t := by
    rcases t with _ | ⟨c, t⟩
    · exact ⟨rfl, rfl⟩
    · have := (isSpace_iff c).2 (ht c rfl)
      simp [this]
  rw [List.takeWhile_append_of_pos h1, List.dropWhile_append_of_pos h1, h2.1, h2.2]
  simp

theorem Parse.nextWord_eq {w s t : Str} (hw : Gap w) (hs : Word s) (ht : Ends t) :
    nextWord (w ++ s ++ t) = some (s, t) := by
  unfold nextWord
  rw [List.append_assoc, skipSpace_gap hw, skipSpace_word hs]
  obtain ⟨h1, h2⟩ := takeWhile_word hs.2 ht
  dsimp only
  rw [if_neg (by simp [hs.1]), h1, h2]

theorem Parse.skipSpace_split (s : Str) : ∃ w, Gap w ∧ s = w ++ skipSpace s ∧
    ∀ c, (skipSpace s).head? = some c → ¬ White c := by
  induction s with
  | nil => exact ⟨[], fun c hc => (by cases hc), rfl, fun c hc => (by cases hc)⟩
  | cons d s ih =>
    obtain ⟨w, h1, h2, h3⟩ := ih
    by_cases h : isSpace d = true
    · refine ⟨d :: w, ?_, ?_, ?_⟩
      · intro c hc
        rcases List.mem_cons.1 hc with rfl | hc
        · exact (isSpace_iff _).1 h
        · exact h1 c hc
      · simp only [skipSpace, h, if_true, List.cons_append]
        exact congrArg _ h2
      · simpa only [skipSpace, h, if_true] using h3
    · refine ⟨[], fun c hc => (by cases hc), ?_, ?_⟩
      · simp [skipSpace, h]
      · intro c hc
        simp only [skipSpace, h] at hc
        cases hc
        rw [← isSpace_iff]; exact h

/-- What `stream >> word` delivers. -/
theorem Parse.nextWord_inv {r s t : Str} (h : nextWord r = some (s, t)) :
    ∃ w, Gap w ∧ r = w ++ s ++ t ∧ Word s ∧ Ends t := by
  obtain ⟨w, h1, h2, h3⟩ := skipSpace_split r
  unfold nextWord at h
  dsimp only at h
  split_ifs at h with h0
  obtain ⟨rfl, rfl⟩ := Prod.mk.inj (Option.some.inj h)
  refine ⟨w, h1, ?_, ⟨?_, ?_⟩, ?_⟩
  · rw [List.append_assoc, List.takeWhile_append_dropWhile]; exact h2
  · intro e
    rcases e2 : skipSpace r with _ | ⟨c, l⟩
    · exact h0 e2
    · rw [e2] at e
      have := (isSpace_false c).2 (h3 c (by rw [e2]; rfl))
      simp [this] at e
  · intro c hc
    have := List.mem_takeWhile_imp hc
    rw [← isSpace_false]; simpa using this
  · intro c hc
    have := List.head?_dropWhile_not (fun c => !isSpace c) (skipSpace r)
    rw [hc] at this
    simp only [] at this
    rw [← isSpace_iff]; simpa using this

section Numbers

variable {K : Type} [Field K] [LinearOrder K] [IsStrictOrderedRing K] [FloorRing K]

theorem Spec.Ends.digit {t : Str} (ht : Ends t) {c : Char} (hc : t.head? = some c) :
    isDigit c = false ∧ c ≠ '.' ∧ c ≠ 'e' ∧ c ≠ 'E' ∧ c ≠ '-' ∧ c ≠ '+' := by
  rcases ht c hc with rfl | rfl | rfl | rfl | rfl | rfl <;> decide

theorem Parse.takeDigits_ends {t : Str} (ht : Ends t) (s : Str) :
    takeDigits (s ++ t) = ((takeDigits s).1, (takeDigits s).2 ++ t) := by
  induction s with
  | nil =>
    rcases t with _ | ⟨c, t⟩
    · rfl
    · simp [takeDigits, (ht.digit (c := c) rfl).1]
  | cons c s ih =>
    by_cases h : isDigit c = true
    · simp [takeDigits, h, ih]
    · simp [takeDigits, h]

theorem Parse.takeFraction_ends {t : Str} (ht : Ends t) (s : Str) :
    takeFraction (s ++ t) = ((takeFraction s).1, (takeFraction s).2 ++ t) := by
  rcases s with _ | ⟨c, s⟩
  · rcases t with _ | ⟨c, t⟩
    · rfl
    · simp [takeFraction, (ht.digit (c := c) rfl).2.1]
  · by_cases h : c = '.'
    · subst h
      simpa [takeFraction] using takeDigits_ends ht s
    · simp [takeFraction, h]

theorem Parse.takeSign_ends {t : Str} (ht : Ends t) (s : Str) :
    takeSign (s ++ t) = ((takeSign s).1, (takeSign s).2 ++ t) := by
  rcases s with _ | ⟨c, s⟩
  · rcases t with _ | ⟨c, t⟩
    · rfl
    · have := ht.digit (c := c) rfl
      simp [takeSign, this]
  · by_cases h : c = '-'
    · simp [takeSign, h]
    · by_cases h' : c = '+'
      · simp [takeSign, h']
      · simp [takeSign, h, h']

theorem Parse.takeExponent_ends {t : Str} (ht : Ends t) (s : Str) :
    takeExponent (s ++ t) = takeExponent s := by
  rcases s with _ | ⟨c, s⟩
  · rcases t with _ | ⟨c, t⟩
    · rfl
    · have := ht.digit (c := c) rfl
      simp [takeExponent, this]
  · simp only [List.cons_append, takeExponent]
    rw [takeSign_ends ht s]
    dsimp only
    rw [takeDigits_ends ht]

theorem Parse.badExponent_ends {t : Str} (ht : Ends t) (s : Str) :
    badExponent (s ++ t) = badExponent s := by
  rcases s with _ | ⟨c, s⟩
  · rcases t with _ | ⟨c, t⟩
    · rfl
    · have := ht.digit (c := c) rfl
      simp [badExponent, this]
  · simp only [List.cons_append, badExponent]
    rw [takeSign_ends ht s]
    dsimp only
    rw [takeDigits_ends ht]

theorem Parse.skipSpace_word' {s : Str} (hs : Word s) : skipSpace s = s := by
  have := skipSpace_word (t := []) hs
  simpa using this

/-- White space around a number does not change how it is read. -/
theorem Parse.streamNumber_ends {w s t : Str} (hw : Gap w) (hs : Word s) (ht : Ends t) :
    (streamNumber (w ++ s ++ t) : Res K) = streamNumber s := by
  unfold streamNumber stod
  dsimp only
  rw [List.append_assoc, skipSpace_gap hw, skipSpace_word hs, skipSpace_word' hs]
  rw [takeSign_ends ht s]
  dsimp only
  rw [takeDigits_ends ht]
  dsimp only
  rw [takeFraction_ends ht]
  dsimp only
  rw [badExponent_ends ht, takeExponent_ends ht]

/-- The trimmed text has the same words: it differs from the input by white space only. -/
theorem Parse.trim_gap (s : Str) : (trim s = [] ∧ Gap s) ∨
    ∃ w v, Gap w ∧ Gap v ∧ s = w ++ trim s ++ v := by
  obtain ⟨a, t, b, rfl, ha, hb, ht, h0⟩ := split_blanks s
  rw [C39_trim ha hb ht]
  split_ifs with e
  · left
    refine ⟨rfl, fun c hc => ?_⟩
    subst e
    simp only [List.append_nil, List.mem_append] at hc
    exact hc.elim (fun h => (ha c h).white) (fun h => (hb c h).white)
  · right
    refine ⟨a, b.drop a.length, fun c hc => (ha c hc).white,
      fun c hc => (hb c (List.mem_of_mem_drop hc)).white, ?_⟩
    simp [List.append_assoc, List.take_append_drop]

/-- **C40, what is accepted.** An expression is accepted exactly if it is a name, `<` or `>`, and a
text that starts with a number, separated by white space; and then the name, the inequality and the
number are returned.  Everything else, in particular every expression without a valid inequality, is
rejected with `invalid_argument`. -/
theorem C40_accepts (input : Str) (r : Expr K) :
    parseExpression input = .ok r ↔
      ∃ w0 w1 w2 rest, Gap w0 ∧ Gap w1 ∧ Gap w2 ∧ w1 ≠ [] ∧ w2 ≠ [] ∧
        Word r.name ∧ (r.inequality = ['<'] ∨ r.inequality = ['>']) ∧
        input = w0 ++ r.name ++ w1 ++ r.inequality ++ w2 ++ rest ∧
        (∀ c, rest.head? = some c → ¬ White c) ∧ streamNumber rest = .ok r.value := by
  have hineq : ∀ {i : Str}, (i = ['<'] ∨ i = ['>']) → Word i := by
    rintro i (rfl | rfl)
    · refine ⟨by simp, fun c hc => ?_⟩
      simp only [List.mem_singleton] at hc; subst hc
      rw [← isSpace_false]; decide
    · refine ⟨by simp, fun c hc => ?_⟩
      simp only [List.mem_singleton] at hc; subst hc
      rw [← isSpace_false]; decide
  constructor
  · intro h
    unfold parseExpression at h
    split at h
    · cases h
    rename_i name r1 e1
    split at h
    · cases h
    rename_i ineq r2 e2
    split_ifs at h with e3
    split at h
    · cases h
    rename_i v e4
    obtain rfl := (Except.ok.inj h).symm
    obtain ⟨v0, g0, t0, n0, s0⟩ := nextWord_inv e1
    obtain ⟨v1, g1, t1, n1, s1⟩ := nextWord_inv e2
    obtain ⟨v2, g2, t2, n2⟩ := skipSpace_split r2
    have hin : ineq = ['<'] ∨ ineq = ['>'] := by
      by_contra hc; push Not at hc; exact e3 hc
    have hv1 : v1 ≠ [] := by
      rintro rfl
      rcases hin with rfl | rfl
      · have := s0 '<' (by rw [t1]; rfl)
        rw [← isSpace_iff] at this; exact absurd this (by decide)
      · have := s0 '>' (by rw [t1]; rfl)
        rw [← isSpace_iff] at this; exact absurd this (by decide)
    rcases trim_gap input with ⟨ht, -⟩ | ⟨w, v', hw, hv', ht⟩
    · rw [ht] at e1; cases e1
    · have hr2 : (streamNumber (skipSpace r2) : Res K) = .ok v := by
        rw [← e4]
        conv_rhs => rw [t2]
        unfold streamNumber stod
        dsimp only
        rw [skipSpace_gap g2]
      have hrest : skipSpace r2 ≠ [] := by
        intro e
        rw [e] at hr2
        exact absurd hr2 (by simp [streamNumber, stod, skipSpace, takeSign, takeDigits, takeFraction, badExponent])
      have hv2 : v2 ≠ [] := by
        rintro rfl
        have t2' : r2 = skipSpace r2 := t2
        obtain ⟨c, l, e⟩ := List.exists_cons_of_ne_nil hrest
        exact n2 c (by rw [e]; rfl) (s1 c (by rw [t2', e]; rfl))
      have hsplit : streamNumber (K := K) (skipSpace r2 ++ v') = streamNumber (skipSpace r2) := by
        by_cases hv0 : v' = []
        · subst hv0; simp
        · have hE : Ends v' := fun c hc => by
            rcases v' with _ | ⟨d, v'⟩
            · cases hc
            · cases hc; exact hv' _ (by simp)
          obtain ⟨c, l, e⟩ := List.exists_cons_of_ne_nil hrest
          have hsk : skipSpace (skipSpace r2) = skipSpace r2 := by
            rw [e]
            have := (isSpace_false c).2 (n2 c (by rw [e]; rfl))
            simp [skipSpace, this]
          have hsk' : skipSpace (skipSpace r2 ++ v') = skipSpace r2 ++ v' := by
            rw [e]
            have := (isSpace_false c).2 (n2 c (by rw [e]; rfl))
            simp [skipSpace, this]
          unfold streamNumber stod
          dsimp only
          rw [hsk, hsk', takeSign_ends hE]
          dsimp only
          rw [takeDigits_ends hE]
          dsimp only
          rw [takeFraction_ends hE]
          dsimp only
          rw [badExponent_ends hE, takeExponent_ends hE]
      refine ⟨w ++ v0, v1, v2, skipSpace r2 ++ v', ?_, g1, g2, hv1, hv2, n0, hin, ?_, ?_, ?_⟩
      · intro c hc
        rcases List.mem_append.1 hc with hc | hc
        · exact hw c hc
        · exact g0 c hc
      · rw [ht, t0, t1]
        conv_lhs => rw [t2]
        simp [List.append_assoc]
      · intro c hc
        obtain ⟨d, l, e⟩ := List.exists_cons_of_ne_nil hrest
        rw [e] at hc
        exact n2 c (by rw [e]; exact hc)
      · rw [hsplit, hr2]
  · rintro ⟨w0, w1, w2, rest, g0, g1, g2, h1, h2, hn, hi, rfl, hrest, hv⟩
    have hrest0 : rest ≠ [] := by
      rintro rfl
      exact absurd hv (by simp [streamNumber, stod, skipSpace, takeSign, takeDigits, takeFraction, badExponent])
    have hends : ∀ {w s : Str}, Gap w → w ≠ [] → Ends (w ++ s) := by
      intro w s hw h0 c hc
      rcases w with _ | ⟨d, w⟩
      · exact absurd rfl h0
      · cases hc; exact hw _ (by simp)
    -- what is left after trimming
    obtain ⟨x, y, hx, hrest', htrim⟩ : ∃ x y, Gap x ∧
        (∃ z, Gap z ∧ rest = y ++ z ∧ y ≠ []) ∧
        trim (w0 ++ r.name ++ w1 ++ r.inequality ++ w2 ++ rest) =
          x ++ r.name ++ w1 ++ r.inequality ++ w2 ++ y := by
      set s := w0 ++ r.name ++ w1 ++ r.inequality ++ w2 ++ rest with hs
      rcases trim_gap s with ⟨-, hg⟩ | ⟨w, v, hw, hv', ht⟩
      · exfalso
        obtain ⟨c, l, e⟩ := List.exists_cons_of_ne_nil hrest0
        exact hrest c (by rw [e]; rfl) (hg c (by rw [hs, e]; simp))
      · -- compare the two decompositions
        have hlen1 : w.length ≤ w0.length := by
          by_contra hlt
          push Not at hlt
          obtain ⟨c, l, e⟩ := List.exists_cons_of_ne_nil hn.1
          have e1 : s[w0.length]? = some c := by rw [hs, e]; simp
          have e2 : s[w0.length]? = some w[w0.length] := by
            rw [ht, List.append_assoc, List.getElem?_append_left hlt]; simp [hlt]
          rw [e1] at e2
          exact hn.2 c (by rw [e]; simp) (by rw [Option.some.inj e2]; exact hw _ (List.getElem_mem hlt))
        have hlen2 : v.length < rest.length := by
          by_contra hlt
          push Not at hlt
          obtain ⟨c, l, e⟩ := List.exists_cons_of_ne_nil hrest0
          have e0 : (w ++ trim s) ++ v = (w0 ++ r.name ++ w1 ++ r.inequality ++ w2) ++ rest := by
            rw [← ht, hs]
          have hsuf : rest <:+ v := by
            refine List.suffix_of_suffix_length_le ⟨_, e0.symm⟩ ⟨_, rfl⟩ hlt
          have : c ∈ v := hsuf.subset (by rw [e]; simp)
          exact hrest c (by rw [e]; rfl) (hv' c this)
        refine ⟨w0.drop w.length, rest.take (rest.length - v.length), fun c hc =>
          g0 c (List.mem_of_mem_drop hc), ⟨rest.drop (rest.length - v.length), ?_, ?_, ?_⟩, ?_⟩
        · have hsuf : v <:+ rest := by
            have e0 : (w ++ trim s) ++ v = (w0 ++ r.name ++ w1 ++ r.inequality ++ w2) ++ rest := by
              rw [← ht, hs]
            exact List.suffix_of_suffix_length_le ⟨_, rfl⟩ ⟨_, e0.symm⟩ hlen2.le
          obtain ⟨q, rfl⟩ := hsuf
          intro c hc
          refine hv' c ?_
          simpa using hc
        · exact (List.take_append_drop _ _).symm
        · intro e
          have := congrArg List.length e
          simp only [List.length_take, List.length_nil] at this
          omega
        · have e0 : w ++ (trim s ++ v) = w0 ++ (r.name ++ w1 ++ r.inequality ++ w2 ++ rest) := by
            rw [← List.append_assoc, ← ht, hs]; simp [List.append_assoc]
          have e1 := congrArg (List.drop w.length) e0
          rw [List.drop_left, List.drop_append_of_le_length hlen1] at e1
          have e2 : trim s = (trim s ++ v).take ((trim s ++ v).length - v.length) := by simp
          rw [e2, e1]
          have e3 : rest.length - v.length + v.length = rest.length := by omega
          have e4 : (w0.drop w.length ++ (r.name ++ w1 ++ r.inequality ++ w2 ++ rest)).length - v.length =
              (w0.drop w.length ++ (r.name ++ w1 ++ r.inequality ++ w2)).length +
                (rest.length - v.length) := by
            simp only [List.length_append]
            omega
          rw [e4, ← List.append_assoc (w0.drop w.length) (r.name ++ w1 ++ r.inequality ++ w2) rest,
            List.take_length_add_append]
          simp [List.append_assoc]
    obtain ⟨z, gz, hrz, hy0⟩ := hrest'
    have hname : nextWord (x ++ r.name ++ (w1 ++ (r.inequality ++ (w2 ++ y)))) =
        some (r.name, w1 ++ (r.inequality ++ (w2 ++ y))) := nextWord_eq hx hn (hends g1 h1)
    have hin : nextWord (w1 ++ r.inequality ++ (w2 ++ y)) = some (r.inequality, w2 ++ y) :=
      nextWord_eq g1 (hineq hi) (hends g2 h2)
    have hnum : (streamNumber (w2 ++ y) : Res K) = .ok r.value := by
      rw [← hv, hrz]
      obtain ⟨c, l, e⟩ := List.exists_cons_of_ne_nil hy0
      have hc : ¬ White c := hrest c (by rw [hrz, e]; rfl)
      have hsk : ∀ q : Str, skipSpace (y ++ q) = y ++ q := by
        intro q
        rw [e]
        have := (isSpace_false c).2 hc
        simp [skipSpace, this]
      have hE : Ends z := by
        intro d hd
        rcases z with _ | ⟨d', z⟩
        · cases hd
        · cases hd; exact gz d (by simp)
      have hsk0 : skipSpace y = y := by simpa using hsk []
      unfold streamNumber stod
      dsimp only
      rw [skipSpace_gap g2, hsk, hsk0, takeSign_ends hE]
      dsimp only
      rw [takeDigits_ends hE]
      dsimp only
      rw [takeFraction_ends hE]
      dsimp only
      rw [badExponent_ends hE, takeExponent_ends hE]
    unfold parseExpression
    rw [htrim]
    rw [show x ++ r.name ++ w1 ++ r.inequality ++ w2 ++ y =
      x ++ r.name ++ (w1 ++ (r.inequality ++ (w2 ++ y))) by simp [List.append_assoc], hname]
    dsimp only
    rw [show w1 ++ (r.inequality ++ (w2 ++ y)) = w1 ++ r.inequality ++ (w2 ++ y) by
      simp [List.append_assoc], hin]
    dsimp only
    rw [if_neg (by rintro ⟨h3, h4⟩; exact hi.elim h3 h4), hnum]

/-- The name is followed by `<` or `>` only in accepted expressions; everything else is rejected with
`invalid_argument`. -/
theorem C40_rejects (input : Str) (h : ∀ r : Expr K, parseExpression input ≠ .ok r) :
    (parseExpression input : Res (Expr K)) = .error .invalidArgument := by
  unfold parseExpression at h ⊢
  split
  · rfl
  rename_i name r1 e1
  rw [e1] at h
  dsimp only at h
  split
  · rfl
  rename_i ineq r2 e2
  rw [e2] at h
  dsimp only at h
  split_ifs at h ⊢ with e3
  · rfl
  split
  · rfl
  rename_i v e4
  rw [e4] at h
  exact absurd rfl (h _)

/-- **C40, no inequality.** An expression without `<` and without `>` is rejected. -/
theorem C40_no_inequality (input : Str) (h1 : '<' ∉ input) (h2 : '>' ∉ input) :
    (parseExpression input : Res (Expr K)) = .error .invalidArgument := by
  refine C40_rejects input fun r hr => ?_
  obtain ⟨w0, w1, w2, rest, -, -, -, -, -, -, hi, rfl, -⟩ := (C40_accepts input r).1 hr
  rcases hi with hi | hi
  · exact h1 (by simp [hi])
  · exact h2 (by simp [hi])

theorem Parse.isDigit_iff (c : Char) : isDigit c = true ↔ Digit c := by
  simp [isDigit, Digit]

theorem Parse.allDigits {s : Str} (h : ∀ c ∈ s, Digit c) : AllDigits s := fun c hc =>
  (isDigit_iff c).2 (h c hc)

/-- The exponent part of a numeral. -/
def Spec.Numeral.exponentText (n : Numeral) : Str :=
  match n.exponent with
  | none => []
  | some (neg, ds) => 'e' :: (if neg then ['-'] else []) ++ ds

theorem Parse.exponent_spec {n : Numeral} (hn : n.Valid) :
    NoDigit n.exponentText ∧ n.exponentText.head? ≠ some '.' ∧ badExponent n.exponentText = false ∧
      takeExponent n.exponentText = n.scale := by
  unfold Numeral.exponentText Numeral.scale
  rcases h : n.exponent with _ | ⟨neg, ds⟩
  · refine ⟨fun c hc => (by cases hc), by simp, rfl, rfl⟩
  · obtain ⟨h1, h2⟩ := hn.2.2.2 _ h
    have hd : takeDigits ds = (ds, []) := by
      have := takeDigits_append (rest := []) (allDigits h1) (by intro c hc; cases hc)
      simpa using this
    have hs : takeSign ((if neg then ['-'] else []) ++ ds) = (neg, ds) := by
      cases neg
      · obtain ⟨c, l, rfl⟩ := List.exists_cons_of_ne_nil h2
        have := isDigit_not_sign ((isDigit_iff c).2 (h1 c (by simp)))
        simp [takeSign, this]
      · simp [takeSign]
    refine ⟨?_, by simp, ?_, ?_⟩
    · intro c hc
      simp only [List.cons_append, List.head?_cons, Option.some.injEq] at hc
      subst hc; decide
    · simp only [List.cons_append, badExponent, hs, hd, h2]
      simp
    · simp only [List.cons_append, takeExponent, hs, hd, true_or, if_true]
      rfl

/-- A numeral is read as the number it stands for. -/
theorem Parse.stod_numeral {n : Numeral} (hn : n.Valid) : (stod n.text : Res K) = .ok n.value := by
  obtain ⟨h1, h2, h3, h4⟩ := exponent_spec hn
  have h := stod_decimal (K := K) n.negative (allDigits hn.1) hn.2.1 (allDigits hn.2.2.1) h1 h2
  have ht : n.text = (if n.negative then ['-'] else []) ++ n.whole ++
      (if n.fraction = [] then [] else '.' :: n.fraction) ++ n.exponentText := rfl
  rw [ht, h, h4]
  congr 1
  have hv : ((digitsVal (n.whole ++ n.fraction) : Nat) : K) * (10 : K) ^ (n.scale - (n.fraction.length : Int)) =
      ((digitsValue n.whole : K) + (digitsValue n.fraction : K) / 10 ^ n.fraction.length) *
        (10 : K) ^ n.scale := by
    rw [digitsVal_append, zpow_sub₀ (by norm_num), zpow_natCast]
    have e1 : digitsVal n.whole = digitsValue n.whole := rfl
    have e2 : digitsVal n.fraction = digitsValue n.fraction := rfl
    rw [e1, e2]
    push_cast
    field_simp
  unfold Numeral.value
  rw [hv]
  split_ifs <;> ring

theorem Parse.streamNumber_numeral {n : Numeral} (hn : n.Valid) :
    (streamNumber n.text : Res K) = .ok n.value := by
  obtain ⟨h1, h2, h3, h4⟩ := exponent_spec hn
  rw [← stod_numeral (K := K) hn]
  -- the parts of the numeral
  have ht : n.text = (if n.negative then ['-'] else []) ++ n.whole ++
      (if n.fraction = [] then [] else '.' :: n.fraction) ++ n.exponentText := rfl
  obtain ⟨c, s, hw⟩ := List.exists_cons_of_ne_nil hn.2.1
  have hc := isDigit_not_sign ((isDigit_iff c).2 (hn.1 c (by rw [hw]; simp)))
  have hsp : skipSpace n.text = n.text := by
    rw [ht, hw]
    cases n.negative
    · simp [skipSpace, hc.2.2.1]
    · have : isSpace '-' = false := by decide
      simp [skipSpace, this]
  have hsg : (takeSign n.text).2 = n.whole ++ ((if n.fraction = [] then [] else '.' :: n.fraction) ++
      n.exponentText) := by
    rw [ht, hw]
    cases n.negative
    · simp [takeSign, hc.1, hc.2.1]
    · simp [takeSign]
  have hnd : NoDigit ((if n.fraction = [] then [] else '.' :: n.fraction) ++ n.exponentText) := by
    split_ifs
    · simpa using h1
    · intro d hd
      simp only [List.cons_append, List.head?_cons, Option.some.injEq] at hd
      rw [← hd]
      decide
  have hfr : (takeFraction ((if n.fraction = [] then [] else '.' :: n.fraction) ++ n.exponentText)).2 =
      n.exponentText := by
    split_ifs with h
    · rcases e : n.exponentText with _ | ⟨d, E⟩
      · rfl
      · have : d ≠ '.' := by
          rintro rfl
          exact h2 (by rw [e]; rfl)
        simp [takeFraction, this]
    · simp only [List.cons_append, takeFraction, if_true]
      rw [takeDigits_append (allDigits hn.2.2.1) h1]
  unfold streamNumber
  dsimp only
  rw [hsp, hsg, takeDigits_append (allDigits hn.1) hnd]
  dsimp only
  rw [hfr, h3]
  simp

theorem Parse.digit_not_white {c : Char} (h : Digit c) : ¬ White c := by
  rw [← isSpace_false]
  exact (isDigit_not_sign ((isDigit_iff c).2 h)).2.2.1

/-- The text of a numeral is a word without inequality signs. -/
theorem Parse.numeral_chars {n : Numeral} (hn : n.Valid) :
    Word n.text ∧ '<' ∉ n.text ∧ '>' ∉ n.text := by
  have key : ∀ c ∈ n.text, Digit c ∨ c = '-' ∨ c = '.' ∨ c = 'e' := by
    intro c hc
    unfold Numeral.text at hc
    simp only [List.mem_append] at hc
    rcases hc with ((hc | hc) | hc) | hc
    · split_ifs at hc
      · simp only [List.mem_singleton] at hc; exact Or.inr (Or.inl hc)
      · cases hc
    · exact Or.inl (hn.1 c hc)
    · split_ifs at hc
      · cases hc
      · rcases List.mem_cons.1 hc with hc | hc
        · exact Or.inr (Or.inr (Or.inl hc))
        · exact Or.inl (hn.2.2.1 c hc)
    · rcases h : n.exponent with _ | ⟨neg, ds⟩
      · rw [h] at hc; cases hc
      · rw [h] at hc
        dsimp only at hc
        simp only [List.cons_append, List.mem_cons, List.mem_append] at hc
        rcases hc with hc | hc | hc
        · exact Or.inr (Or.inr (Or.inr hc))
        · split_ifs at hc
          · simp only [List.mem_singleton] at hc; exact Or.inr (Or.inl hc)
          · cases hc
        · exact Or.inl ((hn.2.2.2 _ h).1 c hc)
  refine ⟨⟨?_, ?_⟩, ?_, ?_⟩
  · intro h
    unfold Numeral.text at h
    simp only [List.append_eq_nil_iff] at h
    exact hn.2.1 h.1.1.2
  · intro c hc
    rcases key c hc with h | rfl | rfl | rfl
    · exact digit_not_white h
    all_goals decide
  · intro hc
    rcases key _ hc with h | h | h | h
    · exact absurd h (by unfold Digit; decide)
    all_goals exact absurd h (by decide)
  · intro hc
    rcases key _ hc with h | h | h | h
    · exact absurd h (by unfold Digit; decide)
    all_goals exact absurd h (by decide)

/-- **C40, rendering.** A name, an inequality and a number written down with white space between them
(and any white space around) are read back exactly. -/
theorem C40_roundtrip {name w0 w1 w2 w3 : Str} {op : Char} {n : Numeral} (hname : Word name)
    (hop : op = '<' ∨ op = '>') (hn : n.Valid) (h0 : Gap w0) (h1 : Gap w1) (h2 : Gap w2) (h3 : Gap w3)
    (h1' : w1 ≠ []) (h2' : w2 ≠ []) :
    parseExpression (w0 ++ name ++ w1 ++ [op] ++ w2 ++ (n.text ++ w3)) =
      .ok ⟨name, [op], (n.value : K)⟩ := by
  have hw := (numeral_chars hn).1
  have hE : Ends w3 := fun c hc => by
    rcases w3 with _ | ⟨d, w3⟩
    · cases hc
    · cases hc; exact h3 _ (by simp)
  refine (C40_accepts _ _).2 ⟨w0, w1, w2, n.text ++ w3, h0, h1, h2, h1', h2', hname, ?_, rfl, ?_, ?_⟩
  · rcases hop with rfl | rfl
    · exact Or.inl rfl
    · exact Or.inr rfl
  · intro c hc
    obtain ⟨d, l, e⟩ := List.exists_cons_of_ne_nil hw.1
    rw [e] at hc
    have : d = c := by simpa using hc
    exact hw.2 c (by rw [e, this]; simp)
  · have := streamNumber_ends (K := K) (w := []) (fun c hc => (by cases hc)) hw hE
    rw [List.nil_append] at this
    rw [this, streamNumber_numeral hn]

set_option maxRecDepth 100000 in
example : parseExpression "  mass  < -12.5e-1 ".toList = .ok ⟨"mass".toList, ['<'], (-5/4 : ℚ)⟩ ∧
    (parseExpression "mass <= 3".toList : Res (Expr ℚ)) = .error .invalidArgument ∧
    (parseExpression "mass<3".toList : Res (Expr ℚ)) = .error .invalidArgument ∧
    (parseExpression "mass 3".toList : Res (Expr ℚ)) = .error .invalidArgument ∧
    (parseExpression "mass > x".toList : Res (Expr ℚ)) = .error .invalidArgument := by
  refine ⟨?_, ?_, ?_, ?_, ?_⟩ <;> decide +kernel

/-- The hypotheses of `C40_roundtrip` on ` lift  >  2.50e1`. -/
example : Word "lift".toList ∧ (⟨false, ['2'], ['5', '0'], some (false, ['1'])⟩ : Numeral).Valid ∧
    Gap " \t".toList ∧ (⟨false, ['2'], ['5', '0'], some (false, ['1'])⟩ : Numeral).text = "2.50e1".toList ∧
    ((⟨false, ['2'], ['5', '0'], some (false, ['1'])⟩ : Numeral).value : ℚ) = 25 := by
  refine ⟨⟨by simp, by decide⟩, ⟨?_, by simp, ?_, ?_⟩, by unfold Gap; decide, by decide, ?_⟩
  · unfold Digit; decide
  · unfold Digit; decide
  · rintro e he
    obtain rfl := Option.some.inj he
    unfold Digit
    decide
  · have e1 : digitsValue ['2'] = 2 := by decide
    have e2 : digitsValue ['5', '0'] = 50 := by decide
    have e3 : digitsValue ['1'] = 1 := by decide
    simp only [Numeral.value, Numeral.scale, e1, e2, e3]
    norm_num

/-! ## C67 -/

theorem Parse.removeSpaces_eq (s : Str) : removeSpaces s = compact s := by
  unfold removeSpaces compact
  congr 1
  funext c
  by_cases h : White c
  · simp [h, (isSpace_iff c).2 h]
  · simp [h, (isSpace_false c).2 h]

theorem Parse.inequalityPlace_eq {pre post : Str} {op : Char} (hop : op = '<' ∨ op = '>')
    (hpre : '<' ∉ pre ∧ '>' ∉ pre) (hpost : '>' ∉ post ∨ op = '>') :
    inequalityPlace (pre ++ op :: post) = some pre.length := by
  have hfind : ∀ d : Char, d ∉ pre → (pre ++ d :: post).findIdx? (· = d) = some pre.length := by
    intro d hd
    rw [List.findIdx?_append]
    have : pre.findIdx? (· = d) = none := by
      rw [List.findIdx?_eq_none_iff]
      intro c hc
      have : c ≠ d := fun e => hd (e ▸ hc)
      simp [this]
    rw [this]
    simp [List.findIdx?_cons]
  unfold inequalityPlace
  rcases hop with rfl | rfl
  · have : (pre ++ '<' :: post).findIdx? (· = '>') = none := by
      rw [List.findIdx?_eq_none_iff]
      intro c hc
      have : c ≠ '>' := by
        rintro rfl
        simp only [List.mem_append, List.mem_cons] at hc
        rcases hc with hc | hc | hc
        · exact hpre.2 hc
        · exact absurd hc (by decide)
        · exact hpost.elim (fun h => h hc) (fun h => absurd h (by decide))
      simp [this]
    rw [this]
    exact hfind _ hpre.1
  · rw [hfind _ hpre.2]

/-- What `setDefinition` does with a text that has an inequality at a known place. -/
theorem Parse.setDefinition_eq (d : Definition K) {pre post : Str} {op : Char}
    (hop : op = '<' ∨ op = '>') (hpre : '<' ∉ pre ∧ '>' ∉ pre) (hpost : '>' ∉ post ∨ op = '>') :
    setDefinition d (pre ++ op :: post) =
      match (stod (compact post) : Res K) with
      | .error e => (d, .error e)
      | .ok v => (⟨compact pre, [op], v⟩, .ok ()) := by
  unfold setDefinition
  rw [if_neg (by simp), inequalityPlace_eq hop hpre hpost]
  dsimp only
  have e1 : substr (pre ++ op :: post) 0 pre.length = pre := by simp [substr]
  have e2 : substr (pre ++ op :: post) pre.length 1 = [op] := by simp [substr]
  have hle : (compact pre).length ≤ pre.length := List.length_filter_le _ _
  have e3 : substr (pre ++ op :: post) (pre.length + 1)
      ((pre ++ op :: post).length - (compact pre).length - [op].length) = post := by
    unfold substr
    rw [show pre ++ op :: post = (pre ++ [op]) ++ post by simp,
      show pre.length + 1 = (pre ++ [op]).length by simp, List.drop_left]
    apply List.take_of_length_le
    simp only [List.length_append, List.length_singleton]
    omega
  rw [e1, removeSpaces_eq pre, e2, e3, removeSpaces_eq]
  rfl

/-- **C67.** A definition that consists of a name, `<` or `>`, and a number, with any white space
anywhere, sets exactly these. -/
theorem C67_definition (d : Definition K) {pre post : Str} {op : Char} {n : Numeral}
    (hop : op = '<' ∨ op = '>') (hpre : '<' ∉ pre ∧ '>' ∉ pre) (hn : n.Valid)
    (hpost : compact post = n.text) :
    setDefinition d (pre ++ op :: post) = (⟨compact pre, [op], n.value⟩, .ok ()) := by
  have h : '>' ∉ post := by
    intro hc
    have : '>' ∈ compact post := by
      unfold compact
      rw [List.mem_filter]
      exact ⟨hc, by decide⟩
    rw [hpost] at this
    exact (numeral_chars hn).2.2 this
  rw [setDefinition_eq d hop hpre (Or.inl h), hpost, stod_numeral hn]

/-- **C67, rejected.** A definition without `<` and `>` is rejected, and so is one whose text after the
inequality does not start with a sign, a digit or a point (in particular `<=` and `>=`). -/
theorem C67_rejects (d : Definition K) (s : Str) (h : ('<' ∉ s ∧ '>' ∉ s) ∨
    ∃ pre post op c, s = pre ++ op :: post ∧ (op = '<' ∨ op = '>') ∧ '<' ∉ pre ∧ '>' ∉ pre ∧
      ('>' ∉ post ∨ op = '>') ∧ ((compact post).head? = none ∨ (compact post).head? = some c ∧
        ¬ Digit c ∧ c ≠ '-' ∧ c ≠ '+' ∧ c ≠ '.')) :
    setDefinition d s = (d, .error .invalidArgument) := by
  rcases h with ⟨h1, h2⟩ | ⟨pre, post, op, c, rfl, hop, h1, h2, h3, h4⟩
  · unfold setDefinition
    split_ifs with h0
    · rfl
    · have key : ∀ d : Char, d ∉ s → s.findIdx? (· = d) = none := by
        intro d hd
        rw [List.findIdx?_eq_none_iff]
        intro c hc
        have : c ≠ d := fun e => hd (e ▸ hc)
        simp [this]
      unfold inequalityPlace
      rw [key _ h2, key _ h1]
  · rw [setDefinition_eq d hop ⟨h1, h2⟩ h3]
    have hst : (stod (compact post) : Res K) = .error .invalidArgument := by
      rcases e : compact post with _ | ⟨c', t⟩
      · rfl
      · rw [e] at h4
        rcases h4 with h4 | ⟨h4, h5, h6, h7, h8⟩
        · cases h4
        · obtain rfl : c' = c := by simpa using h4
          have hw : isSpace c' = false := by
            rw [isSpace_false]
            have : c' ∈ compact post := by rw [e]; simp
            unfold compact at this
            rw [List.mem_filter] at this
            simpa using this.2
          have hd : isDigit c' = false := by
            have := mt (isDigit_iff c').1 h5
            simpa using this
          simp [stod, skipSpace, takeSign, takeDigits, takeFraction, hw, hd, h6, h7, h8]
    rw [hst]

/-- **C67, failure.** A rejected definition leaves the constraint as it was. -/
theorem C67_unchanged (d : Definition K) (s : Str) (e : Err) (h : (setDefinition d s).2 = .error e) :
    (setDefinition d s).1 = d := by
  unfold setDefinition at h ⊢
  split_ifs with h0
  · rfl
  rw [if_neg h0] at h
  split
  · rfl
  rename_i place e1
  rw [e1] at h
  dsimp only at h ⊢
  split
  · rfl
  rename_i v e2
  rw [e2] at h
  cases h

set_option maxRecDepth 100000 in
example : (setDefinition (⟨[], [], 0⟩ : Definition ℚ) " ma ss >1 .5".toList) =
      (⟨"mass".toList, ['>'], 3/2⟩, .ok ()) ∧
    (setDefinition (⟨['a'], ['<'], 7⟩ : Definition ℚ) "mass <= 3".toList) =
      (⟨['a'], ['<'], 7⟩, .error .invalidArgument) ∧
    (setDefinition (⟨['a'], ['<'], 7⟩ : Definition ℚ) "mass".toList) =
      (⟨['a'], ['<'], 7⟩, .error .invalidArgument) := by
  refine ⟨?_, ?_, ?_⟩ <;> decide +kernel

end Numbers

end Rodeo
