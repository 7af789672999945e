import Verif.Spec.Driver
import Verif.Lemmas.Post
import Verif.Lemmas.Bounds

/-! # Lemmas about the driver -/

set_option linter.unusedSectionVars false

namespace Rodeo.Driver

open Text API Parse

/-! ## Searching -/

theorem find?_none {p s : Str} : find? p s = none ↔ ¬ p <:+: s := by
  induction s with
  | nil =>
    unfold find?
    by_cases hp : p = []
    · simp [hp]
    · simp [hp]
  | cons c s ih =>
    unfold find?
    by_cases hp : p.isPrefixOf (c :: s)
    · have h1 : p <+: c :: s := List.isPrefixOf_iff_prefix.mp hp
      simp [hp, h1.isInfix]
    · have h1 : ¬ p <+: c :: s := fun h => hp (List.isPrefixOf_iff_prefix.mpr h)
      rw [if_neg hp, Option.map_eq_none_iff, ih, List.infix_cons_iff]
      simp [h1]

theorem find?_some {p s : Str} {i : Nat} (h : find? p s = some i) :
    ∃ pre post, s = pre ++ p ++ post ∧ pre.length = i ∧ (p ≠ [] → ¬ p <:+: pre) := by
  induction s generalizing i with
  | nil =>
    unfold find? at h
    split at h
    · rename_i hp
      cases h
      exact ⟨[], [], by simp [hp], rfl, fun h => absurd hp h⟩
    · cases h
  | cons c s ih =>
    unfold find? at h
    split at h
    · rename_i hp
      cases h
      obtain ⟨post, hpost⟩ := List.isPrefixOf_iff_prefix.mp hp
      refine ⟨[], post, by simpa using hpost.symm, rfl, fun h0 h1 => h0 ?_⟩
      simpa using h1
    · rename_i hp
      obtain ⟨j, hj, e⟩ := Option.map_eq_some_iff.mp h
      obtain ⟨pre, post, e1, e2, e3⟩ := ih hj
      refine ⟨c :: pre, post, by simp [e1], by simp [e2, e], fun h0 h1 => ?_⟩
      rcases List.infix_cons_iff.mp h1 with h2 | h2
      · apply hp
        rw [List.isPrefixOf_iff_prefix, e1]
        obtain ⟨t, ht⟩ := h2
        exact ⟨t ++ (p ++ post), by rw [← List.append_assoc, ht]; simp⟩
      · exact e3 h0 h2

/-- A pattern that starts with `<` and has no other `<`. -/
def TagLike (p : Str) : Prop := ∃ q, p = '<' :: q ∧ '<' ∉ q

theorem TagLike.ne_nil {p : Str} (h : TagLike p) : p ≠ [] := by
  obtain ⟨q, rfl, _⟩ := h; simp

/-- A tag that occurs in `a ++ '<' …` occurs in one of the parts. -/
theorem TagLike.prefix_append {p a b : Str} (h : TagLike p) (hp : p <+: a ++ '<' :: b) :
    a = [] ∨ p <+: a := by
  obtain ⟨q, rfl, hq⟩ := h
  by_cases ha : a = []
  · exact .inl ha
  · right
    rcases List.prefix_or_prefix_of_prefix hp (List.prefix_append a ('<' :: b)) with h | h
    · exact h
    · obtain ⟨r, hr⟩ := h
      cases r with
      | nil => exact ⟨[], by simpa using hr.symm⟩
      | cons x r =>
        exfalso
        rw [← hr] at hp
        have h2 := (List.prefix_append_right_inj a).mp hp
        have hx : x = '<' := (List.cons_prefix_cons.mp h2).1
        cases a with
        | nil => exact ha rfl
        | cons y a =>
          simp only [List.cons_append, List.cons.injEq] at hr
          apply hq
          rw [← hr.2, hx]
          simp

theorem find?_append {p a b : Str} (h : TagLike p) (ha : ¬ p <:+: a) :
    find? p (a ++ '<' :: b) = (find? p ('<' :: b)).map (· + a.length) := by
  induction a with
  | nil => simp
  | cons c a ih =>
    have ha' : ¬ p <:+: a := fun h' => ha (List.infix_cons_iff.mpr (.inr h'))
    have h1 : ¬ p.isPrefixOf (c :: (a ++ '<' :: b)) = true := by
      intro h2
      have h3 : p <+: (c :: a) ++ '<' :: b := List.isPrefixOf_iff_prefix.mp h2
      rcases h.prefix_append h3 with h4 | h4
      · simp at h4
      · exact ha h4.isInfix
    rw [List.cons_append, find?, if_neg h1, ih ha', Option.map_map]
    congr 1

theorem find?_self (p b : Str) : find? p (p ++ b) = some 0 := by
  cases hb : p ++ b with
  | nil =>
    have : p = [] := (List.append_eq_nil_iff.mp hb).1
    simp [find?, this]
  | cons c s =>
    unfold find?
    rw [if_pos]
    rw [List.isPrefixOf_iff_prefix, ← hb]
    exact List.prefix_append p b

theorem TagLike.infix_append {p a b : Str} (h : TagLike p) :
    p <:+: a ++ '<' :: b ↔ p <:+: a ∨ p <:+: '<' :: b := by
  constructor
  · intro hi
    by_contra hc
    rw [not_or] at hc
    have := find?_append h hc.1 (b := b)
    rw [find?_none.mpr hc.2] at this
    exact (find?_none.mp this) hi
  · rintro (hi | hi)
    · exact hi.trans (List.prefix_append a _).isInfix
    · exact hi.trans (List.suffix_append a _).isInfix

theorem findFrom_append {a b p : Str} {n : Nat} (h : a.length = n) :
    findFrom (a ++ b) p n = (find? p b).map (· + n) := by
  unfold findFrom
  rw [if_pos (by rw [List.length_append]; omega), ← h, List.drop_left]

theorem findFrom_zero (s p : Str) : findFrom s p 0 = find? p s := by
  have := findFrom_append (a := []) (b := s) (p := p) (n := 0) rfl
  simpa using this

/-! ## Elements -/

/-- A keyword: no `<` and no `/` in it. -/
def Key (k : Str) : Prop := '<' ∉ k ∧ '/' ∉ k

instance (k : Str) : Decidable (Key k) := inferInstanceAs (Decidable (_ ∧ _))

theorem tag_eq (k : Str) : tag k = Spec.openTag k := by simp [tag, Spec.openTag]

theorem endTag_eq (k : Str) : endTag k = Spec.closeTag k := by simp [endTag, Spec.closeTag]

theorem Key.tagLike {k : Str} (h : Key k) : TagLike (tag k) := ⟨k ++ ['>'], rfl, by simp [h.1]⟩

theorem Key.endLike {k : Str} (h : Key k) : TagLike (endTag k) := ⟨'/' :: (k ++ ['>']), rfl, by simp [h.1]⟩

theorem tag_length (k : Str) : (tag k).length = k.length + 2 := by simp [tag]

theorem Key.not_end_in_tag {k v : Str} (h : Key k) (hv : ¬ endTag k <:+: v) :
    ¬ endTag k <:+: tag k ++ v := by
  intro hi
  have h0 : ¬ endTag k <+: tag k ++ v := by
    intro hp
    have : (endTag k).take 2 = (tag k ++ v).take 2 := by
      obtain ⟨t, ht⟩ := hp
      rw [← ht]
      simp [Driver.endTag]
    cases k with
    | nil => simp [Driver.endTag, Driver.tag] at this
    | cons x k =>
      simp only [Driver.endTag, Driver.tag, List.cons_append, List.take_succ_cons,
        List.cons.injEq] at this
      exact h.2 (by rw [this.2.1]; simp)
  have aux : ∀ (w : Str), '<' ∉ w → endTag k <:+: w ++ v → endTag k <:+: v := by
    intro w
    induction w with
    | nil => intro _ h; simpa using h
    | cons x w ih =>
      intro hw hi
      rw [List.cons_append] at hi
      rcases List.infix_cons_iff.mp hi with h1 | h1
      · exfalso
        apply hw
        have : '<' = x := by
          unfold Driver.endTag at h1
          exact (List.cons_prefix_cons.mp h1).1
        rw [this]; simp
      · exact ih (fun h => hw (by simp [h])) h1
  have hi' : endTag k <:+: '<' :: ((k ++ ['>']) ++ v) := by simpa [Driver.tag] using hi
  rcases List.infix_cons_iff.mp hi' with h1 | h1
  · exact h0 (by simpa [Driver.tag] using h1)
  · exact hv (aux _ (by simp [h.1]) h1)

theorem substr_mid (a v b : Str) : substr (a ++ v ++ b) a.length v.length = v := by
  unfold substr
  rw [List.append_assoc, List.drop_left, List.take_left]

theorem element_none {s k : Str} : element s k = .ok none ↔ ¬ Spec.openTag k <:+: s := by
  unfold element
  rw [findFrom_zero, ← tag_eq, ← find?_none]
  cases h : find? (tag k) s with
  | none => simp
  | some a =>
    simp only [reduceCtorEq, iff_false]
    split
    · simp
    · split <;> simp

/-- The pieces found by the search. -/
theorem find_tag {s k : Str} {a : Nat} (hk : Key k) (h : find? (tag k) s = some a) :
    ∃ pre rest, s = pre ++ tag k ++ rest ∧ pre.length = a ∧ ¬ tag k <:+: pre := by
  obtain ⟨pre, post, e1, e2, e3⟩ := find?_some h
  exact ⟨pre, post, e1, e2, e3 hk.tagLike.ne_nil⟩

theorem find_end {k rest : Str} {e : Nat} (hk : Key k)
    (h : find? (endTag k) rest = some e) :
    ∃ v post, rest = v ++ endTag k ++ post ∧ v.length = e ∧ ¬ endTag k <:+: v := by
  obtain ⟨v, post, e1, e2, e3⟩ := find?_some h
  exact ⟨v, post, e1, e2, e3 hk.endLike.ne_nil⟩

theorem find_end_behind {k rest : Str} (hk : Key k) :
    find? (endTag k) (tag k ++ rest) = (find? (endTag k) rest).map (· + (tag k).length) := by
  cases h : find? (endTag k) rest with
  | none =>
    rw [Option.map_none, find?_none]
    exact hk.not_end_in_tag (find?_none.mp h)
  | some e =>
    obtain ⟨v, post, e1, e2, e3⟩ := find?_some h
    have e4 := hk.not_end_in_tag (e3 hk.endLike.ne_nil)
    rw [e1]
    obtain ⟨q, hq, _⟩ := hk.endLike
    have := find?_append hk.endLike e4 (b := q ++ post)
    rw [← List.cons_append, ← hq, find?_self] at this
    rw [show tag k ++ (v ++ endTag k ++ post) = tag k ++ v ++ (endTag k ++ post) by simp, this]
    simp [e2]; omega

theorem not_tag_behind {k post : Str} (hk : Key k) :
    tag k <:+: endTag k ++ post ↔ tag k <:+: post := by
  constructor
  · intro h
    have aux : ∀ (w : Str), '<' ∉ w → tag k <:+: w ++ post → tag k <:+: post := by
      intro w
      induction w with
      | nil => intro _ h; simpa using h
      | cons x w ih =>
        intro hw hi
        rw [List.cons_append] at hi
        rcases List.infix_cons_iff.mp hi with h1 | h1
        · exfalso
          apply hw
          have : '<' = x := by
            unfold Driver.tag at h1
            exact (List.cons_prefix_cons.mp h1).1
          rw [this]; simp
        · exact ih (fun h => hw (by simp [h])) h1
    have h' : tag k <:+: '<' :: (('/' :: (k ++ ['>'])) ++ post) := by simpa [Driver.endTag] using h
    rcases List.infix_cons_iff.mp h' with h1 | h1
    · exfalso
      unfold Driver.tag at h1
      have h2 := (List.cons_prefix_cons.mp h1).2
      cases k with
      | nil => simp at h2
      | cons x k =>
        have : x = '/' := (List.cons_prefix_cons.mp (by simpa using h2)).1
        exact hk.2 (by simp [this])
    · exact aux _ (by simp [hk.1]) h1
  · intro h
    exact h.trans (List.suffix_append _ _).isInfix

theorem element_some {s k v : Str} (hk : Key k) : element s k = .ok (some v) ↔ Spec.Element s k v := by
  unfold Spec.Element
  rw [← tag_eq, ← endTag_eq]
  constructor
  · intro h
    unfold element at h
    rw [findFrom_zero] at h
    cases ha : find? (tag k) s with
    | none => rw [ha] at h; cases h
    | some a =>
      obtain ⟨pre, rest, e1, e2, e3⟩ := find_tag hk ha
      rw [ha] at h
      dsimp only at h
      rw [e1, List.append_assoc, findFrom_append e2, find_end_behind hk] at h
      cases hb : find? (endTag k) rest with
      | none => rw [hb] at h; cases h
      | some b =>
        obtain ⟨w, post, f1, f2, f3⟩ := find_end hk hb
        rw [hb] at h
        simp only [Option.map_some] at h
        have hpos : (pre ++ tag k ++ w).length = b + (tag k).length + a := by simp [e2, f2]; omega
        rw [f1, show pre ++ (tag k ++ (w ++ endTag k ++ post)) =
          (pre ++ tag k ++ w) ++ (endTag k ++ post) by simp, findFrom_append hpos] at h
        cases hc : find? (tag k) (endTag k ++ post) with
        | some c => rw [hc] at h; cases h
        | none =>
          rw [hc] at h
          simp only [Option.map_none] at h
          have hlen := tag_length k
          have e4 : substr (pre ++ tag k ++ w ++ (endTag k ++ post)) (a + k.length + 2)
              (b + (tag k).length + a - a - k.length - 2) = w := by
            have := substr_mid (pre ++ tag k) w (endTag k ++ post)
            rw [show (pre ++ tag k).length = a + k.length + 2 by simp [e2, hlen]; omega] at this
            rw [show b + (tag k).length + a - a - k.length - 2 = w.length by rw [hlen, f2]; omega]
            exact this
          rw [e4] at h
          cases h
          refine ⟨pre, post, by rw [e1, f1]; simp, e3, f3, ?_⟩
          intro h5
          exact find?_none.mp hc ((not_tag_behind hk).mpr h5)
  · rintro ⟨pre, post, e1, e2, e3, e4⟩
    obtain ⟨q, hq, _⟩ := hk.tagLike
    have ha : find? (tag k) s = some pre.length := by
      have := find?_append hk.tagLike e2 (b := q ++ v ++ endTag k ++ post)
      rw [show '<' :: (q ++ v ++ endTag k ++ post) = tag k ++ (v ++ endTag k ++ post) by
        rw [hq]; simp, find?_self] at this
      rw [e1]
      simpa using this
    obtain ⟨q', hq', _⟩ := hk.endLike
    have hb : find? (endTag k) (v ++ endTag k ++ post) = some v.length := by
      have := find?_append hk.endLike e3 (b := q' ++ post)
      rw [show '<' :: (q' ++ post) = endTag k ++ post by rw [hq']; simp, find?_self] at this
      simpa using this
    have hc : find? (tag k) (endTag k ++ post) = none :=
      find?_none.mpr (fun h => e4 ((not_tag_behind hk).mp h))
    have hlen := tag_length k
    have hpos : (pre ++ tag k ++ v).length = v.length + (tag k).length + pre.length := by
      simp; omega
    unfold element
    rw [findFrom_zero, ha]
    dsimp only
    rw [e1, show pre ++ tag k ++ v ++ endTag k ++ post = pre ++ (tag k ++ (v ++ endTag k ++ post)) by simp,
      findFrom_append rfl, find_end_behind hk, hb]
    simp only [Option.map_some]
    rw [show pre ++ (tag k ++ (v ++ endTag k ++ post)) = (pre ++ tag k ++ v) ++ (endTag k ++ post) by simp,
      findFrom_append hpos, hc]
    simp only [Option.map_none]
    have := substr_mid (pre ++ tag k) v (endTag k ++ post)
    rw [show (pre ++ tag k).length = pre.length + k.length + 2 by simp [hlen]; omega] at this
    rw [show v.length + (tag k).length + pre.length - pre.length - k.length - 2 = v.length by
      rw [hlen]; omega, this]


theorem not_tag_split {k v post : Str} (hk : Key k) :
    tag k <:+: v ++ endTag k ++ post ↔ tag k <:+: v ∨ tag k <:+: post := by
  obtain ⟨q, hq, _⟩ := hk.endLike
  have := hk.tagLike.infix_append (a := v) (b := q ++ post)
  rw [show '<' :: (q ++ post) = endTag k ++ post by rw [hq]; simp, not_tag_behind hk] at this
  rw [List.append_assoc]
  exact this

theorem extractContentBetweenKeys_ok {s k v : Str} (hk : Key k) :
    extractContentBetweenKeys s k = .ok v ↔ Spec.Section s k v := by
  unfold Spec.Section Spec.Element
  rw [← tag_eq, ← endTag_eq]
  constructor
  · intro h
    unfold extractContentBetweenKeys at h
    rw [findFrom_zero] at h
    cases ha : find? (tag k) s with
    | none => rw [ha] at h; cases h
    | some a =>
      obtain ⟨pre, rest, e1, e2, e3⟩ := find_tag hk ha
      have hpos : (pre ++ tag k).length = a + (tag k).length := by simp [e2]
      rw [ha] at h
      dsimp only at h
      rw [e1, findFrom_append hpos, findFrom_append hpos] at h
      cases hb : find? (endTag k) rest with
      | none => rw [hb] at h; cases h
      | some b =>
        obtain ⟨w, post, f1, f2, f3⟩ := find_end hk hb
        rw [hb] at h
        simp only [Option.map_some] at h
        cases hc : find? (tag k) rest with
        | some c => rw [hc] at h; cases h
        | none =>
          rw [hc] at h
          simp only [Option.map_none] at h
          have e4 : substr (pre ++ tag k ++ rest) (a + (tag k).length)
              (b + (a + (tag k).length) - (a + (tag k).length)) = w := by
            have := substr_mid (pre ++ tag k) w (endTag k ++ post)
            rw [hpos] at this
            rw [f1, show b + (a + (tag k).length) - (a + (tag k).length) = w.length by omega]
            refine Eq.trans ?_ this
            simp
          rw [e4] at h
          cases h
          have h5 := find?_none.mp hc
          rw [f1, not_tag_split hk, not_or] at h5
          exact ⟨⟨pre, post, by rw [e1, f1]; simp, e3, f3, h5.2⟩, h5.1⟩
  · rintro ⟨⟨pre, post, e1, e2, e3, e4⟩, e5⟩
    obtain ⟨q, hq, _⟩ := hk.tagLike
    have ha : find? (tag k) s = some pre.length := by
      have := find?_append hk.tagLike e2 (b := q ++ v ++ endTag k ++ post)
      rw [show '<' :: (q ++ v ++ endTag k ++ post) = tag k ++ (v ++ endTag k ++ post) by
        rw [hq]; simp, find?_self] at this
      rw [e1]
      simpa using this
    obtain ⟨q', hq', _⟩ := hk.endLike
    have hb : find? (endTag k) (v ++ endTag k ++ post) = some v.length := by
      have := find?_append hk.endLike e3 (b := q' ++ post)
      rw [show '<' :: (q' ++ post) = endTag k ++ post by rw [hq']; simp, find?_self] at this
      simpa using this
    have hc : find? (tag k) (v ++ endTag k ++ post) = none :=
      find?_none.mpr (fun h => ((not_tag_split hk).mp h).elim e5 e4)
    have hpos : (pre ++ tag k).length = pre.length + (tag k).length := by simp
    unfold extractContentBetweenKeys
    rw [findFrom_zero, ha]
    dsimp only
    rw [e1, show pre ++ tag k ++ v ++ endTag k ++ post = (pre ++ tag k) ++ (v ++ endTag k ++ post) by simp,
      findFrom_append hpos, findFrom_append hpos, hb, hc]
    simp only [Option.map_some, Option.map_none]
    have := substr_mid (pre ++ tag k) v (endTag k ++ post)
    rw [hpos] at this
    rw [show v.length + (pre.length + (tag k).length) - (pre.length + (tag k).length) = v.length by omega,
      show pre ++ tag k ++ (v ++ endTag k ++ post) = pre ++ tag k ++ v ++ (endTag k ++ post) by simp, this]

theorem find_tag_at {k pre rest : Str} (hk : Key k) (h : ¬ tag k <:+: pre) :
    find? (tag k) (pre ++ tag k ++ rest) = some pre.length := by
  obtain ⟨q, hq, _⟩ := hk.tagLike
  have := find?_append hk.tagLike h (b := q ++ rest)
  rw [show '<' :: (q ++ rest) = tag k ++ rest by rw [hq]; simp, find?_self] at this
  simpa using this

theorem find_end_at {k v post : Str} (hk : Key k) (h : ¬ endTag k <:+: v) :
    find? (endTag k) (v ++ endTag k ++ post) = some v.length := by
  obtain ⟨q', hq', _⟩ := hk.endLike
  have := find?_append hk.endLike h (b := q' ++ post)
  rw [show '<' :: (q' ++ post) = endTag k ++ post by rw [hq']; simp, find?_self] at this
  simpa using this

/-- One round of `extractContents`. -/
theorem extractLoop_round {s k a pre v post : Str} (hk : Key k) (n : Nat)
    (e : s = a ++ (pre ++ tag k ++ v ++ endTag k ++ post)) (h1 : ¬ tag k <:+: pre)
    (h2 : ¬ endTag k <:+: v) :
    extractLoop s k (n + 1) (findFrom s (tag k) a.length) =
      v :: extractLoop s k n (findFrom s (tag k) (a ++ pre ++ tag k ++ v ++ endTag k).length) := by
  have hf : findFrom s (tag k) a.length = some (pre.length + a.length) := by
    rw [e, findFrom_append rfl,
      show pre ++ tag k ++ v ++ endTag k ++ post = pre ++ tag k ++ (v ++ endTag k ++ post) by simp,
      find_tag_at hk h1]
    rfl
  rw [hf, extractLoop]
  have hpos : (a ++ pre ++ tag k).length = pre.length + a.length + (tag k).length := by simp; omega
  have es : s = (a ++ pre ++ tag k) ++ (v ++ endTag k ++ post) := by rw [e]; simp
  have hg : findFrom s (endTag k) (pre.length + a.length + (tag k).length) =
      some (v.length + (pre.length + a.length + (tag k).length)) := by
    rw [es, findFrom_append hpos, find_end_at hk h2]
    rfl
  rw [hg]
  dsimp only
  have e4 : substr s (pre.length + a.length + (tag k).length)
      (v.length + (pre.length + a.length + (tag k).length) - (pre.length + a.length + (tag k).length)) = v := by
    have := substr_mid (a ++ pre ++ tag k) v (endTag k ++ post)
    rw [hpos] at this
    rw [show v.length + (pre.length + a.length + (tag k).length) -
      (pre.length + a.length + (tag k).length) = v.length by omega, es]
    refine Eq.trans ?_ this
    simp
  rw [e4, show v.length + (pre.length + a.length + (tag k).length) + (endTag k).length =
    (a ++ pre ++ tag k ++ v ++ endTag k).length by simp; omega]

theorem extractLoop_stop {s k a b : Str} (hk : Key k) (n : Nat) (e : s = a ++ b)
    (h : ∀ pre post, b = pre ++ tag k ++ post → ¬ tag k <:+: pre → ¬ endTag k <:+: post) :
    extractLoop s k n (findFrom s (tag k) a.length) = [] := by
  rw [e, findFrom_append rfl]
  cases n with
  | zero => rfl
  | succ n =>
    cases hb : find? (tag k) b with
    | none => rfl
    | some i =>
      obtain ⟨pre, rest, e1, e2, e3⟩ := find_tag hk hb
      simp only [Option.map_some]
      unfold extractLoop
      have hpos : (a ++ pre ++ tag k).length = i + a.length + (tag k).length := by simp [e2]; omega
      rw [e1, show a ++ (pre ++ tag k ++ rest) = (a ++ pre ++ tag k) ++ rest by simp,
        findFrom_append hpos, find?_none.mpr (h pre rest e1 e3)]
      rfl

theorem extractLoop_elements {k : Str} (hk : Key k) {b : Str} {vs : List Str}
    (h : Spec.Elements k b vs) : ∀ (s a : Str) (n : Nat), s = a ++ b → b.length < n →
      extractLoop s k n (findFrom s (tag k) a.length) = vs := by
  induction h with
  | none h =>
    intro s a n e _
    rw [← tag_eq, ← endTag_eq] at h
    exact extractLoop_stop hk n e h
  | @cons b pre v post vs h0 h1 h2 h ih =>
    intro s a n e hn
    rw [← tag_eq] at h1
    rw [← endTag_eq] at h2
    rw [← tag_eq, ← endTag_eq] at h0
    obtain ⟨m, rfl⟩ : ∃ m, n = m + 1 := ⟨n - 1, by omega⟩
    rw [extractLoop_round hk m (by rw [e, h0]) h1 h2, ih s (a ++ pre ++ tag k ++ v ++ endTag k) m]
    · rw [e, h0]; simp
    · rw [h0] at hn
      simp at hn
      have := tag_length k
      omega

theorem exists_elements {k : Str} (hk : Key k) : ∀ (n : Nat) (b : Str), b.length < n →
    ∃ vs, Spec.Elements k b vs := by
  intro n
  induction n with
  | zero => intro b h; omega
  | succ n ih =>
    intro b hb
    by_cases hc : ∀ pre post, b = pre ++ Spec.openTag k ++ post → ¬ Spec.openTag k <:+: pre →
        ¬ Spec.closeTag k <:+: post
    · exact ⟨[], .none hc⟩
    · push Not at hc
      obtain ⟨pre, post, e, h1, h2⟩ := hc
      have h2' : find? (endTag k) post ≠ none := by
        rw [Ne, find?_none, endTag_eq]; exact not_not.mpr h2
      obtain ⟨i, hi⟩ := Option.ne_none_iff_exists'.mp h2'
      obtain ⟨v, rest, f1, f2, f3⟩ := find_end hk hi
      rw [endTag_eq] at f1 f3
      have hl : rest.length < n := by
        have := tag_length k
        rw [tag_eq] at this
        rw [e, f1] at hb
        simp at hb
        omega
      obtain ⟨vs, hvs⟩ := ih rest hl
      exact ⟨v :: vs, .cons (by rw [e, f1]; simp) h1 f3 hvs⟩

/-- `extractContents` returns the contents of the successive elements. -/
theorem extractContents_iff {s k : Str} (hk : Key k) {vs : List Str} :
    extractContents s k = vs ↔ Spec.Elements k s vs := by
  have H : ∀ {vs : List Str}, Spec.Elements k s vs → extractContents s k = vs := by
    intro vs h
    have := extractLoop_elements hk h s [] (s.length + 1) (by simp) (by omega)
    exact this
  constructor
  · intro h
    obtain ⟨ws, hws⟩ := exists_elements hk (s.length + 1) s (by omega)
    rw [← h, H hws]
    exact hws
  · exact H

/-! ## Values of keywords -/

theorem stripped_eq (v : Str) : Spec.stripped v = removeSpaces v := rfl

theorem getString_ok {s k w : Str} (hk : Key k) (h : getString s k = .ok w) :
    (w = [] ∧ Spec.Missing s k) ∨ Spec.Given s k w := by
  unfold getString at h
  obtain ⟨v, hv, h⟩ := bind_ok_inv h
  cases v with
  | none =>
    cases h
    exact .inl ⟨rfl, .inl (element_none.mp hv)⟩
  | some v =>
    cases h
    have he := (element_some hk).mp hv
    by_cases h0 : removeSpaces v = []
    · exact .inl ⟨h0, .inr ⟨v, he, h0⟩⟩
    · exact .inr ⟨v, he, rfl, h0⟩

theorem getString_word {s k w : Str} (hk : Key k) (h : Spec.Given s k w) : getString s k = .ok w := by
  obtain ⟨v, he, e, _⟩ := h
  unfold getString
  rw [(element_some hk).mpr he, e]
  rfl

theorem getString_missing {s k : Str} (hk : Key k) (h : Spec.Missing s k) : getString s k = .ok [] := by
  unfold getString
  rcases h with h | ⟨v, he, e⟩
  · rw [element_none.mpr h]; rfl
  · rw [(element_some hk).mpr he]
    show Except.ok (removeSpaces v) = _
    rw [← stripped_eq, e]

theorem getInteger_ok {s k : Str} {n : Int} (hk : Key k) (h : getInteger s k = .ok n) :
    (n = noInt ∧ ¬ Spec.openTag k <:+: s) ∨ Spec.Integer s k n := by
  unfold getInteger at h
  obtain ⟨v, hv, h⟩ := bind_ok_inv h
  cases v with
  | none =>
    cases h
    exact .inl ⟨rfl, element_none.mp hv⟩
  | some v =>
    refine .inr ⟨v, (element_some hk).mp hv, ?_⟩
    dsimp only at h
    split at h
    · rename_i m hm
      rw [hm]; exact h
    · cases h

theorem getInteger_integer {s k : Str} {n : Int} (hk : Key k) (h : Spec.Integer s k n) :
    getInteger s k = .ok n := by
  obtain ⟨v, he, e⟩ := h
  unfold getInteger
  rw [(element_some hk).mpr he]
  show (match stoi v with | .ok n => (.ok n : Res Int) | .error _ => .error .invalidArgument) = _
  rw [e]

theorem getInteger_none {s k : Str} (h : ¬ Spec.openTag k <:+: s) : getInteger s k = .ok noInt := by
  unfold getInteger
  rw [element_none.mpr h]
  rfl

theorem Spec_integer_unique {s k : Str} {m n : Int} (hk : Key k) (h : Spec.Integer s k m)
    (h' : Spec.Integer s k n) : m = n := by
  have := (getInteger_integer hk h).symm.trans (getInteger_integer hk h')
  exact Except.ok.inj this

theorem Spec_word_unique {s k w w' : Str} (hk : Key k) (h : Spec.Given s k w)
    (h' : Spec.Given s k w') : w = w' := by
  have := (getString_word hk h).symm.trans (getString_word hk h')
  exact Except.ok.inj this

theorem Spec_element_unique {s k v v' : Str} (hk : Key k) (h : Spec.Element s k v)
    (h' : Spec.Element s k v') : v = v' := by
  have := ((element_some hk).mpr h).symm.trans ((element_some hk).mpr h')
  exact Option.some.inj (Except.ok.inj this)

theorem Spec_element_open {s k v : Str} (h : Spec.Element s k v) : Spec.openTag k <:+: s := by
  obtain ⟨pre, post, e, _⟩ := h
  exact ⟨pre, v ++ Spec.closeTag k ++ post, by rw [e]; simp⟩

section
variable {K : Type} [Field K] [LinearOrder K] [IsStrictOrderedRing K] [FloorRing K]

theorem getDouble_ok {s k : Str} {x : K} (hk : Key k) :
    getDouble s k = .ok x ↔ Spec.NumberOr s k x := by
  unfold getDouble Spec.NumberOr Spec.Number
  constructor
  · intro h
    obtain ⟨v, hv, h⟩ := bind_ok_inv h
    cases v with
    | none =>
      cases h
      exact .inr ⟨element_none.mp hv, by norm_num⟩
    | some v =>
      refine .inl ⟨v, (element_some hk).mp hv, ?_⟩
      dsimp only at h
      rw [stripped_eq]
      split at h
      · rename_i m hm
        rw [hm]; exact h
      · cases h
  · rintro (⟨v, he, e⟩ | ⟨h, e⟩)
    · rw [(element_some hk).mpr he]
      show (match (stod (removeSpaces v) : Res K) with
        | .ok x => (.ok x : Res K) | .error _ => .error .invalidArgument) = _
      rw [← stripped_eq, e]
    · rw [element_none.mpr h, e]
      show Except.ok _ = _
      norm_num

end

/-! ## Lists of keywords -/

theorem Keyword.read_name {w w' : Keyword} {input : Str} (h : w.read input = .ok w') :
    w'.name = w.name := by
  unfold Keyword.read at h
  split at h
  · obtain ⟨v, _, h⟩ := bind_ok_inv h
    split at h <;> cases h <;> rfl
  · obtain ⟨v, _, h⟩ := bind_ok_inv h
    split at h <;> cases h <;> rfl
  · split at h
    · cases h
    · cases h; rfl

theorem readKeywords_find {ws ws' : List Keyword} {input key : Str} {w : Keyword}
    (h : readKeywords ws input = .ok ws') (hw : ws.find? (fun w => decide (w.name = key)) = some w) :
    ∃ w', w.read input = .ok w' ∧ ws'.find? (fun w => decide (w.name = key)) = some w' := by
  have h2 := mapRes_inv h
  clear h
  induction h2 with
  | nil => simp at hw
  | @cons a b l l' hab _ ih =>
    have hn := Keyword.read_name hab
    rw [List.find?_cons] at hw
    by_cases hk : a.name = key
    · simp only [hk, decide_true] at hw
      cases hw
      exact ⟨b, hab, by rw [List.find?_cons]; simp [hn, hk]⟩
    · simp only [hk, decide_false] at hw
      obtain ⟨w', h1, h2⟩ := ih hw
      exact ⟨w', h1, by rw [List.find?_cons]; simp [hn, hk, h2]⟩

theorem stringValue_read {ws ws' : List Keyword} {input key : Str}
    (h : readKeywords ws input = .ok ws')
    (hw : ws.find? (fun w => decide (w.name = key)) = some (.new key .string)) :
    ∃ v, getString input key = .ok v ∧ stringValue ws' key = .ok v := by
  obtain ⟨w', h1, h2⟩ := readKeywords_find h hw
  unfold Keyword.read Keyword.new at h1
  obtain ⟨v, hv, h1⟩ := bind_ok_inv h1
  refine ⟨v, hv, ?_⟩
  unfold stringValue
  rw [h2]
  split at h1
  · rename_i h0
    cases h1
    simp [h0]
  · cases h1
    simp

theorem intValue_read {ws ws' : List Keyword} {input key : Str}
    (h : readKeywords ws input = .ok ws')
    (hw : ws.find? (fun w => decide (w.name = key)) = some (.new key .int)) :
    ∃ v, getInteger input key = .ok v ∧ intValue ws' key = .ok v := by
  obtain ⟨w', h1, h2⟩ := readKeywords_find h hw
  unfold Keyword.read Keyword.new at h1
  obtain ⟨v, hv, h1⟩ := bind_ok_inv h1
  refine ⟨v, hv, ?_⟩
  unfold intValue
  rw [h2]
  split at h1
  · rename_i h0
    cases h1
    simp [h0]
  · cases h1
    simp

/-- A mandatory keyword is a word of the text. -/
theorem mandatory_read {ws ws' : List Keyword} {input key v : Str} (hk : Key key)
    (h : readKeywords ws input = .ok ws')
    (hw : ws.find? (fun w => decide (w.name = key)) = some (.new key .string))
    (hv : mandatory ws' key = .ok v) : Spec.Given input key v := by
  obtain ⟨w, h1, h2⟩ := stringValue_read h hw
  unfold mandatory at hv
  obtain ⟨v', h3, hv⟩ := bind_ok_inv hv
  rw [h2] at h3
  cases h3
  split at hv
  · cases hv
  · rename_i h0
    cases hv
    rcases getString_ok hk h1 with h4 | h4
    · exact absurd h4.1 h0
    · exact h4

theorem isEqual_iff {a b : Str} (hb : b ≠ []) : isEqual a b = true ↔ Spec.SameWord a b := by
  unfold isEqual Spec.SameWord
  constructor
  · intro h
    split at h
    · cases h
    · split at h
      · cases h
      · simpa using h
  · intro h
    have hl : a.length = b.length := by
      have := congrArg List.length h
      simpa using this
    have ha : a ≠ [] := by
      intro h0
      rw [h0] at hl
      exact hb (List.length_eq_zero_iff.mp hl.symm)
    rw [if_neg (by simp [ha, hb]), if_neg (by simp [hl])]
    simpa using h


/-! ## Lines of constraints -/

/-- Blanks and tabulators. -/
def blank (c : Char) : Bool := c = ' ' || c = '\t'

theorem dropWhile_blank {a t : Str} (ha : ∀ x ∈ a, blank x = true)
    (ht : ∀ x, t.head? = some x → blank x = false) : (a ++ t).dropWhile blank = t := by
  induction a with
  | nil =>
    cases t with
    | nil => rfl
    | cons x t =>
      have := ht x rfl
      simp [this]
  | cons x a ih =>
    have := ha x (by simp)
    simp only [List.cons_append, List.dropWhile, this]
    exact ih (fun y hy => ha y (by simp [hy]))

theorem trimLine_eq (s : Str) :
    trimLine s = (((s.dropWhile blank).reverse).dropWhile blank).reverse := rfl

theorem trimmed_eq {l t : Str} (h : Spec.Trimmed l t) : trimLine l = t := by
  obtain ⟨a, b, e, hb, ht⟩ := h
  have hblank : ∀ x ∈ a ++ b, blank x = true := by
    intro x hx
    rcases hb x hx with h | h <;> simp [blank, h]
  have hnot : ∀ x, x ≠ ' ' ∧ x ≠ '\t' → blank x = false := by
    intro x hx; simp [blank, hx.1, hx.2]
  rw [trimLine_eq, e]
  by_cases h0 : t = []
  · subst h0
    have : (a ++ [] ++ b).dropWhile blank = [] := by
      have := dropWhile_blank (a := a ++ b) (t := []) hblank (by simp)
      simpa using this
    rw [this]
    rfl
  · have h1 : (a ++ t ++ b).dropWhile blank = t ++ b := by
      rw [List.append_assoc]
      apply dropWhile_blank (fun x hx => hblank x (by simp [hx]))
      intro x hx
      apply hnot
      apply ht
      left
      rw [List.head?_append] at hx
      cases t with
      | nil => exact absurd rfl h0
      | cons y t => simpa using hx
    rw [h1, List.reverse_append, dropWhile_blank (fun x hx => hblank x (by simp at hx; simp [hx])),
      List.reverse_reverse]
    intro x hx
    apply hnot
    apply ht
    right
    rwa [List.head?_reverse] at hx

theorem trimmed_trimLine (l : Str) : Spec.Trimmed l (trimLine l) := by
  set d := l.dropWhile blank with hd
  have e1 : l = l.takeWhile blank ++ d := (List.takeWhile_append_dropWhile).symm
  set r := d.reverse.dropWhile blank with hr
  have e2 : d.reverse = d.reverse.takeWhile blank ++ r := (List.takeWhile_append_dropWhile).symm
  have e3 : d = r.reverse ++ (d.reverse.takeWhile blank).reverse := by
    have := congrArg List.reverse e2
    simpa using this
  have et : trimLine l = r.reverse := by rw [trimLine_eq]
  have hbl : ∀ (m : Str), ∀ x ∈ m.takeWhile blank, x = ' ' ∨ x = '\t' := by
    intro m x hx
    have := List.mem_takeWhile_imp hx
    simpa [blank] using this
  have hhead : ∀ (m : Str) x, (m.dropWhile blank).head? = some x → x ≠ ' ' ∧ x ≠ '\t' := by
    intro m x hx
    have := List.head?_dropWhile_not blank m
    rw [hx] at this
    simp only [blank] at this
    simpa using this
  refine ⟨l.takeWhile blank, (d.reverse.takeWhile blank).reverse, ?_, ?_, ?_⟩
  · rw [et, List.append_assoc, ← e3, ← e1]
  · intro x hx
    rcases List.mem_append.mp hx with h | h
    · exact hbl l x h
    · exact hbl _ x (by simpa using h)
  · intro x hx
    rw [et] at hx
    rcases hx with h | h
    · by_cases h0 : r = []
      · simp [h0] at h
      · apply hhead l x
        rw [← hd, e3, List.head?_append, h]
        rfl
    · rw [List.getLast?_reverse] at h
      exact hhead d.reverse x h

theorem infix_cons_skip {p l : Str} {x : Char} (hp : p ≠ []) (hx : x ∉ p) :
    p <:+: x :: l ↔ p <:+: l := by
  rw [List.infix_cons_iff]
  constructor
  · rintro (h | h)
    · cases p with
      | nil => exact absurd rfl hp
      | cons y p =>
        have := (List.cons_prefix_cons.mp h).1
        exact absurd (by simp [this]) hx
    · exact h
  · exact .inr

theorem infix_skip_left {p a l : Str} (hp : p ≠ []) (ha : ∀ x ∈ a, x ∉ p) :
    p <:+: a ++ l ↔ p <:+: l := by
  induction a with
  | nil => simp
  | cons x a ih =>
    rw [List.cons_append, infix_cons_skip hp (ha x (by simp)), ih (fun y hy => ha y (by simp [hy]))]

theorem infix_skip_right {p a l : Str} (hp : p ≠ []) (ha : ∀ x ∈ a, x ∉ p) :
    p <:+: l ++ a ↔ p <:+: l := by
  have := infix_skip_left (p := p.reverse) (a := a.reverse) (l := l.reverse) (by simpa using hp)
    (by intro x hx; simp at hx ⊢; exact ha x hx)
  rw [← List.reverse_append, List.reverse_infix, List.reverse_infix] at this
  exact this

theorem infix_trimLine {p l : Str} (hp : p ≠ []) (hb : ∀ x ∈ p, x ≠ ' ' ∧ x ≠ '\t') :
    p <:+: trimLine l ↔ p <:+: l := by
  obtain ⟨a, b, e, h, _⟩ := trimmed_trimLine l
  have H : ∀ x ∈ a ++ b, x ∉ p := by
    intro x hx hxp
    rcases h x hx with h1 | h1
    · exact (hb x hxp).1 h1
    · exact (hb x hxp).2 h1
  conv_rhs => rw [e, infix_skip_right hp (fun x hx => H x (by simp [hx])),
    infix_skip_left hp (fun x hx => H x (by simp [hx]))]

theorem isSome_find {p l : Str} : (find? p l).isSome = true ↔ p <:+: l := by
  rw [← not_iff_not, ← find?_none, Bool.not_eq_true, Option.isSome_eq_false_iff, Option.isNone_iff_eq_none]

theorem start_line {l : Str} : (find? (tag "constraint_function".toList) (trimLine l)).isSome = true ↔
    Spec.openTag "constraint_function".toList <:+: l := by
  rw [isSome_find, tag_eq, infix_trimLine (by decide) (by decide)]

theorem end_line {l : Str} : (find? (endTag "constraint_function".toList) (trimLine l)).isSome = true ↔
    Spec.closeTag "constraint_function".toList <:+: l := by
  rw [isSome_find, endTag_eq, infix_trimLine (by decide) (by decide)]

theorem constraintLines_start {l : Str} {ls : List Str} {b : Bool} {cur : Str}
    (h : Spec.openTag "constraint_function".toList <:+: l)
    (h' : ¬ Spec.closeTag "constraint_function".toList <:+: l) :
    constraintLines b cur (l :: ls) = constraintLines true (trimLine l ++ ['\n']) ls := by
  rw [constraintLines]
  simp only [start_line.mpr h, if_true]
  rw [if_neg (by rw [end_line]; exact h')]
  simp

theorem constraintLines_end {l : Str} {ls : List Str} {b : Bool} {cur : Str}
    (h : ¬ Spec.openTag "constraint_function".toList <:+: l)
    (h' : Spec.closeTag "constraint_function".toList <:+: l) :
    constraintLines b cur (l :: ls) = cur :: constraintLines false cur ls := by
  rw [constraintLines]
  have hs : ¬ (find? (tag "constraint_function".toList) (trimLine l)).isSome = true := by
    rw [start_line]; exact h
  simp only [end_line.mpr h', if_true, hs, Bool.false_eq_true, if_false]

theorem constraintLines_both {l : Str} {ls : List Str} {b : Bool} {cur : Str}
    (h : Spec.openTag "constraint_function".toList <:+: l)
    (h' : Spec.closeTag "constraint_function".toList <:+: l) :
    constraintLines b cur (l :: ls) = [] :: constraintLines false [] ls := by
  rw [constraintLines]
  simp only [start_line.mpr h, end_line.mpr h', if_true]

theorem constraintLines_plain {l : Str} {ls : List Str} {b : Bool} {cur : Str} (h : Spec.Plain l) :
    constraintLines b cur (l :: ls) =
      constraintLines b (if b then cur ++ trimLine l ++ ['\n'] else cur) ls := by
  rw [constraintLines]
  have hs : ¬ (find? (tag "constraint_function".toList) (trimLine l)).isSome = true := by
    rw [start_line]; exact h.1
  have he : ¬ (find? (endTag "constraint_function".toList) (trimLine l)).isSome = true := by
    rw [end_line]; exact h.2
  simp only [hs, he, Bool.false_eq_true, if_false]

theorem constraintLines_skip {out ls : List Str} {cur : Str} (h : ∀ l ∈ out, Spec.Plain l) :
    constraintLines false cur (out ++ ls) = constraintLines false cur ls := by
  induction out with
  | nil => rfl
  | cons l out ih =>
    rw [List.cons_append, constraintLines_plain (h l (by simp)), if_neg (by simp),
      ih (fun x hx => h x (by simp [hx]))]

theorem constraintLines_body {body ls : List Str} {cur : Str} (h : ∀ l ∈ body, Spec.Plain l) :
    constraintLines true cur (body ++ ls) =
      constraintLines true (cur ++ (body.map (fun l => trimLine l ++ ['\n'])).flatten) ls := by
  induction body generalizing cur with
  | nil => simp
  | cons l body ih =>
    rw [List.cons_append, constraintLines_plain (h l (by simp)), if_pos rfl,
      ih (fun x hx => h x (by simp [hx]))]
    simp

theorem forall₂_trimmed {ls ts : List Str} (h : List.Forall₂ Spec.Trimmed ls ts) :
    ts = ls.map trimLine := by
  induction h with
  | nil => rfl
  | cons hab _ ih => rw [List.map_cons, trimmed_eq hab, ih]

/-- A file with one constraint at its end. -/
theorem blocks_one {out body : List Str} {first last : Str} (h1 : ∀ l ∈ out, Spec.Plain l)
    (h2 : Spec.openTag "constraint_function".toList <:+: first)
    (h3 : ¬ Spec.closeTag "constraint_function".toList <:+: first) (h4 : ∀ l ∈ body, Spec.Plain l)
    (h5 : Spec.closeTag "constraint_function".toList <:+: last)
    (h6 : ¬ Spec.openTag "constraint_function".toList <:+: last) :
    Spec.Blocks (out ++ first :: body ++ [last])
      [((first :: body).map (fun l => trimLine l ++ ['\n'])).flatten] := by
  have hF : ∀ ls : List Str, List.Forall₂ Spec.Trimmed ls (ls.map trimLine) := by
    intro ls
    induction ls with
    | nil => exact .nil
    | cons a ls ih => exact .cons (trimmed_trimLine a) ih
  have := Spec.Blocks.cons (ts := (first :: body).map trimLine) (rest := []) (texts := []) rfl h1 h2 h3 h4 h5
    h6 (hF _) (.none (by simp))
  rw [List.map_map] at this
  exact this

theorem constraintLines_blocks {ls texts : List Str} (h : Spec.Blocks ls texts) :
    ∀ cur, constraintLines false cur ls = texts := by
  induction h with
  | none h =>
    intro cur
    rename_i ls
    have := constraintLines_skip (out := ls) (ls := []) (cur := cur) h
    rw [List.append_nil] at this
    rw [this]
    rfl
  | @cons ls out body rest ts texts first last h0 h1 h2 h3 h4 h5 h6 h7 h ih =>
    intro cur
    have hts : ts = (first :: body).map trimLine := forall₂_trimmed h7
    rw [h0, List.append_assoc, constraintLines_skip h1, List.cons_append, constraintLines_start h2 h3,
      constraintLines_body h4, constraintLines_end h6 h5, ih, hts]
    congr 1
    simp [List.map_map, Function.comp_def]


/-! ## What the parts of the driver read -/

section
variable {K : Type} [Field K] [LinearOrder K] [IsStrictOrderedRing K] [FloorRing K]

theorem toUnsigned_small {n : Int} (h0 : 0 ≤ n) (h : n < 2 ^ 32) : ((toUnsigned n : Nat) : Int) = n := by
  unfold toUnsigned
  rw [Int.emod_eq_of_lt h0 h, Int.toNat_of_nonneg h0]

theorem stoi_small {v : Str} {n : Int} (h : stoi v = .ok n) : n < 2 ^ 31 := by
  unfold stoi at h
  dsimp only at h
  generalize (if (takeSign (skipSpace v)).1 = true then
    -(digitsVal (takeDigits (takeSign (skipSpace v)).2).1 : Int) else
    (digitsVal (takeDigits (takeSign (skipSpace v)).2).1 : Int)) = m at h
  split at h
  · cases h
  · split at h
    · cases h
    · rename_i h1
      cases h
      rw [not_or] at h1
      omega

theorem integer_small {s k : Str} {n : Int} (h : Spec.Integer s k n) : n < 2 ^ 31 := by
  obtain ⟨v, _, h⟩ := h
  exact stoi_small h

theorem integer_open {s k : Str} {n : Int} (h : Spec.Integer s k n) : Spec.openTag k <:+: s := by
  obtain ⟨v, h, _⟩ := h
  exact Spec_element_open h

/-- A positive integer that must be given. -/
theorem positive_read {s k : Str} {n : Int} (hk : Key k) (h : getInteger s k = .ok n) (h0 : ¬ n ≤ 0) :
    Spec.Integer s k (toUnsigned n : Nat) ∧ 0 < toUnsigned n ∧ ((toUnsigned n : Nat) : Int) = n := by
  rcases getInteger_ok hk h with h1 | h1
  · rw [h1.1] at h0
    exact absurd (by decide) h0
  · have hs := integer_small h1
    have e := toUnsigned_small (n := n) (by omega) (by omega)
    refine ⟨by rw [e]; exact h1, by omega, e⟩

/-- An integer that may be left out. -/
theorem optional_read {s k : Str} {n : Int} {d : Nat} (hk : Key k) (h : getInteger s k = .ok n) :
    (∀ m : Int, 0 ≤ m → Spec.Integer s k m →
      (((if n ≠ noInt then toUnsigned n else d : Nat)) : Int) = m) ∧
    (¬ Spec.openTag k <:+: s → (if n ≠ noInt then toUnsigned n else d : Nat) = d) := by
  constructor
  · intro m hm hi
    have e : n = m := Except.ok.inj (h.symm.trans (getInteger_integer hk hi))
    have hs := integer_small hi
    rw [e, if_pos (by intro h'; rw [h'] at hm; exact absurd hm (by decide)),
      toUnsigned_small hm (by omega)]
  · intro ho
    have e : n = noInt := Except.ok.inj (h.symm.trans (getInteger_none ho))
    rw [if_neg (by simp [e])]

theorem general_inv {s : Str} {ws : List Keyword} {g : General} (hr : readKeywords generalKeys s = .ok ws)
    (h : generalSettings ws = .ok (some g)) :
    (∃ t, Spec.Given s "type".toList t ∧ Spec.SameWord t "optimization".toList) ∧
    (Spec.Integer s "dimension".toList g.dimension ∧ 0 < g.dimension ∧
      intValue ws "dimension".toList = .ok g.dimension) ∧
    (∀ w, Spec.Given s "name".toList w → g.name = defaultName) ∧
    (Spec.Integer s "number_of_function_evaluations".toList g.maxSamples ∧ 0 < g.maxSamples) ∧
    ((∀ m : Int, 0 ≤ m → Spec.Integer s "max_number_of_inner_iterations".toList m →
      (g.innerIterations : Int) = m)) ∧
    ((∀ m : Int, 0 ≤ m → Spec.Integer s "number_of_threads".toList m → (g.threads : Int) = m) ∧
      (¬ Spec.openTag "number_of_threads".toList <:+: s → g.threads = 1) ∧ 0 < g.threads) := by
  unfold generalSettings at h
  obtain ⟨t, ht, h⟩ := bind_ok_inv h
  have hw := mandatory_read (by decide) hr (by decide) ht
  split at h
  swap
  · cases h
  rename_i heq
  obtain ⟨d, hd, h⟩ := bind_ok_inv h
  obtain ⟨name, hname, h⟩ := bind_ok_inv h
  obtain ⟨N, hN, h⟩ := bind_ok_inv h
  obtain ⟨inner, hinner, h⟩ := bind_ok_inv h
  obtain ⟨threads, hthreads, h⟩ := bind_ok_inv h
  cases h
  refine ⟨⟨t, hw, (isEqual_iff (by decide)).mp heq⟩, ?_, ?_, ?_, ?_, ?_⟩
  · obtain ⟨v, h1, h2⟩ := intValue_read (key := "dimension".toList) hr (by decide)
    unfold setDimension at hd
    rw [h2] at hd
    have hd' : (if v ≤ 0 then (.error .invalidArgument : Res Nat) else .ok (toUnsigned v)) = .ok d := hd
    split at hd'
    · cases hd'
    · rename_i h0
      cases hd'
      obtain ⟨a, b, e⟩ := positive_read (by decide) h1 h0
      exact ⟨a, b, by rw [h2]; exact congrArg _ e.symm⟩
  · intro w hw'
    obtain ⟨v, h1, h2⟩ := stringValue_read (key := "name".toList) hr (by decide)
    have e : v = w := Except.ok.inj (h1.symm.trans (getString_word (by decide) hw'))
    obtain ⟨_, _, _, hne⟩ := hw'
    unfold setName at hname
    rw [h2] at hname
    have hn : Except.ok (if v = [] then v else defaultName) = Except.ok (ε := Err) name := hname
    cases hn
    rw [e, if_neg hne]
  · obtain ⟨v, h1, h2⟩ := intValue_read (key := "number_of_function_evaluations".toList) hr (by decide)
    unfold setEvaluations at hN
    rw [h2] at hN
    have hd' : (if v ≤ 0 then (.error .invalidArgument : Res Nat) else .ok (toUnsigned v)) = .ok N := hN
    split at hd'
    · cases hd'
    · rename_i h0
      cases hd'
      obtain ⟨a, b, _⟩ := positive_read (by decide) h1 h0
      exact ⟨a, b⟩
  · obtain ⟨v, h1, h2⟩ := intValue_read (key := "max_number_of_inner_iterations".toList) hr (by decide)
    unfold setInner at hinner
    rw [h2] at hinner
    have hn : Except.ok (if v ≠ noInt then toUnsigned v else d * 10000 % 2 ^ 32) =
      Except.ok (ε := Err) inner := hinner
    cases hn
    exact (optional_read (by decide) h1).1
  · obtain ⟨v, h1, h2⟩ := intValue_read (key := "number_of_threads".toList) hr (by decide)
    unfold setThreads at hthreads
    rw [h2] at hthreads
    have hn : (if v ≠ noInt then
      (if toUnsigned v = 0 then (.error .invalidArgument : Res Nat) else .ok (toUnsigned v))
      else .ok 1) = .ok threads := hthreads
    have e : threads = if v ≠ noInt then toUnsigned v else 1 := by
      split at hn
      · rename_i h0
        rw [if_pos h0]
        split at hn
        · cases hn
        · cases hn; rfl
      · rename_i h0
        rw [if_neg h0]
        cases hn; rfl
    have hpos : 0 < threads := by
      split at hn
      · split at hn
        · cases hn
        · cases hn; omega
      · cases hn; omega
    have := optional_read (d := 1) (by decide) h1
    exact ⟨by intro m hm hi; rw [e]; exact this.1 m hm hi, by intro ho; rw [e]; exact this.2 ho, hpos⟩

/-! ### Parameters -/

/-- The parameter the driver holds, as the user describes it. -/
def Parameter.spec (p : Parameter K) : Spec.Param K :=
  ⟨p.name, decide (p.type = "discrete".toList ∨ p.type = "int".toList), p.lb, p.ub, p.increment⟩

/-- What is known of a parameter before the bounds are set: the bounds may be equal. -/
def ParamRead (s : Str) (p : Parameter K) : Prop :=
  p.lb < p.ub → Spec.ParamSet s p.spec

theorem sameWord_lower {t w : Str} (hw : w.map lower = w) : t.map lower = w ↔ Spec.SameWord t w := by
  unfold Spec.SameWord; rw [hw]

theorem readParameter_inv {s : Str} {p : Parameter K} (h : readParameter s = .ok p) :
    ParamRead s p ∧ p.name ≠ [] := by
  unfold readParameter at h
  obtain ⟨name, hname, h⟩ := bind_ok_inv h
  obtain ⟨type, htype, h⟩ := bind_ok_inv h
  split at h
  · cases h
  rename_i hn
  split at h
  · cases h
  rename_i ht
  dsimp only at h
  split at h
  · cases h
  rename_i hty
  obtain ⟨lb, hlb, h⟩ := bind_ok_inv h
  obtain ⟨ub, hub, h⟩ := bind_ok_inv h
  split at h
  · cases h
  obtain ⟨inc, hinc, h⟩ := bind_ok_inv h
  have hN : Spec.Given s "name".toList name := by
    rcases getString_ok (by decide) hname with h1 | h1
    · exact absurd h1.1 hn
    · exact h1
  have hT : Spec.Given s "type".toList type := by
    rcases getString_ok (by decide) htype with h1 | h1
    · exact absurd h1.1 ht
    · exact h1
  have hlb' := (getDouble_ok (by decide)).mp hlb
  have hub' := (getDouble_ok (by decide)).mp hub
  have hinc' := (getDouble_ok (by decide)).mp hinc
  split at h
  · rename_i hd
    split at h
    · cases h
    rename_i hi
    cases h
    rw [not_or, not_le, not_lt] at hi
    refine ⟨fun hlt => ⟨hN, ⟨type, hT, ?_⟩, hlb', hub', hlt, fun _ => ⟨hinc', hi.1, hi.2⟩⟩, hn⟩
    rw [if_pos (show (Parameter.spec (⟨name, type.map lower, lb, ub, inc⟩ : Parameter K)).discrete = true
      from decide_eq_true hd)]
    rw [← sameWord_lower (by decide), ← sameWord_lower (by decide)]
    exact hd
  · rename_i hd
    cases h
    refine ⟨fun hlt => ⟨hN, ⟨type, hT, ?_⟩, hlb', hub', hlt, fun hdis => ?_⟩, hn⟩
    · rw [if_neg (show ¬ (Parameter.spec (⟨name, type.map lower, lb, ub, 0⟩ : Parameter K)).discrete = true
        from fun hc => hd (of_decide_eq_true hc))]
      rw [← sameWord_lower (by decide), ← sameWord_lower (by decide)]
      by_contra hc
      rw [not_or] at hc hd
      exact hty ⟨hc.1, hd.1, hc.2, hd.2⟩
    · exfalso
      exact hd (of_decide_eq_true hdis)

theorem boxOf_inv {ws : List Keyword} {ps : List (Parameter K)} {b : Bounds K} {d : Nat}
    (hd : intValue ws "dimension".toList = .ok d) (h : boxOf ws ps = .ok b) :
    ps.length = d ∧ b = ⟨ps.map (·.lb), ps.map (·.ub), ps.length, true⟩ ∧
      Spec.ValidBox ps.length (ps.map (·.lb)) (ps.map (·.ub)) := by
  unfold boxOf at h
  obtain ⟨d', hd', h⟩ := bind_ok_inv h
  rw [hd] at hd'
  cases hd'
  split at h
  · cases h
  rename_i hl
  have hl' : ps.length = d := by omega
  refine ⟨hl', ?_⟩
  unfold Bounds.setStd at h
  rw [if_neg (by simp), List.take_of_length_le (by simp)] at h
  set B : Bounds K := ⟨ps.map (·.lb), ps.map (·.ub), (ps.map (·.lb)).length, (Bounds.mk0 : Bounds K).isSet⟩
    with hB
  have hdim : B.dim = ps.length := by simp [hB]
  by_cases h0 : 0 < ps.length
  · obtain ⟨r, hr, hr'⟩ := Bounds.checkBounds_eq (b := B) rfl (by simp [hB]) (by rw [hdim]; exact h0)
    unfold Bounds.finish at h
    rw [hr] at h
    cases r with
    | false => cases h
    | true =>
      cases h
      refine ⟨by simp [hB], ?_⟩
      have := hr'.mp rfl
      rw [hdim] at this
      exact this
  · unfold Bounds.finish Bounds.checkBounds at h
    rw [if_pos (by rw [hdim]; omega)] at h
    cases h

theorem box_lt {ps : List (Parameter K)} {d : Nat}
    (h : Spec.ValidBox d (ps.map (·.lb)) (ps.map (·.ub))) {i : Nat} {p : Parameter K}
    (hp : ps[i]? = some p) : p.lb < p.ub := by
  refine h.2.2.2 i p.lb p.ub ?_ ?_ <;> rw [List.getElem?_map, hp] <;> rfl

theorem discreteLoop_inv {dim : Nat} {ps : List (Parameter K)} : ∀ {i : Nat} {r : List (Nat × K)},
    discreteLoop dim i ps = .ok r →
      (∀ (j : Nat) (x : K), (j, x) ∈ r ↔ i ≤ j ∧ ∃ p, ps[j - i]? = some p ∧ p.spec.discrete = true ∧
        x = p.increment) ∧ r.Pairwise (fun a b => a.1 < b.1) := by
  induction ps with
  | nil =>
    intro i r h
    cases h
    exact ⟨by simp, .nil⟩
  | cons p ps ih =>
    intro i r h
    have key : ∀ (r' : List (Nat × K)),
        (∀ (j : Nat) (x : K), (j, x) ∈ r' ↔ i + 1 ≤ j ∧ ∃ p, ps[j - (i + 1)]? = some p ∧
          p.spec.discrete = true ∧ x = p.increment) →
        ∀ (j : Nat) (x : K), i < j → ((j, x) ∈ r' ↔ i ≤ j ∧ ∃ q, (p :: ps)[j - i]? = some q ∧
          q.spec.discrete = true ∧ x = q.increment) := by
      intro r' H j x hj
      rw [H, show j - i = (j - (i + 1)) + 1 by omega, List.getElem?_cons_succ]
      exact ⟨fun h => ⟨by omega, h.2⟩, fun h => ⟨by omega, h.2⟩⟩
    unfold discreteLoop at h
    split at h
    · rename_i hd
      split at h
      · obtain ⟨r', hr', h⟩ := bind_ok_inv h
        cases h
        obtain ⟨h1, h2⟩ := ih hr'
        refine ⟨fun j x => ?_, List.pairwise_cons.mpr ⟨fun a ha => ?_, h2⟩⟩
        · rcases Nat.lt_trichotomy j i with hj | hj | hj
          · have : ¬ (j, x) ∈ r' := fun hm => by have := ((h1 j x).mp hm).1; omega
            constructor
            · intro hm
              rcases List.mem_cons.mp hm with e | hm
              · have := congrArg Prod.fst e; simp at this; omega
              · exact absurd hm this
            · intro hm; omega
          · subst hj
            have : ¬ (j, x) ∈ r' := fun hm => by have := ((h1 j x).mp hm).1; omega
            rw [List.mem_cons, or_iff_left this, Nat.sub_self]
            constructor
            · intro e
              have := congrArg Prod.snd e
              exact ⟨le_refl _, p, rfl, decide_eq_true hd, this⟩
            · rintro ⟨_, q, hq, _, e⟩
              cases hq
              rw [e]
          · rw [List.mem_cons, or_iff_right (by intro e; have := congrArg Prod.fst e; simp at this; omega)]
            exact key r' h1 j x hj
        · have := ((h1 a.1 a.2).mp ha).1
          show i < a.1
          omega
      · cases h
    · rename_i hd
      obtain ⟨h1, h2⟩ := ih h
      refine ⟨fun j x => ?_, h2⟩
      rcases Nat.lt_trichotomy j i with hj | hj | hj
      · constructor
        · intro hm; have := ((h1 j x).mp hm).1; omega
        · intro hm; omega
      · subst hj
        constructor
        · intro hm; have := ((h1 j x).mp hm).1; omega
        · rintro ⟨_, q, hq, hdis, _⟩
          rw [Nat.sub_self] at hq
          cases hq
          exact absurd (of_decide_eq_true hdis) hd
      · exact key r h1 j x hj

theorem setParameterNames_inv {dim : Nat} {ps : List (Parameter K)} {names : List Str}
    (hne : ∀ p ∈ ps, p.name ≠ []) (h0 : ps ≠ []) (h : setParameterNames dim ps = .ok names) :
    names = ps.map (·.name) ∧ names.Nodup := by
  have e : (ps.map (·.name)).filter (fun n => decide (n ≠ [])) = ps.map (·.name) := by
    rw [List.filter_eq_self]
    intro n hn
    obtain ⟨p, hp, rfl⟩ := List.mem_map.mp hn
    exact decide_eq_true (hne p hp)
  unfold setParameterNames at h
  rw [e] at h
  dsimp only at h
  rw [if_neg (by simpa using h0)] at h
  split at h
  · cases h
  split at h
  · cases h
  split at h
  · cases h
  rename_i hn
  cases h
  exact ⟨rfl, not_not.mp hn⟩

/-! ### Functions -/

theorem modelKind_inv {w : Str} {m : ModelKind} (h : modelKind w = .ok m) :
    (w = [] ∧ m = .ordinaryKriging) ∨ Spec.ModelNamed w m := by
  unfold modelKind at h
  split at h
  · rename_i h0
    cases h
    exact .inl ⟨h0, rfl⟩
  right
  split at h
  · rename_i h1
    cases h
    rw [isEqual_iff (by decide), isEqual_iff (by decide), isEqual_iff (by decide)] at h1
    exact h1
  split at h
  · rename_i h1
    cases h
    exact (isEqual_iff (by decide)).mp h1
  split at h
  · rename_i h1
    cases h
    exact (isEqual_iff (by decide)).mp h1
  split at h
  · rename_i h1
    cases h
    exact (isEqual_iff (by decide)).mp h1
  · cases h

theorem model_read {s w : Str} {m : ModelKind} (hw : getString s "surrogate_model_type".toList = .ok w)
    (h : modelKind w = .ok m) : Spec.ModelSet s m := by
  rcases getString_ok (by decide) hw with ⟨e, hm⟩ | hW
  · rcases modelKind_inv h with ⟨_, h2⟩ | h2
    · exact .inl ⟨hm, h2⟩
    · exfalso
      rw [e] at h
      cases h
      rw [e] at h2
      revert h2
      simp only [Spec.ModelNamed, Spec.SameWord]
      decide
  · rcases modelKind_inv h with ⟨h1, _⟩ | h2
    · obtain ⟨_, _, _, h3⟩ := hW
      exact absurd h1 h3
    · exact .inr ⟨w, hW, h2⟩

theorem objectiveDefinition_inv {s : Str} {ws : List Keyword} {d : FunctionDefinition}
    (hr : readKeywords objectiveKeys s = .ok ws) (h : objectiveDefinition ws = .ok d) :
    Spec.Given s "name".toList d.name ∧
    Spec.Given s "design_vector_filename".toList d.designVectorFilename ∧
    Spec.Given s "executable_filename".toList d.executableName ∧
    Spec.Given s "training_data_filename".toList d.trainingData ∧
    Spec.Given s "output_filename".toList d.outputFilename ∧
    Spec.ModelSet s d.model ∧
    (d.model = .gradientEnhanced →
      Spec.Given s "executable_filename_gradient".toList d.executableNameGradient ∧
      Spec.Given s "output_filename_gradient".toList d.outputGradientFilename ∧
      ¬ Spec.SameWord d.outputGradientFilename d.outputFilename) := by
  unfold objectiveDefinition at h
  obtain ⟨name, h1, h⟩ := bind_ok_inv h
  obtain ⟨dv, h2, h⟩ := bind_ok_inv h
  obtain ⟨exe, h3, h⟩ := bind_ok_inv h
  obtain ⟨data, h4, h⟩ := bind_ok_inv h
  obtain ⟨out, h5, h⟩ := bind_ok_inv h
  obtain ⟨m, h6, h⟩ := bind_ok_inv h
  obtain ⟨kind, h7, h⟩ := bind_ok_inv h
  have g1 := mandatory_read (by decide) hr (by decide) h1
  have g2 := mandatory_read (by decide) hr (by decide) h2
  have g3 := mandatory_read (by decide) hr (by decide) h3
  have g4 := mandatory_read (by decide) hr (by decide) h4
  have g5 := mandatory_read (by decide) hr (by decide) h5
  have g6 : Spec.ModelSet s kind := by
    obtain ⟨v, a, b⟩ := stringValue_read (key := "surrogate_model_type".toList) hr (by decide)
    rw [b] at h6
    cases h6
    exact model_read a h7
  dsimp only at h
  split at h
  · unfold gradientFiles at h
    obtain ⟨e, h8, h⟩ := bind_ok_inv h
    obtain ⟨o, h9, h⟩ := bind_ok_inv h
    have g8 := mandatory_read (by decide) hr (by decide) h8
    have g9 := mandatory_read (by decide) hr (by decide) h9
    split at h
    · cases h
    rename_i heq
    cases h
    refine ⟨g1, g2, g3, g4, g5, g6, fun _ => ⟨g8, g9, fun hs => heq ?_⟩⟩
    obtain ⟨_, _, _, hne⟩ := g5
    exact (isEqual_iff hne).mpr hs
  · rename_i hk
    cases h
    exact ⟨g1, g2, g3, g4, g5, g6, fun hc => absurd hc hk⟩

theorem checkOn_iff {w : Str} : checkIfOn w = true ↔ Spec.On w := by
  unfold checkIfOn Spec.On Spec.SameWord
  rw [decide_eq_true_iff]
  have hl : ∀ y ∈ ["yes", "y", "on", "true", "enable", "enabled"], y.toList.map lower = y.toList := by
    decide
  constructor
  · intro h
    have : w.map lower ∈ (["yes", "y", "on", "true", "enable", "enabled"].map String.toList) := h
    obtain ⟨y, hy, e⟩ := List.mem_map.mp this
    exact ⟨y, hy, by rw [hl y hy, e]⟩
  · rintro ⟨y, hy, e⟩
    show w.map lower ∈ (["yes", "y", "on", "true", "enable", "enabled"].map String.toList)
    rw [e, hl y hy]
    exact List.mem_map_of_mem hy

theorem on_read {s k v : Str} (hk : Key k) (h : getString s k = .ok v) :
    checkIfOn v = true ↔ ∃ w, Spec.Given s k w ∧ Spec.On w := by
  constructor
  · intro hc
    rcases getString_ok hk h with ⟨e, _⟩ | hw
    · rw [e] at hc
      exact absurd hc (by decide)
    · exact ⟨v, hw, checkOn_iff.mp hc⟩
  · rintro ⟨w, hw, hon⟩
    have e : v = w := Except.ok.inj (h.symm.trans (getString_word hk hw))
    rw [e]
    exact checkOn_iff.mpr hon

theorem checkBox_inv {dim : Nat} {b : Bounds K} (h : checkBox dim b = .ok ()) : dim = 0 ∨ dim = b.dim := by
  unfold checkBox at h
  split at h
  · cases h
  rename_i hc
  omega

theorem constraintDefinition_inv {s : Str} {ws : List Keyword} {d d' : FunctionDefinition}
    (hr : readKeywords constraintKeys s = .ok ws) (h : constraintDefinition ws d = .ok d') :
    d'.name = d.name ∧ d'.multiLevel = d.multiLevel ∧
    Spec.Given s "design_vector_filename".toList d'.designVectorFilename ∧
    Spec.Given s "output_filename".toList d'.outputFilename ∧
    Spec.Given s "training_data_filename".toList d'.trainingData ∧
    (Spec.Given s "executable_filename".toList d'.executableName ∨
      (Spec.Missing s "executable_filename".toList ∧ d'.executableName = [])) ∧
    Spec.ModelSet s d'.model := by
  unfold constraintDefinition at h
  obtain ⟨exe, h1, h⟩ := bind_ok_inv h
  obtain ⟨dv, h2, h⟩ := bind_ok_inv h
  obtain ⟨out, h3, h⟩ := bind_ok_inv h
  obtain ⟨data, h4, h⟩ := bind_ok_inv h
  obtain ⟨m, h5, h⟩ := bind_ok_inv h
  obtain ⟨kind, h6, h⟩ := bind_ok_inv h
  cases h
  refine ⟨rfl, rfl, mandatory_read (by decide) hr (by decide) h2,
    mandatory_read (by decide) hr (by decide) h3, mandatory_read (by decide) hr (by decide) h4, ?_, ?_⟩
  · obtain ⟨v, a, b⟩ := stringValue_read (key := "executable_filename".toList) hr (by decide)
    rw [b] at h1
    cases h1
    rcases getString_ok (by decide) a with ⟨e, hm⟩ | hW
    · exact .inr ⟨hm, e⟩
    · exact .inl hW
  · obtain ⟨v, a, b⟩ := stringValue_read (key := "surrogate_model_type".toList) hr (by decide)
    rw [b] at h5
    cases h5
    exact model_read a h6

theorem constraintFunction_inv {s : Str} {ws : List Keyword} {d d' : FunctionDefinition} {udf : Bool}
    (hr : readKeywords constraintKeys s = .ok ws) (h : constraintFunction ws udf d = .ok d') :
    d'.name = d.name ∧ d'.multiLevel = d.multiLevel ∧ (udf = false →
    Spec.Given s "design_vector_filename".toList d'.designVectorFilename ∧
    Spec.Given s "output_filename".toList d'.outputFilename ∧
    Spec.Given s "training_data_filename".toList d'.trainingData ∧
    (Spec.Given s "executable_filename".toList d'.executableName ∨
      (Spec.Missing s "executable_filename".toList ∧ d'.executableName = [])) ∧
    Spec.ModelSet s d'.model) := by
  unfold constraintFunction at h
  split at h
  · rename_i hu
    cases h
    exact ⟨rfl, rfl, fun hf => absurd hu (by simp [hf])⟩
  · obtain ⟨a, b, c⟩ := constraintDefinition_inv hr h
    exact ⟨a, b, fun _ => c⟩

theorem readConstraint_inv {general objective : List Keyword} {b : Bounds K} {id : Nat} {s : Str}
    {x : ConstraintSettings K} {d : Nat} (hdim : intValue general "dimension".toList = .ok d)
    (hd : d < 2 ^ 32) (h : readConstraint general objective b id s = .ok x) (c : Config K)
    (hc : c.dimension = d ∧ c.lb = b.lb ∧ c.ub = b.ub) :
    Spec.ConstraintSet c s id x ∧ trainingIterations objective = .ok x.base.trainingIterations := by
  unfold readConstraint at h
  split at h
  · cases h
  obtain ⟨ws, hr, h⟩ := bind_ok_inv h
  obtain ⟨d', hd', h⟩ := bind_ok_inv h
  rw [hdim] at hd'
  cases hd'
  obtain ⟨n, hn, h⟩ := bind_ok_inv h
  obtain ⟨mf, hmf, h⟩ := bind_ok_inv h
  obtain ⟨name, hname, h⟩ := bind_ok_inv h
  obtain ⟨type, htype, h⟩ := bind_ok_inv h
  obtain ⟨value, hvalue, h⟩ := bind_ok_inv h
  obtain ⟨udf, hudf, h⟩ := bind_ok_inv h
  obtain ⟨def', hdef, h⟩ := bind_ok_inv h
  split at h
  · cases h
  obtain ⟨_, hbox, h⟩ := bind_ok_inv h
  cases h
  obtain ⟨a1, a2, a3⟩ := constraintFunction_inv hr hdef
  have hto : toUnsigned (d : Int) = d := by
    have := toUnsigned_small (n := (d : Int)) (by omega) (by omega)
    omega
  refine ⟨⟨rfl, ⟨mandatory_read (by decide) hr (by decide) hname, a1⟩, ?_, ?_, ?_, ?_, ?_, a3, ?_⟩, hn⟩
  · unfold constraintType at htype
    obtain ⟨t, ht, htype⟩ := bind_ok_inv htype
    refine ⟨t, mandatory_read (by decide) hr (by decide) ht, ?_⟩
    split at htype
    · rename_i h1
      cases htype
      rw [isEqual_iff (by decide), isEqual_iff (by decide)] at h1
      left
      refine ⟨?_, rfl⟩
      rcases h1 with h1 | h1
      · exact h1
      · unfold Spec.SameWord at h1 ⊢
        rw [h1]; decide
    · split at htype
      · rename_i h1
        cases htype
        rw [isEqual_iff (by decide), isEqual_iff (by decide)] at h1
        right
        refine ⟨?_, rfl⟩
        rcases h1 with h1 | h1
        · exact .inl h1
        · right
          unfold Spec.SameWord at h1 ⊢
          rw [h1]; decide
      · cases htype
  · unfold constraintValue at hvalue
    obtain ⟨t, ht, hvalue⟩ := bind_ok_inv hvalue
    obtain ⟨v, hv, e, _⟩ := mandatory_read (by decide) hr (by decide) ht
    exact ⟨v, hv, by rw [← e]; exact hvalue⟩
  · unfold userDefined at hudf
    obtain ⟨t, ht, hudf⟩ := bind_ok_inv hudf
    obtain ⟨v, g1, g2⟩ := stringValue_read (key := "user_defined_function".toList) hr (by decide)
    rw [g2] at ht
    cases ht
    have hon := on_read (by decide) g1
    split at hudf
    · rename_i h1
      split at hudf
      · cases hudf
      · split at hudf
        · cases hudf
        · cases hudf
          exact ⟨fun _ => hon.mp h1, fun _ => rfl⟩
    · rename_i h1
      cases hudf
      exact ⟨fun hc => absurd hc (by simp), fun hc => absurd (hon.mpr hc) h1⟩
  · intro hu
    unfold userDefined at hudf
    obtain ⟨t, -, hudf⟩ := bind_ok_inv hudf
    split at hudf
    · split at hudf
      · cases hudf
      · split at hudf
        · cases hudf
        · omega
    · cases hudf
      cases hu
  · obtain ⟨v, g1, g2⟩ := stringValue_read (key := "multi_fidelity".toList) hr (by decide)
    rw [g2] at hmf
    cases hmf
    show def'.multiLevel = true ↔ _
    rw [a2]
    exact on_read (by decide) g1
  · exact ⟨by rw [hc.1]; exact hto, hc.2.1.symm, hc.2.2.symm⟩

theorem readConstraints_inv {general objective : List Keyword} {b : Bounds K} {d : Nat}
    (hdim : intValue general "dimension".toList = .ok d) (hd : d < 2 ^ 32) (c : Config K)
    (hc : c.dimension = d ∧ c.lb = b.lb ∧ c.ub = b.ub) {ts : List Str} :
    ∀ {id : Nat} {xs : List (ConstraintSettings K)}, readConstraints general objective b id ts = .ok xs →
      ts.length = xs.length ∧ (∀ t ∈ ts, t ≠ []) ∧
      ∀ (i : Nat) (t : Str) (x : ConstraintSettings K), ts[i]? = some t → xs[i]? = some x →
        Spec.ConstraintSet c t (id + i) x ∧ trainingIterations objective = .ok x.base.trainingIterations := by
  induction ts with
  | nil =>
    intro id xs h
    cases h
    exact ⟨rfl, by simp, by simp⟩
  | cons t ts ih =>
    intro id xs h
    unfold readConstraints at h
    obtain ⟨x, hx, h⟩ := bind_ok_inv h
    obtain ⟨xs', hxs, h⟩ := bind_ok_inv h
    cases h
    obtain ⟨h1, h2, h3⟩ := ih hxs
    refine ⟨by simp [h1], ?_, ?_⟩
    · intro t' ht'
      rcases List.mem_cons.mp ht' with rfl | ht'
      · intro h0
        unfold readConstraint at hx
        rw [if_pos h0] at hx
        cases hx
      · exact h2 t' ht'
    · intro i t' x' ht' hx'
      cases i with
      | zero =>
        cases ht'; cases hx'
        exact readConstraint_inv hdim hd hx c hc
      | succ i =>
        rw [List.getElem?_cons_succ] at ht' hx'
        have := h3 i t' x' ht' hx'
        rw [show id + (i + 1) = id + 1 + i by omega]
        exact this

end

end Rodeo.Driver
