import Verif.Spec.OptimumFile
import Verif.Lemmas.Driver
import Verif.Lemmas.EAFile
import Verif.Lemmas.Text

/-! # Lemmas: the file of the optimum -/

set_option linter.unusedSectionVars false

namespace Rodeo.OptimumFile

open Text Driver Parse

variable {K : Type} [Field K] [LinearOrder K] [IsStrictOrderedRing K] [FloorRing K]

/-! ## Tags in a text -/

/-- The names between `<` and `>`. -/
def Name (k : Str) : Prop := '<' ∉ k ∧ '>' ∉ k

instance (k : Str) : Decidable (Name k) := inferInstanceAs (Decidable (_ ∧ _))

theorem endTag_tag (k : Str) : endTag k = tag ('/' :: k) := rfl

theorem Name.tagLike {k : Str} (h : Name k) : TagLike (tag k) := ⟨k ++ ['>'], rfl, by simp [h.1]⟩

theorem prefix_name {k n z : Str} (hk : '>' ∉ k) (hn : '>' ∉ n) (h : k ++ ['>'] <+: n ++ '>' :: z) :
    k = n := by
  induction k generalizing n with
  | nil =>
    cases n with
    | nil => rfl
    | cons x n =>
      exfalso
      simp only [List.nil_append, List.cons_append] at h
      have := (List.cons_prefix_cons.1 h).1
      exact hn (by rw [this]; simp)
  | cons x k ih =>
    cases n with
    | nil =>
      exfalso
      simp only [List.nil_append, List.cons_append] at h
      have := (List.cons_prefix_cons.1 h).1
      exact hk (by rw [this]; simp)
    | cons y n =>
      simp only [List.cons_append] at h
      obtain ⟨e, h⟩ := List.cons_prefix_cons.1 h
      rw [e, ih (fun h => hk (by simp [h])) (fun h => hn (by simp [h])) h]

theorem noTag_nil (k : Str) : ¬ tag k <:+: [] := by
  intro h
  have := h.length_le
  simp [tag] at this

theorem noTag_text {k a s : Str} (ha : '<' ∉ a) (hs : ¬ tag k <:+: s) : ¬ tag k <:+: a ++ s := by
  induction a with
  | nil => exact hs
  | cons x a ih =>
    intro h
    rw [List.cons_append] at h
    rcases List.infix_cons_iff.1 h with h | h
    · unfold tag at h
      have := (List.cons_prefix_cons.1 h).1
      exact ha (by rw [this]; simp)
    · exact ih (fun h => ha (by simp [h])) h

theorem noTag_tag {k n s : Str} (hk : Name k) (hn : Name n) (hne : k ≠ n) (hs : ¬ tag k <:+: s) :
    ¬ tag k <:+: tag n ++ s := by
  intro h
  unfold tag at h
  rw [List.cons_append] at h
  rcases List.infix_cons_iff.1 h with h | h
  · have := (List.cons_prefix_cons.1 h).2
    rw [List.append_assoc] at this
    exact hne (prefix_name hk.2 hn.2 this)
  · exact noTag_text (by simp [hn.1]) hs h

theorem noTag_char {k s : Str} {c : Char} (hc : c ≠ '<') (hs : ¬ tag k <:+: s) : ¬ tag k <:+: c :: s :=
  noTag_text (a := [c]) (by simpa using hc.symm) hs

/-! ## Printed numbers -/

/-- Neither `<` nor `>` nor a blank. -/
def Clean (s : Str) : Prop := ∀ c ∈ s, c ≠ '<' ∧ c ≠ '>' ∧ isSpace c = false

theorem Clean.noOpen {s : Str} (h : Clean s) : '<' ∉ s := fun hm => (h _ hm).1 rfl

theorem Clean.append {s t : Str} (hs : Clean s) (ht : Clean t) : Clean (s ++ t) := by
  intro c hc
  rcases List.mem_append.1 hc with h | h
  · exact hs c h
  · exact ht c h

theorem clean_digits {s : Str} (h : AllDigits s) : Clean s := by
  intro c hc
  have := h c hc
  refine ⟨fun e => ?_, fun e => ?_, ?_⟩
  · subst e; exact absurd this (by decide)
  · subst e; exact absurd this (by decide)
  · simp only [isDigit, Bool.and_eq_true, decide_eq_true_eq] at this
    simp only [isSpace, Bool.or_eq_false_iff, beq_eq_false_iff_ne, Bool.and_eq_false_iff,
      decide_eq_false_iff_not]
    omega

theorem clean_natStr (n : Nat) : Clean (natStr n) := clean_digits (natStr_spec n).1

theorem clean_intStr (n : Int) : Clean (intStr n) := by
  unfold intStr
  split_ifs
  · exact Clean.append (s := ['-']) (by intro c hc; simp at hc; subst hc; decide) (clean_natStr _)
  · exact clean_natStr _

theorem clean_fixedStr (p : Nat) (x : K) : Clean (fixedStr p x) := by
  unfold fixedStr
  refine Clean.append (Clean.append ?_ (clean_natStr _)) ?_
  · unfold signStr
    split_ifs
    · intro c hc; simp at hc; subst hc; decide
    · intro c hc; simp at hc
  · split_ifs
    · intro c hc; simp at hc
    · exact Clean.append (s := ['.']) (by intro c hc; simp at hc; subst hc; decide)
        (clean_digits (padDigits_spec p _).1)

theorem removeSpaces_clean {s : Str} (h : Clean s) : removeSpaces s = s := by
  unfold removeSpaces
  rw [List.filter_eq_self]
  intro c hc
  simp [(h c hc).2.2]

theorem stoi_intStr {n : Int} (h0 : 0 ≤ n) (h1 : n < 2 ^ 31) : stoi (intStr n) = .ok n := by
  unfold intStr
  rw [if_neg (by omega), stoi_natStr (by omega)]
  congr 1
  omega

theorem sixDecimals_fixedStr (x : K) : ∃ y, stod (fixedStr 6 x) = .ok y ∧ Spec.SixDecimals x y := by
  obtain ⟨y, h1, h2⟩ := stod_fixedStr 6 x
  refine ⟨y, h1, h2.trans (by norm_num), fun hd => ?_⟩
  have := stod_fixedStr_exact 6 hd
  rw [h1] at this
  exact Except.ok.inj this

/-! ## Items -/

theorem noTag_items {k s : Str} (hk : Name k) (h1 : k ≠ "item".toList) (h2 : k ≠ "/item".toList)
    (hs : ¬ tag k <:+: s) (data : List K) : ¬ tag k <:+: items data ++ s := by
  induction data with
  | nil => exact hs
  | cons x data ih =>
    have e : items (x :: data) ++ s = '\t' :: (tag "item".toList ++ (fixedStr 6 x ++
        (tag "/item".toList ++ ('\n' :: (items data ++ s))))) := by
      simp [items, endTag_tag]
    rw [e]
    exact noTag_char (by decide) (noTag_tag hk (by decide) h1 (noTag_text (clean_fixedStr 6 x).noOpen
      (noTag_tag hk (by decide) h2 (noTag_char (by decide) ih))))

theorem itemValue_item {v : Str} {y : K} (h : stod v = .ok y) :
    itemValue ("item>".toList ++ v) = some y := by
  unfold itemValue
  have : ("item>".toList ++ v).findIdx? (· = '>') = some 4 := by
    simp [List.findIdx?_cons]
  rw [this]
  show (match (stod v : Res K) with | .ok x => some x | .error _ => none) = _
  rw [h]

/-- The pieces of the items. -/
theorem splitOn_items (q : Str) (hq : '<' ∉ q) (x : K) (data : List K) :
    splitOn '<' (q ++ items (x :: data)) =
      (q ++ ['\t']) :: ("item>".toList ++ fixedStr 6 x) :: splitOn '<' ("/item>\n".toList ++ items data) := by
  have e : q ++ items (x :: data) = (q ++ ['\t']) ++ '<' :: (("item>".toList ++ fixedStr 6 x) ++
      '<' :: ("/item>\n".toList ++ items data)) := by
    simp [items, tag, endTag]
  rw [e, splitOn_cons (by simp [hq]), splitOn_cons]
  have := (clean_fixedStr 6 x).noOpen
  simp [this]

/-- A text without a number behind `>`. -/
def Idle (K : Type) [Field K] [LinearOrder K] [IsStrictOrderedRing K] [FloorRing K] (q : Str) : Prop :=
  '<' ∉ q ∧ q ≠ [] ∧ itemValue q = (none : Option K) ∧ itemValue (q ++ ['\t']) = (none : Option K)

theorem idle_end : Idle K "/item>\n".toList := by
  refine ⟨by decide, by decide, ?_, ?_⟩
  · have : ("/item>\n".toList).findIdx? (· = '>') = some 5 := by decide
    unfold itemValue
    rw [this]
    rfl
  · have : ("/item>\n".toList ++ ['\t']).findIdx? (· = '>') = some 5 := by decide
    unfold itemValue
    rw [this]
    rfl

theorem idle_newline : Idle K ['\n'] := ⟨by decide, by decide, rfl, rfl⟩

theorem last_items {q : Str} (hq : '<' ∉ q ∧ q ≠ []) (data : List K) :
    (splitOn '<' (q ++ items data)).getLast? ≠ some [] := by
  induction data generalizing q with
  | nil =>
    have : q ++ items ([] : List K) = q := by simp [items]
    rw [this, splitOn_none hq.1]
    simpa using hq.2
  | cons x data ih =>
    rw [splitOn_items q hq.1]
    have h := ih (q := "/item>\n".toList) ⟨by decide, by decide⟩
    have hne := splitOn_ne_nil '<' ("/item>\n".toList ++ items data)
    rw [List.getLast?_cons, List.getLast?_cons]
    cases hl : (splitOn '<' ("/item>\n".toList ++ items data)).getLast? with
    | none => exact absurd (List.getLast?_eq_none_iff.1 hl) hne
    | some l =>
      rw [hl] at h
      simpa using h

theorem values_items {q : Str} (hq : Idle K q) (data : List K) :
    ∃ ys, (pieces '<' (q ++ items data)).filterMap itemValue = ys ∧
      List.Forall₂ Spec.SixDecimals data ys := by
  have hp : pieces '<' (q ++ items data) = splitOn '<' (q ++ items data) := by
    unfold pieces
    rw [if_neg (last_items ⟨hq.1, hq.2.1⟩ data)]
  rw [hp]
  clear hp
  induction data generalizing q with
  | nil =>
    have : q ++ items ([] : List K) = q := by simp [items]
    rw [this, splitOn_none hq.1]
    refine ⟨_, rfl, ?_⟩
    simp [hq.2.2.1]
  | cons x data ih =>
    rw [splitOn_items q hq.1]
    obtain ⟨ys, h1, h2⟩ := ih idle_end
    obtain ⟨y, k1, k2⟩ := sixDecimals_fixedStr x
    refine ⟨y :: ys, ?_, .cons k2 h2⟩
    rw [List.filterMap_cons, hq.2.2.2]
    dsimp only
    rw [List.filterMap_cons, itemValue_item k1]
    dsimp only
    rw [h1]

/-! ## Elements with items -/

theorem find_tag_first {k pre rest : Str} (hk : Name k) (h : ¬ tag k <:+: pre) :
    find? (tag k) (pre ++ (tag k ++ rest)) = some pre.length := by
  have e : tag k ++ rest = '<' :: (k ++ ['>'] ++ rest) := rfl
  rw [e, find?_append hk.tagLike h, ← e, find?_self]
  simp

theorem getDoubles_list {k pre post v : Str} (hk : Name k) (h0 : k ≠ [])
    (h1 : ¬ tag k <:+: pre) (h2 : ¬ endTag k <:+: pre ++ (tag k ++ v)) :
    getDoubles (K := K) (pre ++ (tag k ++ (v ++ (endTag k ++ post)))) k =
      .ok ((pieces '<' v).filterMap itemValue) := by
  have hk' : Name ('/' :: k) := ⟨by simp [hk.1], by simp [hk.2]⟩
  unfold getDoubles
  rw [if_neg (by simp [tag]), if_neg h0, findFrom_zero, findFrom_zero, find_tag_first hk h1]
  have e : pre ++ (tag k ++ (v ++ (endTag k ++ post))) = (pre ++ (tag k ++ v)) ++ (endTag k ++ post) := by
    simp
  have h3 : find? (endTag k) (pre ++ (tag k ++ (v ++ (endTag k ++ post)))) =
      some (pre ++ (tag k ++ v)).length := by
    rw [e]
    exact find_tag_first hk' h2
  rw [h3]
  dsimp only
  rw [if_pos (by simp [tag])]
  congr 3
  have e2 : pre ++ (tag k ++ (v ++ (endTag k ++ post))) = (pre ++ tag k) ++ v ++ (endTag k ++ post) := by
    simp
  have e3 : (pre ++ (tag k ++ v)).length - pre.length - (tag k).length = v.length := by
    simp only [List.length_append]
    omega
  have e4 : pre.length + (tag k).length = (pre ++ tag k).length := by simp
  rw [e2, e3, e4]
  exact substr_mid _ _ _

/-- A list missing in the text. -/
theorem getDoubles_missing {s k : Str} (hs : s ≠ []) (h0 : k ≠ []) (h : ¬ tag k <:+: s) :
    getDoubles (K := K) s k = .ok [] := by
  unfold getDoubles
  rw [if_neg hs, if_neg h0, findFrom_zero, findFrom_zero, find?_none.2 h]

theorem generateXmlVector_ok {name : Str} {data : List K} (h : data ≠ []) :
    generateXmlVector name data = .ok (tag name ++ '\n' :: (items data ++ endTag name)) := by
  unfold generateXmlVector
  rw [if_neg h]

/-- The lines of the constraints. -/
def consText (data : List K) : Str :=
  if data = [] then []
  else tag "ConstraintValues".toList ++ '\n' :: (items data ++ (endTag "ConstraintValues".toList ++ ['\n']))

theorem constraintXml_ok (data : List K) : constraintXml data = .ok (consText data) := by
  unfold constraintXml consText
  split_ifs with h
  · rfl
  · rw [generateXmlVector_ok h]
    show Except.ok _ = _
    simp

/-- The whole text. -/
def text (d : Design K) : Str :=
  tag "GlobalOptimalDesign".toList ++ ('\n' ::
    (tag "DesignID".toList ++ (intStr d.id ++ (tag "/DesignID".toList ++ ('\n' ::
    (tag "ObjectiveFunction".toList ++ (fixedStr 6 d.trueValue ++ (tag "/ObjectiveFunction".toList ++ ('\n' ::
    (tag "DesignParameters".toList ++ ('\n' :: (items d.params ++ (tag "/DesignParameters".toList ++ ('\n' ::
    (consText d.constraintTrueValues ++
    (tag "Feasibility".toList ++ ((if d.feasible then "YES".toList else "NO".toList) ++
    (tag "/Feasibility".toList ++ ('\n' ::
    (tag "/GlobalOptimalDesign".toList ++ ['\n']))))))))))))))))))))

theorem generateXmlString_ok {g : GlobalDesign K} (h : g.design.params ≠ []) :
    generateXmlString g = .ok (text g.design) := by
  unfold generateXmlString
  rw [generateXmlVector_ok h, constraintXml_ok]
  show Except.ok _ = _
  unfold text generateXml
  simp [endTag_tag]

theorem noTag_cons {k s : Str} (hk : Name k) (h1 : k ≠ "item".toList) (h2 : k ≠ "/item".toList)
    (h3 : k ≠ "ConstraintValues".toList) (h4 : k ≠ "/ConstraintValues".toList)
    (hs : ¬ tag k <:+: s) (data : List K) : ¬ tag k <:+: consText data ++ s := by
  unfold consText
  split_ifs
  · exact hs
  · have e : tag "ConstraintValues".toList ++ '\n' :: (items data ++ (endTag "ConstraintValues".toList ++ ['\n'])) ++ s =
        tag "ConstraintValues".toList ++ ('\n' :: (items data ++ (tag "/ConstraintValues".toList ++ ('\n' :: s)))) := by
      simp [endTag_tag]
    rw [e]
    exact noTag_tag hk (by decide) h3 (noTag_char (by decide) (noTag_items hk h1 h2
      (noTag_tag hk (by decide) h4 (noTag_char (by decide) hs)) data))

theorem feasible_clean (b : Bool) : '<' ∉ (if b then "YES".toList else "NO".toList) := by
  cases b <;> decide

/-- Behind the constraints. -/
def tailText (b : Bool) : Str :=
  tag "Feasibility".toList ++ ((if b then "YES".toList else "NO".toList) ++
    (tag "/Feasibility".toList ++ ('\n' :: (tag "/GlobalOptimalDesign".toList ++ ['\n']))))

theorem noTag_tail {k : Str} (hk : Name k) (h1 : k ≠ "Feasibility".toList) (h2 : k ≠ "/Feasibility".toList)
    (h3 : k ≠ "/GlobalOptimalDesign".toList) (b : Bool) : ¬ tag k <:+: tailText b :=
  noTag_tag hk (by decide) h1 (noTag_text (feasible_clean b) (noTag_tag hk (by decide) h2
    (noTag_char (by decide) (noTag_tag hk (by decide) h3 (noTag_char (by decide) (noTag_nil k))))))

/-- Before the parameters. -/
def headText (d : Design K) : Str :=
  tag "GlobalOptimalDesign".toList ++ ('\n' ::
    (tag "DesignID".toList ++ (intStr d.id ++ (tag "/DesignID".toList ++ ('\n' ::
    (tag "ObjectiveFunction".toList ++ (fixedStr 6 d.trueValue ++ (tag "/ObjectiveFunction".toList ++ ['\n']))))))))

theorem noTag_head {k s : Str} (hk : Name k) (h1 : k ≠ "GlobalOptimalDesign".toList)
    (h2 : k ≠ "DesignID".toList) (h3 : k ≠ "/DesignID".toList) (h4 : k ≠ "ObjectiveFunction".toList)
    (h5 : k ≠ "/ObjectiveFunction".toList) (hs : ¬ tag k <:+: s) (d : Design K) :
    ¬ tag k <:+: headText d ++ s := by
  have e : headText d ++ s = tag "GlobalOptimalDesign".toList ++ ('\n' ::
    (tag "DesignID".toList ++ (intStr d.id ++ (tag "/DesignID".toList ++ ('\n' ::
    (tag "ObjectiveFunction".toList ++ (fixedStr 6 d.trueValue ++ (tag "/ObjectiveFunction".toList ++
    ('\n' :: s))))))))) := by
    simp [headText]
  rw [e]
  exact noTag_tag hk (by decide) h1 (noTag_char (by decide) (noTag_tag hk (by decide) h2
    (noTag_text (clean_intStr _).noOpen (noTag_tag hk (by decide) h3 (noTag_char (by decide)
    (noTag_tag hk (by decide) h4 (noTag_text (clean_fixedStr _ _).noOpen (noTag_tag hk (by decide) h5
    (noTag_char (by decide) hs)))))))))

theorem text_eq (d : Design K) : text d = headText d ++ (tag "DesignParameters".toList ++ ('\n' ::
    (items d.params ++ (tag "/DesignParameters".toList ++ ('\n' ::
    (consText d.constraintTrueValues ++ tailText d.feasible)))))) := by
  unfold text headText tailText
  simp

theorem tells_text {d : Design K} (h0 : 0 ≤ d.id) (h1 : d.id < 2 ^ 31) : Spec.Tells (text d) d where
  id := by
    refine getInteger_integer (by decide) ⟨intStr d.id, ⟨tag "GlobalOptimalDesign".toList ++ ['\n'],
      '\n' :: (tag "ObjectiveFunction".toList ++ (fixedStr 6 d.trueValue ++ (tag "/ObjectiveFunction".toList ++
        ('\n' :: (tag "DesignParameters".toList ++ ('\n' :: (items d.params ++
        (tag "/DesignParameters".toList ++ ('\n' ::
        (consText d.constraintTrueValues ++ tailText d.feasible)))))))))), ?_, ?_, ?_, ?_⟩,
      stoi_intStr h0 h1⟩
    · rw [← tag_eq, ← endTag_eq, endTag_tag, text_eq]
      simp [headText]
    · rw [← tag_eq]
      exact noTag_tag (by decide) (by decide) (by decide) (noTag_char (by decide) (noTag_nil _))
    · rw [← endTag_eq, endTag_tag]
      have := noTag_text (k := '/' :: "DesignID".toList) (clean_intStr d.id).noOpen (noTag_nil _)
      simpa using this
    · rw [← tag_eq]
      have hk : Name "DesignID".toList := by decide
      exact noTag_char (by decide) (noTag_tag hk (by decide) (by decide)
        (noTag_text (clean_fixedStr _ _).noOpen (noTag_tag hk (by decide) (by decide) (noTag_char (by decide)
        (noTag_tag hk (by decide) (by decide) (noTag_char (by decide) (noTag_items hk (by decide) (by decide)
        (noTag_tag hk (by decide) (by decide) (noTag_char (by decide)
        (noTag_cons hk (by decide) (by decide) (by decide) (by decide)
        (noTag_tail hk (by decide) (by decide) (by decide) _) _))) _)))))))
  value := by
    obtain ⟨y, k1, k2⟩ := sixDecimals_fixedStr d.trueValue
    refine ⟨y, (getDouble_ok (by decide)).2 (.inl ⟨fixedStr 6 d.trueValue, ⟨tag "GlobalOptimalDesign".toList ++
      ('\n' :: (tag "DesignID".toList ++ (intStr d.id ++ (tag "/DesignID".toList ++ ['\n'])))),
      '\n' :: (tag "DesignParameters".toList ++ ('\n' :: (items d.params ++
        (tag "/DesignParameters".toList ++ ('\n' ::
        (consText d.constraintTrueValues ++ tailText d.feasible)))))), ?_, ?_, ?_, ?_⟩, ?_⟩), k2⟩
    · rw [← tag_eq, ← endTag_eq, endTag_tag, text_eq]
      simp [headText]
    · rw [← tag_eq]
      have hk : Name "ObjectiveFunction".toList := by decide
      exact noTag_tag hk (by decide) (by decide) (noTag_char (by decide) (noTag_tag hk (by decide) (by decide)
        (noTag_text (clean_intStr _).noOpen (noTag_tag hk (by decide) (by decide) (noTag_char (by decide) (noTag_nil _))))))
    · rw [← endTag_eq, endTag_tag]
      have := noTag_text (k := '/' :: "ObjectiveFunction".toList) (clean_fixedStr 6 d.trueValue).noOpen (noTag_nil _)
      simpa using this
    · rw [← tag_eq]
      have hk : Name "ObjectiveFunction".toList := by decide
      exact noTag_char (by decide)
        (noTag_tag hk (by decide) (by decide) (noTag_char (by decide) (noTag_items hk (by decide) (by decide)
        (noTag_tag hk (by decide) (by decide) (noTag_char (by decide)
        (noTag_cons hk (by decide) (by decide) (by decide) (by decide)
        (noTag_tail hk (by decide) (by decide) (by decide) _) _))) _)))
    · rw [stripped_eq, removeSpaces_clean (clean_fixedStr 6 d.trueValue)]
      exact k1
  params := by
    obtain ⟨ys, k1, k2⟩ := values_items idle_newline d.params
    refine ⟨ys, ?_, k2⟩
    have hk : Name "DesignParameters".toList := by decide
    have hk' : Name "/DesignParameters".toList := by decide
    have := getDoubles_list (K := K) (k := "DesignParameters".toList) (pre := headText d)
      (v := ['\n'] ++ items d.params) (post := '\n' ::
        (consText d.constraintTrueValues ++ tailText d.feasible)) hk (by decide)
      (by
        have := noTag_head hk (by decide) (by decide) (by decide) (by decide) (by decide) (noTag_nil _) d
        simpa using this)
      (by
        rw [endTag_tag]
        refine noTag_head hk' (by decide) (by decide) (by decide) (by decide) (by decide) ?_ d
        refine noTag_tag hk' (by decide) (by decide) (noTag_char (by decide) ?_)
        have := noTag_items hk' (by decide) (by decide) (noTag_nil _) d.params
        simpa using this)
    rw [k1] at this
    rw [text_eq, ← this]
    simp [endTag_tag]
  constraints := by
    obtain ⟨ys, k1, k2⟩ := values_items idle_newline d.constraintTrueValues
    have hk : Name "ConstraintValues".toList := by decide
    have hk' : Name "/ConstraintValues".toList := by decide
    by_cases hc : d.constraintTrueValues = []
    · refine ⟨[], getDoubles_missing (by simp [text, tag]) (by decide) ?_, by rw [hc]; exact .nil⟩
      rw [text_eq]
      have e : consText d.constraintTrueValues = [] := by rw [consText, if_pos hc]
      rw [e]
      exact noTag_head hk (by decide) (by decide) (by decide) (by decide) (by decide)
        (noTag_tag hk (by decide) (by decide) (noTag_char (by decide) (noTag_items hk (by decide) (by decide)
        (noTag_tag hk (by decide) (by decide) (noTag_char (by decide)
        (noTag_tail hk (by decide) (by decide) (by decide) _))) _))) d
    · refine ⟨ys, ?_, k2⟩
      have hpre : ∀ {k : Str} {s : Str}, Name k → k ≠ "GlobalOptimalDesign".toList →
          k ≠ "DesignID".toList → k ≠ "/DesignID".toList → k ≠ "ObjectiveFunction".toList →
          k ≠ "/ObjectiveFunction".toList → k ≠ "DesignParameters".toList → k ≠ "/DesignParameters".toList →
          k ≠ "item".toList → k ≠ "/item".toList → ¬ tag k <:+: s →
          ¬ tag k <:+: headText d ++ (tag "DesignParameters".toList ++ ('\n' ::
            (items d.params ++ (tag "/DesignParameters".toList ++ ('\n' :: s))))) := by
        intro k s hk a1 a2 a3 a4 a5 a6 a7 a8 a9 hs
        exact noTag_head hk a1 a2 a3 a4 a5 (noTag_tag hk (by decide) a6 (noTag_char (by decide)
          (noTag_items hk a8 a9 (noTag_tag hk (by decide) a7 (noTag_char (by decide) hs)) _))) d
      have hfirst := hpre hk (by decide) (by decide) (by decide) (by decide) (by decide) (by decide) (by decide)
        (by decide) (by decide) (noTag_nil _)
      have := getDoubles_list (K := K) (k := "ConstraintValues".toList)
        (pre := headText d ++ (tag "DesignParameters".toList ++ ('\n' ::
            (items d.params ++ (tag "/DesignParameters".toList ++ ['\n'])))))
        (v := ['\n'] ++ items d.constraintTrueValues) (post := '\n' :: tailText d.feasible) hk (by decide)
        hfirst
        (by
          rw [endTag_tag]
          have h := noTag_items hk' (by decide) (by decide) (noTag_nil _) d.constraintTrueValues
          have := hpre hk' (by decide) (by decide) (by decide) (by decide) (by decide) (by decide) (by decide)
            (by decide) (by decide) (noTag_tag hk' (n := "ConstraintValues".toList) (by decide) (by decide)
              (noTag_char (c := '\n') (by decide) h))
          simpa using this)
      rw [k1] at this
      rw [text_eq, ← this, consText, if_neg hc]
      simp [endTag_tag]
  feasible := by
    have hk : Name "Feasibility".toList := by decide
    refine getString_word (by decide) ⟨if d.feasible then "YES".toList else "NO".toList,
      ⟨headText d ++ (tag "DesignParameters".toList ++ ('\n' ::
            (items d.params ++ (tag "/DesignParameters".toList ++ ('\n' :: consText d.constraintTrueValues))))),
        '\n' :: (tag "/GlobalOptimalDesign".toList ++ ['\n']), ?_, ?_, ?_, ?_⟩, ?_, ?_⟩
    · rw [← tag_eq, ← endTag_eq, endTag_tag, text_eq]
      simp [tailText]
    · rw [← tag_eq]
      have h := noTag_cons hk (by decide) (by decide) (by decide) (by decide) (noTag_nil _) d.constraintTrueValues
      rw [List.append_nil] at h
      exact noTag_head hk (by decide) (by decide) (by decide) (by decide) (by decide)
        (noTag_tag hk (by decide) (by decide) (noTag_char (by decide) (noTag_items hk (by decide) (by decide)
        (noTag_tag hk (by decide) (by decide) (noTag_char (by decide) h)) _))) d
    · rw [← endTag_eq, endTag_tag]
      cases d.feasible <;> decide
    · rw [← tag_eq]
      decide
    · cases d.feasible <;> decide
    · cases d.feasible <;> decide

end Rodeo.OptimumFile
