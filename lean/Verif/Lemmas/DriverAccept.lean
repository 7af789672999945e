import Verif.Lemmas.Driver

/-! # The driver accepts correct files: lemmas -/

set_option linter.unusedSectionVars false

namespace Rodeo.Driver

open Text API Parse

/-- The call returns. -/
def Ok {α : Type} (x : Res α) : Prop := ∃ a, x = .ok a

theorem Ok.bind {α β : Type} {x : Res α} {f : α → Res β} (hx : Ok x)
    (hf : ∀ a, x = .ok a → Ok (f a)) : Ok (x >>= f) := by
  obtain ⟨a, ha⟩ := hx
  obtain ⟨b, hb⟩ := hf a ha
  exact ⟨b, by rw [ha]; exact hb⟩

theorem Ok.intro {α : Type} {a : α} : Ok (.ok a : Res α) := ⟨a, rfl⟩

theorem Ok.of_eq {α : Type} {x : Res α} {a : α} (h : x = .ok a) : Ok x := ⟨a, h⟩

theorem bind_rw {α β : Type} {x : Res α} {a : α} (h : x = .ok a) (f : α → Res β) : (x >>= f) = f a := by
  rw [h]; rfl

theorem mapRes_exists {α β : Type} {f : α → Res β} {l : List α} (h : ∀ a ∈ l, Ok (f a)) :
    Ok (mapRes f l) := by
  induction l with
  | nil => exact ⟨[], rfl⟩
  | cons a l ih =>
    obtain ⟨b, hb⟩ := h a (by simp)
    obtain ⟨bs, hbs⟩ := ih (fun a' h' => h a' (by simp [h']))
    exact ⟨b :: bs, by simp only [mapRes, hb, hbs]⟩

theorem getString_readable {s k : Str} (hk : Key k) (h : Spec.Readable s k) : Ok (getString s k) := by
  unfold getString
  rcases h with h | ⟨v, h⟩
  · rw [element_none.mpr h]; exact .intro
  · rw [(element_some hk).mpr h]; exact .intro

theorem getInteger_readable {s k : Str} (hk : Key k) (h : Spec.ReadableInt s k) : Ok (getInteger s k) := by
  rcases h with h | ⟨n, h⟩
  · exact ⟨_, getInteger_none h⟩
  · exact ⟨n, getInteger_integer hk h⟩

theorem word_readable {s k w : Str} (h : Spec.Given s k w) : Spec.Readable s k := by
  obtain ⟨v, h, _⟩ := h
  exact .inr ⟨v, h⟩

theorem missing_readable {s k : Str} (h : Spec.Missing s k) : Spec.Readable s k := by
  rcases h with h | ⟨v, h, _⟩
  · exact .inl h
  · exact .inr ⟨v, h⟩

theorem model_readable {s : Str} (h : Spec.ModelOk s) : Spec.Readable s "surrogate_model_type".toList := by
  obtain ⟨m, ⟨h, _⟩ | ⟨w, h, _⟩⟩ := h
  · exact missing_readable h
  · exact word_readable h

theorem read_string {s k : Str} (hk : Key k) (h : Spec.Readable s k) : Ok ((Keyword.new k .string).read s) := by
  unfold Keyword.read Keyword.new
  exact (getString_readable hk h).bind fun v _ => .intro

theorem read_int {s k : Str} (hk : Key k) (h : Spec.ReadableInt s k) : Ok ((Keyword.new k .int).read s) := by
  unfold Keyword.read Keyword.new
  exact (getInteger_readable hk h).bind fun v _ => .intro

theorem read_vector {s k : Str} (h : s ≠ []) : Ok ((Keyword.new k .doubleVector).read s) := by
  unfold Keyword.read Keyword.new
  dsimp only
  rw [if_neg h]
  exact .intro

theorem stringValue_word {ws ws' : List Keyword} {input key w : Str} (hk : Key key)
    (h : readKeywords ws input = .ok ws')
    (hw : ws.find? (fun w => decide (w.name = key)) = some (.new key .string))
    (hW : Spec.Given input key w) : stringValue ws' key = .ok w := by
  obtain ⟨v, h1, h2⟩ := stringValue_read h hw
  rw [h2]
  exact h1.symm.trans (getString_word hk hW)

theorem mandatory_word {ws ws' : List Keyword} {input key w : Str} (hk : Key key)
    (h : readKeywords ws input = .ok ws')
    (hw : ws.find? (fun w => decide (w.name = key)) = some (.new key .string))
    (hW : Spec.Given input key w) : mandatory ws' key = .ok w := by
  unfold mandatory
  rw [stringValue_word hk h hw hW]
  obtain ⟨_, _, _, hne⟩ := hW
  show (if w = [] then (.error .invalidArgument : Res Str) else .ok w) = _
  rw [if_neg hne]

theorem stringValue_some {ws ws' : List Keyword} {input key : Str}
    (h : readKeywords ws input = .ok ws')
    (hw : ws.find? (fun w => decide (w.name = key)) = some (.new key .string)) : Ok (stringValue ws' key) := by
  obtain ⟨v, _, h2⟩ := stringValue_read h hw
  exact ⟨v, h2⟩

theorem intValue_integer {ws ws' : List Keyword} {input key : Str} {n : Int} (hk : Key key)
    (h : readKeywords ws input = .ok ws')
    (hw : ws.find? (fun w => decide (w.name = key)) = some (.new key .int))
    (hi : Spec.Integer input key n) : intValue ws' key = .ok n := by
  obtain ⟨v, h1, h2⟩ := intValue_read h hw
  rw [h2]
  exact h1.symm.trans (getInteger_integer hk hi)

theorem intValue_some {ws ws' : List Keyword} {input key : Str}
    (h : readKeywords ws input = .ok ws')
    (hw : ws.find? (fun w => decide (w.name = key)) = some (.new key .int)) : Ok (intValue ws' key) := by
  obtain ⟨v, _, h2⟩ := intValue_read h hw
  exact ⟨v, h2⟩

/-! ## General settings -/

theorem general_read {s : Str} {d : Nat} (h : Spec.GeneralOk s d) : Ok (readKeywords generalKeys s) := by
  apply mapRes_exists
  obtain ⟨t, ht, _⟩ := h.type
  obtain ⟨n, hn, _⟩ := h.evaluations
  have hs : s ≠ [] := by
    rintro rfl
    have := integer_open hn
    simp [Spec.openTag] at this
  have hth : Spec.ReadableInt s "number_of_threads".toList := by
    rcases h.threads with h | ⟨n, h, _⟩
    · exact .inl h
    · exact .inr ⟨n, h⟩
  intro w hw
  simp only [generalKeys, List.mem_cons, List.not_mem_nil, or_false] at hw
  rcases hw with rfl | rfl | rfl | rfl | rfl | rfl | rfl | rfl | rfl
  · exact read_string (by decide) h.name
  · exact read_string (by decide) (word_readable ht)
  · exact read_string (by decide) h.display
  · exact read_int (by decide) (.inr ⟨d, h.dimension.1⟩)
  · exact read_vector hs
  · exact read_vector hs
  · exact read_int (by decide) (.inr ⟨n, hn⟩)
  · exact read_int (by decide) h.inner
  · exact read_int (by decide) hth

theorem general_ok {s : Str} {d : Nat} {ws : List Keyword} (h : Spec.GeneralOk s d)
    (hr : readKeywords generalKeys s = .ok ws) :
    ∃ g : General, generalSettings ws = .ok (some g) ∧ g.dimension = d := by
  obtain ⟨t, ht, hto⟩ := h.type
  obtain ⟨n, hn, hn0⟩ := h.evaluations
  obtain ⟨hd, hd0⟩ := h.dimension
  have hds := integer_small hd
  have hns := integer_small hn
  have e1 : toUnsigned (d : Int) = d := by
    have := toUnsigned_small (n := (d : Int)) (by omega) (by omega); omega
  have h1 := mandatory_word (by decide) hr (by decide) ht
  have h2 : setDimension ws = .ok d := by
    unfold setDimension
    rw [intValue_integer (by decide) hr (by decide) hd]
    show (if (d : Int) ≤ 0 then (.error .invalidArgument : Res Nat) else .ok (toUnsigned d)) = _
    rw [if_neg (by omega), e1]
  have h3 : Ok (setName ws) := by
    unfold setName
    exact (stringValue_some hr (by decide)).bind fun v _ => .intro
  have h4 : Ok (setEvaluations ws) := by
    unfold setEvaluations
    refine ⟨toUnsigned n, ?_⟩
    rw [intValue_integer (by decide) hr (by decide) hn]
    show (if (n : Int) ≤ 0 then (.error .invalidArgument : Res Nat) else .ok (toUnsigned n)) = _
    rw [if_neg (by omega)]
  have h5 : Ok (setInner ws d) := by
    unfold setInner
    exact (intValue_some hr (by decide)).bind fun v _ => .intro
  have h6 : Ok (setThreads ws) := by
    unfold setThreads
    rcases h.threads with hno | ⟨m, hm, hm0⟩
    · obtain ⟨v, i1, i2⟩ := intValue_read (key := "number_of_threads".toList) hr (by decide)
      have e : v = noInt := Except.ok.inj (i1.symm.trans (getInteger_none hno))
      rw [i2, e]
      exact ⟨1, rfl⟩
    · rw [intValue_integer (by decide) hr (by decide) hm]
      have hms := integer_small hm
      have := toUnsigned_small (n := (m : Int)) (by omega) (by omega)
      refine ⟨toUnsigned m, ?_⟩
      show (if (m : Int) ≠ noInt then
        (if toUnsigned m = 0 then (.error .invalidArgument : Res Nat) else .ok (toUnsigned m)) else .ok 1) = _
      rw [if_pos (by unfold noInt; omega), if_neg (by omega)]
  obtain ⟨name, h3⟩ := h3
  obtain ⟨N, h4⟩ := h4
  obtain ⟨inner, h5⟩ := h5
  obtain ⟨th, h6⟩ := h6
  refine ⟨⟨d, name, N, inner, th⟩, ?_, rfl⟩
  unfold generalSettings
  rw [bind_rw h1, if_pos ((isEqual_iff (by decide)).mpr hto), bind_rw h2, bind_rw h3, bind_rw h4, bind_rw h5,
    bind_rw h6]

section
variable {K : Type} [Field K] [LinearOrder K] [IsStrictOrderedRing K] [FloorRing K]

/-! ## Parameters -/

theorem readParameter_ok {s name : Str} (h : Spec.ParamOk K s name) :
    ∃ q : Parameter K, readParameter s = .ok q ∧ q.name = name ∧ q.lb < q.ub := by
  obtain ⟨p, hp, rfl, x, hx⟩ := h
  obtain ⟨t, ht, htype⟩ := hp.type
  have h1 := getString_word (by decide) hp.name
  have h2 := getString_word (by decide) ht
  have h3 := (getDouble_ok (K := K) (by decide)).mpr hp.lb
  have h4 := (getDouble_ok (K := K) (by decide)).mpr hp.ub
  have hne : p.name ≠ [] := by obtain ⟨_, _, _, h⟩ := hp.name; exact h
  have htne : t ≠ [] := by obtain ⟨_, _, _, h⟩ := ht; exact h
  cases hd : p.discrete with
  | true =>
    rw [hd, if_pos rfl, ← sameWord_lower (by decide), ← sameWord_lower (by decide)] at htype
    obtain ⟨i1, i2, i3⟩ := hp.increment hd
    have h5 := (getDouble_ok (K := K) (by decide)).mpr i1
    refine ⟨⟨p.name, t.map lower, p.lb, p.ub, p.increment⟩, ?_, rfl, hp.lt⟩
    unfold readParameter
    rw [bind_rw h1, bind_rw h2, if_neg hne, if_neg htne]
    dsimp only
    rw [if_neg (by rintro ⟨_, a, _, b⟩; exact htype.elim a b), bind_rw h3, bind_rw h4,
      if_neg (not_lt.mpr hp.lt.le), bind_rw h5, if_pos htype,
      if_neg (by rw [not_or, not_le, not_lt]; exact ⟨i2, i3⟩)]
  | false =>
    rw [hd, if_neg (by simp), ← sameWord_lower (by decide), ← sameWord_lower (by decide)] at htype
    have h5 := (getDouble_ok (K := K) (by decide)).mpr hx
    refine ⟨⟨p.name, t.map lower, p.lb, p.ub, 0⟩, ?_, rfl, hp.lt⟩
    unfold readParameter
    rw [bind_rw h1, bind_rw h2, if_neg hne, if_neg htne]
    dsimp only
    rw [if_neg (by rintro ⟨a, _, b, _⟩; exact htype.elim a b), bind_rw h3, bind_rw h4,
      if_neg (not_lt.mpr hp.lt.le), bind_rw h5, if_neg]
    rcases htype with e | e <;> rw [e] <;> decide

theorem readParameters_ok {texts names : List Str} (h : List.Forall₂ (Spec.ParamOk K) texts names) :
    ∃ ps : List (Parameter K), mapRes readParameter texts = .ok ps ∧ ps.map (·.name) = names ∧
      (∀ p ∈ ps, p.lb < p.ub) ∧ ps.length = texts.length := by
  induction h with
  | nil => exact ⟨[], rfl, rfl, by simp, rfl⟩
  | cons hab _ ih =>
    obtain ⟨q, h1, h2, h3⟩ := readParameter_ok hab
    obtain ⟨ps, g1, g2, g3, g4⟩ := ih
    refine ⟨q :: ps, by simp only [mapRes, h1, g1], by simp [h2, g2], ?_, by simp [g4]⟩
    intro p hp
    rcases List.mem_cons.mp hp with rfl | hp
    · exact h3
    · exact g3 p hp

theorem boxOf_ok {ws : List Keyword} {ps : List (Parameter K)}
    (hd : intValue ws "dimension".toList = .ok (ps.length : Int)) (h0 : 0 < ps.length)
    (h : ∀ p ∈ ps, p.lb < p.ub) :
    boxOf ws ps = .ok ⟨ps.map (·.lb), ps.map (·.ub), ps.length, true⟩ := by
  have hv : Spec.ValidBox (ps.map (·.lb)).length (ps.map (·.lb)) (ps.map (·.ub)) := by
    refine ⟨by simpa using h0, rfl, by simp, ?_⟩
    intro i l u hl hu
    rw [List.getElem?_map] at hl hu
    obtain ⟨p, hp, rfl⟩ := Option.map_eq_some_iff.mp hl
    rw [hp] at hu
    cases hu
    exact h p (List.mem_of_getElem? hp)
  unfold boxOf
  rw [bind_rw hd, if_neg (by simp)]
  unfold Bounds.setStd
  rw [if_neg (by simp), List.take_of_length_le (by simp)]
  rw [Bounds.finish_valid (b := ⟨ps.map (·.lb), ps.map (·.ub), (ps.map (·.lb)).length,
    (Bounds.mk0 : Bounds K).isSet⟩) rfl (by simp) hv]
  simp

theorem discreteLoop_ok {dim : Nat} {ps : List (Parameter K)} : ∀ {i : Nat}, i + ps.length ≤ dim →
    Ok (discreteLoop dim i ps) := by
  induction ps with
  | nil => intro i _; exact .intro
  | cons p ps ih =>
    intro i hi
    simp only [List.length_cons] at hi
    unfold discreteLoop
    split
    · rw [if_pos (by omega)]
      exact (ih (by omega)).bind fun r _ => .intro
    · exact ih (by omega)

/-! ## Functions -/

theorem modelKind_named {w : Str} {m : ModelKind} (h : Spec.ModelNamed w m) : Ok (modelKind w) := by
  unfold modelKind
  split
  · exact .intro
  split
  · exact .intro
  rename_i h1
  split
  · exact .intro
  rename_i h2
  split
  · exact .intro
  rename_i h3
  split
  · exact .intro
  rename_i h4
  exfalso
  rw [isEqual_iff (by decide), isEqual_iff (by decide), isEqual_iff (by decide)] at h1
  rw [isEqual_iff (by decide)] at h2 h3 h4
  cases m
  · exact h1 h
  · exact h2 h
  · exact h3 h
  · exact h4 h

theorem model_ok {s w : Str} (h : Spec.ModelOk s) (hw : getString s "surrogate_model_type".toList = .ok w) :
    Ok (modelKind w) := by
  obtain ⟨m, ⟨h, _⟩ | ⟨w', h, hm⟩⟩ := h
  · have e : w = [] := Except.ok.inj (hw.symm.trans (getString_missing (by decide) h))
    rw [e]
    exact .intro
  · have e : w = w' := Except.ok.inj (hw.symm.trans (getString_word (by decide) h))
    rw [e]
    exact modelKind_named hm

theorem objective_read {s : Str} (h : Spec.ObjectiveOk s) : Ok (readKeywords objectiveKeys s) := by
  apply mapRes_exists
  have hw : ∀ k ∈ ["name", "design_vector_filename", "executable_filename", "training_data_filename",
      "output_filename"], Spec.Readable s k.toList := by
    intro k hk
    obtain ⟨w, hw⟩ := h.words k hk
    exact word_readable hw
  intro w hw'
  simp only [objectiveKeys, List.mem_cons, List.not_mem_nil, or_false] at hw'
  rcases hw' with rfl | rfl | rfl | rfl | rfl | rfl | rfl | rfl | rfl | rfl | rfl | rfl
  · exact read_string (by decide) (h.readable _ (by simp))
  · exact read_string (by decide) (hw _ (by simp))
  · exact read_string (by decide) (hw _ (by simp))
  · exact read_string (by decide) (h.readable _ (by simp))
  · exact read_string (by decide) (hw _ (by simp))
  · exact read_string (by decide) (h.readable _ (by simp))
  · exact read_string (by decide) (hw _ (by simp))
  · exact read_string (by decide) (h.readable _ (by simp))
  · exact read_string (by decide) (h.readable _ (by simp))
  · exact read_string (by decide) (model_readable h.model)
  · exact read_string (by decide) (hw _ (by simp))
  · exact read_int (by decide) h.iterations

theorem objectiveDefinition_ok {s : Str} {ws : List Keyword} (h : Spec.ObjectiveOk s)
    (hr : readKeywords objectiveKeys s = .ok ws) : Ok (objectiveDefinition ws) := by
  have hm : ∀ (k : String), k ∈ ["name", "design_vector_filename", "executable_filename",
      "training_data_filename", "output_filename"] → Key k.toList →
      objectiveKeys.find? (fun w => decide (w.name = k.toList)) = some (.new k.toList .string) →
      Ok (mandatory ws k.toList) := by
    intro k hk hk' hf
    obtain ⟨w, hw⟩ := h.words k hk
    exact ⟨w, mandatory_word hk' hr hf hw⟩
  unfold objectiveDefinition
  refine (hm "name" (by simp) (by decide) (by decide)).bind fun name _ => ?_
  refine (hm "design_vector_filename" (by simp) (by decide) (by decide)).bind fun dv _ => ?_
  refine (hm "executable_filename" (by simp) (by decide) (by decide)).bind fun exe _ => ?_
  refine (hm "training_data_filename" (by simp) (by decide) (by decide)).bind fun data _ => ?_
  refine (hm "output_filename" (by simp) (by decide) (by decide)).bind fun out hout => ?_
  obtain ⟨m, g1, g2⟩ := stringValue_read (key := "surrogate_model_type".toList) hr (by decide)
  refine (Ok.of_eq g2).bind fun m' hm' => ?_
  rw [g2] at hm'
  cases hm'
  refine (model_ok h.model g1).bind fun kind hkind => ?_
  dsimp only
  split
  · rename_i hk
    obtain ⟨⟨e, he⟩, o, o', ho, ho', hne⟩ := h.gradient (hk ▸ model_read g1 hkind)
    unfold gradientFiles
    refine (Ok.of_eq (mandatory_word (by decide) hr (by decide) he)).bind fun e' _ => ?_
    have h1 := mandatory_word (by decide) hr (by decide) ho
    have h2 := mandatory_word (by decide) hr (by decide) ho'
    have e2 : out = o' := Except.ok.inj (hout.symm.trans h2)
    subst e2
    rw [bind_rw h1, if_neg]
    · exact .intro
    · intro hc
      obtain ⟨_, _, _, hne'⟩ := ho'
      exact hne ((isEqual_iff hne').mp hc)
  · exact .intro

theorem trainingIterations_ok {s : Str} {ws : List Keyword}
    (hr : readKeywords objectiveKeys s = .ok ws) : Ok (trainingIterations ws) := by
  unfold trainingIterations
  exact (intValue_some hr (by decide)).bind fun v _ => .intro

theorem checkBox_ok {d : Nat} {b : Bounds K} (hd : d = b.dim) (hb : b.isSet = true) :
    checkBox d b = .ok () := by
  unfold checkBox
  rw [if_neg (by omega), if_neg (by simp [hb])]

theorem stod_nil : (stod [] : Res K) = .error .invalidArgument := by rfl

theorem number_word {s k : Str} {x : K} (h : Spec.Number s k x) :
    ∃ w, Spec.Given s k w ∧ stod w = .ok x := by
  obtain ⟨v, hv, e⟩ := h
  refine ⟨Spec.stripped v, ⟨v, hv, rfl, ?_⟩, e⟩
  intro h0
  rw [h0, stod_nil] at e
  cases e

theorem constraint_read {s : Str} {i : Nat} (h : Spec.ConstraintOk K s i) :
    Ok (readKeywords constraintKeys s) := by
  apply mapRes_exists
  obtain ⟨w1, h1⟩ := h.name
  obtain ⟨w2, h2, _⟩ := h.type
  obtain ⟨x, h3⟩ := h.value
  obtain ⟨w3, h3, _⟩ := number_word h3
  intro w hw'
  simp only [constraintKeys, List.mem_cons, List.not_mem_nil, or_false] at hw'
  rcases hw' with rfl | rfl | rfl | rfl | rfl | rfl | rfl | rfl | rfl | rfl | rfl | rfl | rfl | rfl | rfl
  · exact read_string (by decide) (h.readable _ (by simp))
  · exact read_string (by decide) (word_readable h1)
  · exact read_string (by decide) (word_readable h3)
  · exact read_string (by decide) (word_readable h2)
  · exact read_string (by decide) (h.readable _ (by simp))
  · exact read_string (by decide) (h.readable _ (by simp))
  · exact read_string (by decide) (h.readable _ (by simp))
  · exact read_string (by decide) (h.readable _ (by simp))
  · exact read_string (by decide) (h.readable _ (by simp))
  · exact read_string (by decide) (h.readable _ (by simp))
  · exact read_string (by decide) (h.readable _ (by simp))
  · exact read_string (by decide) (h.readable _ (by simp))
  · exact read_string (by decide) (h.readable _ (by simp))
  · exact read_string (by decide) (h.readable _ (by simp))
  · exact read_int (by decide) h.iterations

theorem constraintDefinition_ok {s : Str} {ws : List Keyword} {d : FunctionDefinition}
    (hr : readKeywords constraintKeys s = .ok ws)
    (h : ∀ k ∈ ["design_vector_filename", "output_filename", "training_data_filename"],
      ∃ w, Spec.Given s k.toList w) (hm : Spec.ModelOk s) : Ok (constraintDefinition ws d) := by
  have hman : ∀ (k : String), k ∈ ["design_vector_filename", "output_filename", "training_data_filename"] →
      Key k.toList →
      constraintKeys.find? (fun w => decide (w.name = k.toList)) = some (.new k.toList .string) →
      Ok (mandatory ws k.toList) := by
    intro k hk hk' hf
    obtain ⟨w, hw⟩ := h k hk
    exact ⟨w, mandatory_word hk' hr hf hw⟩
  unfold constraintDefinition
  refine (stringValue_some hr (by decide)).bind fun exe _ => ?_
  refine (hman "design_vector_filename" (by simp) (by decide) (by decide)).bind fun dv _ => ?_
  refine (hman "output_filename" (by simp) (by decide) (by decide)).bind fun out _ => ?_
  refine (hman "training_data_filename" (by simp) (by decide) (by decide)).bind fun data _ => ?_
  obtain ⟨m, g1, g2⟩ := stringValue_read (key := "surrogate_model_type".toList) hr (by decide)
  refine (Ok.of_eq g2).bind fun m' hm' => ?_
  rw [g2] at hm'
  cases hm'
  exact (model_ok hm g1).bind fun kind _ => .intro

theorem readConstraint_ok {general objective : List Keyword} {b : Bounds K} {i : Nat} {s : Str} {d : Nat}
    (h : Spec.ConstraintOk K s i) (hdim : intValue general "dimension".toList = .ok d) (hd : d < 2 ^ 32)
    (hb : b.dim = d ∧ b.isSet = true) (hn : Ok (trainingIterations objective)) :
    Ok (readConstraint general objective b i s) := by
  have hto : toUnsigned (d : Int) = d := by
    have := toUnsigned_small (n := (d : Int)) (by omega) (by omega)
    omega
  obtain ⟨w1, h1⟩ := h.name
  obtain ⟨t, h2, h2'⟩ := h.type
  obtain ⟨x, h3⟩ := h.value
  obtain ⟨w3, h3, h3'⟩ := number_word h3
  unfold readConstraint
  rw [if_neg (by
    rintro rfl
    obtain ⟨v, hv, _⟩ := h1
    have := Spec_element_open hv
    simp [Spec.openTag] at this)]
  refine (constraint_read h).bind fun ws hr => ?_
  rw [bind_rw hdim]
  refine hn.bind fun n _ => ?_
  refine (stringValue_some hr (by decide)).bind fun mf _ => ?_
  rw [bind_rw (mandatory_word (by decide) hr (by decide) h1)]
  have htype : Ok (constraintType ws) := by
    unfold constraintType
    rw [bind_rw (mandatory_word (by decide) hr (by decide) h2)]
    split
    · exact .intro
    · rename_i hc
      rw [if_pos]
      · exact .intro
      · rcases h2' with h2' | h2'
        · exact absurd (.inl ((isEqual_iff (by decide)).mpr h2')) hc
        · exact .inl ((isEqual_iff (by decide)).mpr h2')
  refine htype.bind fun type _ => ?_
  have hvalue : (constraintValue ws : Res K) = .ok x := by
    unfold constraintValue
    rw [bind_rw (mandatory_word (by decide) hr (by decide) h3)]
    exact h3'
  rw [bind_rw hvalue]
  obtain ⟨v, g1, g2⟩ := stringValue_read (key := "user_defined_function".toList) hr (by decide)
  have hon := on_read (by decide) g1
  have hudf : userDefined ws i = .ok (checkIfOn v) := by
    unfold userDefined
    rw [bind_rw g2]
    split
    · rename_i hc
      have := h.user (hon.mp hc)
      rw [if_neg (by omega), if_neg (by omega), hc]
    · rename_i hc
      rw [Bool.not_eq_true] at hc
      rw [hc]
  rw [bind_rw hudf]
  have hdef : Ok (constraintFunction ws (checkIfOn v)
      { FunctionDefinition.new with name := w1, multiLevel := checkIfOn mf }) := by
    unfold constraintFunction
    split
    · exact .intro
    · rename_i hc
      obtain ⟨f1, f2⟩ := h.files (fun hw => hc (hon.mpr hw))
      exact constraintDefinition_ok hr f1 f2
  refine hdef.bind fun d' _ => ?_
  rw [if_neg (by rw [hb.2]; simp), bind_rw (checkBox_ok (by rw [hto, hb.1]) hb.2)]
  exact .intro

theorem readConstraints_ok {general objective : List Keyword} {b : Bounds K} {d : Nat}
    (hdim : intValue general "dimension".toList = .ok d) (hd : d < 2 ^ 32)
    (hb : b.dim = d ∧ b.isSet = true) (hn : Ok (trainingIterations objective)) {ts : List Str} :
    ∀ {id : Nat}, (∀ (i : Nat) (t : Str), ts[i]? = some t → Spec.ConstraintOk K t (id + i)) →
      Ok (readConstraints general objective b id ts) := by
  induction ts with
  | nil => intro id _; exact .intro
  | cons t ts ih =>
    intro id h
    unfold readConstraints
    refine (readConstraint_ok (h 0 t rfl) hdim hd hb hn).bind fun c _ => ?_
    refine (ih (id := id + 1) fun i t' ht' => ?_).bind fun cs _ => .intro
    have := h (i + 1) t' ht'
    rwa [show id + 1 + i = id + (i + 1) by omega]

theorem readConstraints_dim {general objective : List Keyword} {b : Bounds K} {d : Nat}
    (hdim : intValue general "dimension".toList = .ok d) (hd : d < 2 ^ 32) {ts : List Str} :
    ∀ {id : Nat} {cs : List (ConstraintSettings K)}, readConstraints general objective b id ts = .ok cs →
      ∀ c ∈ cs, c.base.dim = d := by
  have hto : toUnsigned (d : Int) = d := by
    have := toUnsigned_small (n := (d : Int)) (by omega) (by omega)
    omega
  induction ts with
  | nil => intro id cs h; cases h; simp
  | cons t ts ih =>
    intro id cs h
    unfold readConstraints at h
    obtain ⟨c, hc, h⟩ := bind_ok_inv h
    obtain ⟨cs', hcs, h⟩ := bind_ok_inv h
    cases h
    intro c' hc'
    rcases List.mem_cons.mp hc' with rfl | hc'
    · unfold readConstraint at hc
      split at hc
      · cases hc
      obtain ⟨ws, _, hc⟩ := bind_ok_inv hc
      obtain ⟨d', hd', hc⟩ := bind_ok_inv hc
      rw [hdim] at hd'
      cases hd'
      obtain ⟨_, _, hc⟩ := bind_ok_inv hc
      obtain ⟨_, _, hc⟩ := bind_ok_inv hc
      obtain ⟨_, _, hc⟩ := bind_ok_inv hc
      obtain ⟨_, _, hc⟩ := bind_ok_inv hc
      obtain ⟨_, _, hc⟩ := bind_ok_inv hc
      obtain ⟨_, _, hc⟩ := bind_ok_inv hc
      obtain ⟨_, _, hc⟩ := bind_ok_inv hc
      split at hc
      · cases hc
      obtain ⟨_, _, hc⟩ := bind_ok_inv hc
      cases hc
      exact hto
    · exact ih hcs c' hc'

end
end Rodeo.Driver
