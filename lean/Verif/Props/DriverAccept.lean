import Verif.Lemmas.DriverAccept
import Verif.Props.Driver
import Verif.Props.Study

/-! # Correct configuration files are accepted (C81) -/

set_option linter.unusedSectionVars false

namespace Rodeo

open Text Driver

variable {K : Type} [Field K] [LinearOrder K] [IsStrictOrderedRing K] [FloorRing K]

theorem Driver.setStudyBox_ok {dim : Nat} {f : FunctionSettings K} {cs : List (ConstraintSettings K)}
    {ps : List (Parameter K)} (hlt : ∀ p ∈ ps, p.lb < p.ub) (hdim : ps.length = dim) (hf : f.dim = dim)
    (hc : ∀ c ∈ cs, c.base.dim = dim) :
    setStudyBox dim f cs ⟨ps.map (·.lb), ps.map (·.ub), ps.length, true⟩ = .ok () := by
  unfold setStudyBox
  rw [if_neg (by simp), API.someAbove_valid, if_neg (by simp), bind_rw (checkBox_ok (by rw [hf, hdim]) rfl)]
  · obtain ⟨us, hus⟩ := mapRes_exists (l := cs) (f := fun c : ConstraintSettings K =>
      checkBox c.base.dim (⟨ps.map (·.lb), ps.map (·.ub), ps.length, true⟩ : Bounds K)) (by
        intro c h
        exact ⟨(), checkBox_ok (by rw [hc c h, hdim]) rfl⟩)
    rw [bind_rw hus, if_neg (by simp), if_neg (by simp [hdim])]
  · intro i l u hl hu
    rw [List.getElem?_map] at hl hu
    obtain ⟨p, hp, rfl⟩ := Option.map_eq_some_iff.mp hl
    rw [hp] at hu
    cases hu
    exact hlt p (List.mem_of_getElem? hp)

theorem Driver.setParameterNames_ok {dim : Nat} {ps : List (Parameter K)} (h0 : 0 < dim)
    (hdim : ps.length = dim) (hn : (ps.map (·.name)).Nodup) : Ok (setParameterNames dim ps) ∨
      ∃ p ∈ ps, p.name = [] := by
  by_cases h : ∃ p ∈ ps, p.name = []
  · exact .inr h
  left
  have e : (ps.map (·.name)).filter (fun n => decide (n ≠ [])) = ps.map (·.name) := by
    rw [List.filter_eq_self]
    intro n hn
    obtain ⟨p, hp, rfl⟩ := List.mem_map.mp hn
    exact decide_eq_true fun he => h ⟨p, hp, he⟩
  unfold setParameterNames
  dsimp only
  rw [e]
  split
  · exact .intro
  rw [if_neg (by omega), if_neg (by simpa using hdim)]
  exact .intro

/-- **C81**: a correct configuration file is accepted, and its settings are those of the file. -/
theorem C81_accepted {text : Str} (h : Spec.CorrectFile K text) :
    ∃ c : Config K, Driver.run (some text) = .ok c ∧ Spec.StudyConfigured text c := by
  obtain ⟨g, p, o, params, names, blocks, hg, hgo, hp, hE, hF, hN, ho, hoo, hB, hC⟩ := h
  have hg' := (extractContentBetweenKeys_ok (by decide)).mpr hg
  have hp' := (extractContentBetweenKeys_ok (by decide)).mpr hp
  have ho' := (extractContentBetweenKeys_ok (by decide)).mpr ho
  have hE' := (extractContents_iff (by decide)).mpr hE
  have hB' : constraintTexts (some text) = blocks := constraintLines_blocks hB []
  obtain ⟨ws, hws⟩ := general_read hgo
  obtain ⟨G, hG, hGd⟩ := general_ok hgo hws
  obtain ⟨hd, hd0⟩ := hgo.dimension
  have hds := integer_small hd
  have hdim := intValue_integer (by decide) hws (by decide) hd
  obtain ⟨ps, q1, q2, q3, q4⟩ := readParameters_ok hF
  have hps : (readParameters (some text) : Res (List (Parameter K))) = .ok ps := by
    unfold readParameters readSegment
    rw [bind_rw hp']
    rw [if_neg, hE', q1]
    rintro rfl
    have e : params = [] := by rw [← hE']; decide
    rw [e] at hd0
    simp at hd0
  have hb := boxOf_ok (ws := ws) (ps := ps) (by rw [q4]; exact hdim) (by omega) q3
  obtain ⟨os, hos⟩ := objective_read hoo
  obtain ⟨n, hn⟩ := trainingIterations_ok hos
  obtain ⟨D, hD⟩ := objectiveDefinition_ok hoo hos
  have hto : toUnsigned (params.length : Int) = params.length := by
    have := toUnsigned_small (n := (params.length : Int)) (by omega) (by omega)
    omega
  have hf : readObjective ws os (⟨ps.map (·.lb), ps.map (·.ub), ps.length, true⟩ : Bounds K) =
      .ok ⟨D, params.length, n, ⟨ps.map (·.lb), ps.map (·.ub), ps.length, true⟩⟩ := by
    unfold readObjective
    rw [bind_rw hdim, bind_rw hn, bind_rw hD, if_neg (by simp), bind_rw (checkBox_ok (by rw [hto, q4]) rfl), hto]
  obtain ⟨cs, hcs⟩ := readConstraints_ok (b := (⟨ps.map (·.lb), ps.map (·.ub), ps.length, true⟩ : Bounds K))
    (id := 0) (ts := blocks) hdim (by omega) ⟨q4, rfl⟩ ⟨n, hn⟩ (by
      intro i t ht
      rw [Nat.zero_add]
      exact hC i t ht)
  have hcd : ∀ c ∈ cs, c.base.dim = params.length := readConstraints_dim hdim (by omega) hcs
  have hbox := Driver.setStudyBox_ok (f := (⟨D, params.length, n, ⟨ps.map (·.lb), ps.map (·.ub), ps.length, true⟩⟩ :
    FunctionSettings K)) (cs := cs) q3 q4 rfl hcd
  obtain ⟨ns, hns⟩ : Ok (setParameterNames params.length ps) := by
    rcases Driver.setParameterNames_ok hd0 q4 (by rw [q2]; exact hN) with h | ⟨q, hq, hq0⟩
    · exact h
    · exfalso
      have : ∀ (ts : List Str) (qs : List (Parameter K)), mapRes readParameter ts = .ok qs →
          ∀ q ∈ qs, q.name ≠ [] := by
        intro ts qs hh
        replace hh := mapRes_inv hh
        induction hh with
        | nil => simp
        | cons hab _ ih =>
          intro q hq
          rcases List.mem_cons.mp hq with rfl | hq
          · exact (readParameter_inv hab).2
          · exact ih q hq
      exact this _ _ q1 q hq hq0
  obtain ⟨disc, hdisc⟩ : Ok (setDiscrete ws params.length ps) := by
    unfold setDiscrete
    rw [bind_rw hdim, if_neg (by rw [q4]; simp)]
    exact discreteLoop_ok (by omega)
  have hrun : ∃ c : Config K, Driver.run (some text) = .ok c := by
    have hO : Ok (readOptimization (some text) ws G : Res (Config K)) := by
      unfold readOptimization
      rw [hGd, bind_rw hps, bind_rw hb, bind_rw (show readSegment (some text) "objective_function".toList = .ok o
        from ho'), bind_rw hos, bind_rw hf, hB', bind_rw hcs, bind_rw hbox, bind_rw hns, bind_rw hdisc]
      exact .intro
    obtain ⟨c, hO⟩ := hO
    refine ⟨c, ?_⟩
    have hR : readConfigurationFile (some text) = .ok (some c) := by
      unfold readConfigurationFile
      rw [bind_rw (show readSegment (some text) "general_settings".toList = .ok g from hg'), bind_rw hws,
        bind_rw hG]
      dsimp only
      rw [bind_rw hO]
    unfold Driver.run
    rw [bind_rw hR]
  obtain ⟨c, hc⟩ := hrun
  exact ⟨c, hc, C62_partial hc⟩

/-! ## The example -/

/-- The section `general_settings` of the example. -/
def Driver.exampleG : Str := '\n' :: Driver.unlines ((exampleHead.drop 1).take 5)

/-- The section `optimization_parameters` of the example. -/
def Driver.exampleP : Str := '\n' :: Driver.unlines ((exampleHead.drop 8).take 8)

/-- The parameters of the example. -/
def Driver.exampleParams : List Str := [
  '\n' :: Driver.unlines ((exampleHead.drop 9).take 2) ++ "  ".toList,
  '\n' :: Driver.unlines ((exampleHead.drop 13).take 2) ++ "  ".toList]

/-- The section `objective_function` of the example. -/
def Driver.exampleO : Str := '\n' :: Driver.unlines ((exampleHead.drop 18).take 6)

set_option maxRecDepth 100000 in
theorem Driver.example_sections :
    extractContentBetweenKeys exampleFile "general_settings".toList = .ok exampleG ∧
    extractContentBetweenKeys exampleFile "optimization_parameters".toList = .ok exampleP ∧
    extractContents exampleP "parameter".toList = exampleParams ∧
    extractContentBetweenKeys exampleFile "objective_function".toList = .ok exampleO := by
  decide +kernel

theorem Driver.word_of {s k w : Str} (hk : Key k) (hw : w ≠ []) (h : getString s k = .ok w) : Spec.Given s k w := by
  rcases getString_ok hk h with h | h
  · exact absurd h.1 hw
  · exact h

theorem Driver.integer_of {s k : Str} {n : Int} (hk : Key k) (hn : n ≠ noInt) (h : getInteger s k = .ok n) :
    Spec.Integer s k n := by
  rcases getInteger_ok hk h with h | h
  · exact absurd h.1 hn
  · exact h

theorem Driver.readable_of {s k w : Str} (hk : Key k) (h : getString s k = .ok w) : Spec.Readable s k := by
  rcases getString_ok hk h with h | h
  · exact missing_readable h.2
  · exact word_readable h

set_option maxRecDepth 100000 in
theorem Driver.example_general : Spec.GeneralOk exampleG exampleParams.length := by
  refine ⟨⟨"Optimization".toList, word_of (by decide) (by decide) (by decide +kernel), by unfold Spec.SameWord; decide⟩,
    ⟨integer_of (by decide) (by decide) (by decide +kernel), by decide⟩,
    ⟨50, integer_of (by decide) (by decide) (by decide +kernel), by decide⟩,
    readable_of (w := "Himmelblau".toList) (by decide) (by decide +kernel),
    readable_of (w := []) (by decide) (by decide +kernel),
    .inl (element_none.mp (by decide +kernel)),
    .inr ⟨4, integer_of (by decide) (by decide) (by decide +kernel), by decide⟩⟩

set_option maxRecDepth 100000 in
theorem Driver.example_params :
    List.Forall₂ (Spec.ParamOk ℚ) exampleParams ["x".toList, "n".toList] := by
  refine .cons ⟨⟨"x".toList, false, -6, 6, 0⟩, ⟨?_, ⟨"real".toList, ?_, ?_⟩, ?_, ?_, ?_, ?_⟩, rfl, 1 / 10 ^ 13, ?_⟩
    (.cons ⟨⟨"n".toList, true, 1 / 10 ^ 13, 10, 2⟩, ⟨?_, ⟨"INT".toList, ?_, ?_⟩, ?_, ?_, ?_, ?_⟩, rfl, 2, ?_⟩ .nil)
  · exact word_of (by decide) (by decide) (by decide +kernel)
  · exact word_of (by decide) (by decide) (by decide +kernel)
  · exact .inr (show Spec.SameWord _ _ by unfold Spec.SameWord; decide)
  · exact (getDouble_ok (by decide)).mp (by decide +kernel)
  · exact (getDouble_ok (by decide)).mp (by decide +kernel)
  · decide +kernel
  · intro h; cases h
  · exact (getDouble_ok (by decide)).mp (by decide +kernel)
  · exact word_of (by decide) (by decide) (by decide +kernel)
  · exact word_of (by decide) (by decide) (by decide +kernel)
  · exact .inr (show Spec.SameWord _ _ by unfold Spec.SameWord; decide)
  · exact (getDouble_ok (by decide)).mp (by decide +kernel)
  · exact (getDouble_ok (by decide)).mp (by decide +kernel)
  · decide +kernel
  · intro _
    exact ⟨(getDouble_ok (by decide)).mp (by decide +kernel), by decide +kernel, by decide +kernel⟩
  · exact (getDouble_ok (by decide)).mp (by decide +kernel)

/-- A test for a list of words. -/
theorem Driver.words_of {s : Str} {ks : List String} (h : ∀ k ∈ ks, Key k.toList ∧
    (match getString s k.toList with | .ok w => decide (w ≠ []) | .error _ => false) = true) :
    ∀ k ∈ ks, ∃ w, Spec.Given s k.toList w := by
  intro k hk
  obtain ⟨h1, h2⟩ := h k hk
  split at h2
  · rename_i w hw
    exact ⟨w, word_of h1 (of_decide_eq_true h2) hw⟩
  · cases h2

/-- A test for a list of optional keywords. -/
theorem Driver.readables_of {s : Str} {ks : List String} (h : ∀ k ∈ ks, Key k.toList ∧
    (match getString s k.toList with | .ok _ => true | .error _ => false) = true) :
    ∀ k ∈ ks, Spec.Readable s k.toList := by
  intro k hk
  obtain ⟨h1, h2⟩ := h k hk
  split at h2
  · rename_i w hw
    exact readable_of h1 hw
  · cases h2

set_option maxRecDepth 100000 in
theorem Driver.example_objective : Spec.ObjectiveOk exampleO := by
  have hno : ¬ Spec.openTag "surrogate_model_type".toList <:+: exampleO := element_none.mp (by decide +kernel)
  refine ⟨words_of (by decide +kernel), readables_of (by decide +kernel), ⟨.ordinaryKriging, .inl ⟨.inl hno, rfl⟩⟩,
    ?_, .inr ⟨2000, integer_of (by decide) (by decide) (by decide +kernel)⟩⟩
  rintro (⟨_, h⟩ | ⟨w, ⟨v, hv, _⟩, _⟩)
  · cases h
  · exact absurd (Spec_element_open hv) hno

set_option maxRecDepth 100000 in
theorem Driver.example_constraint : Spec.ConstraintOk ℚ exampleConstraintText 0 := by
  refine ⟨⟨"g".toList, word_of (by decide) (by decide) (by decide +kernel)⟩,
    ⟨"gt".toList, word_of (by decide) (by decide) (by decide +kernel), .inr (show Spec.SameWord _ _ by unfold Spec.SameWord; decide)⟩,
    ⟨3 / 2, ?_⟩, readables_of (by decide +kernel),
    .inr ⟨77, integer_of (by decide) (by decide) (by decide +kernel)⟩, fun _ => by decide, fun _ => ?_⟩
  · rcases (getDouble_ok (K := ℚ) (s := exampleConstraintText) (k := "constraint_value".toList) (x := 3 / 2)
      (by decide)).mp (by decide +kernel) with h | h
    · exact h
    · exact absurd h.2 (by norm_num)
  · exact ⟨words_of (by decide +kernel), .universalKriging, .inr ⟨"universal_kriging".toList,
      word_of (by decide) (by decide) (by decide +kernel), show Spec.SameWord _ _ by unfold Spec.SameWord; decide⟩⟩

/-- The example is a correct file: the hypothesis of `C81_accepted` is met. -/
theorem Driver.example_correct : Spec.CorrectFile ℚ exampleFile := by
  obtain ⟨h1, h2, h3, h4⟩ := example_sections
  refine ⟨exampleG, exampleP, exampleO, exampleParams, ["x".toList, "n".toList], [exampleConstraintText],
    (extractContentBetweenKeys_ok (by decide)).mp h1, example_general,
    (extractContentBetweenKeys_ok (by decide)).mp h2, (extractContents_iff (by decide)).mp h3, example_params,
    by decide, (extractContentBetweenKeys_ok (by decide)).mp h4, example_objective, example_blocks, ?_⟩
  intro i t ht
  match i with
  | 0 => cases ht; exact example_constraint
  | i + 1 => simp at ht

end Rodeo
