import Verif.Lemmas.Driver
import Verif.Lemmas.Text
import Mathlib.Data.Rat.Floor

/-! # The configuration file (C62)

`Driver.run file` is what the program does with its argument before the optimization starts: the
settings of the optimizer, or the error that ends the program. -/

set_option linter.unusedSectionVars false

namespace Rodeo

open Text Driver

variable {K : Type} [Field K] [LinearOrder K] [IsStrictOrderedRing K] [FloorRing K]

/-- The steps of an accepted file. -/
theorem Driver.run_inv {text : Str} {c : Config K} (h : Driver.run (some text) = .ok c) :
    ∃ (s p o : Str) (ws os : List Keyword) (g : General) (ps : List (Parameter K)) (b : Bounds K)
      (f : FunctionSettings K),
      extractContentBetweenKeys text "general_settings".toList = .ok s ∧
      readKeywords generalKeys s = .ok ws ∧ generalSettings ws = .ok (some g) ∧
      extractContentBetweenKeys text "optimization_parameters".toList = .ok p ∧
      (if p = [] then Except.ok [] else mapRes readParameter (extractContents p "parameter".toList)) = .ok ps ∧
      boxOf ws ps = .ok b ∧
      extractContentBetweenKeys text "objective_function".toList = .ok o ∧
      readKeywords objectiveKeys o = .ok os ∧ readObjective ws os b = .ok f ∧
      readConstraints ws os b 0 (constraintTexts (some text)) = .ok c.constraints ∧
      setStudyBox g.dimension f c.constraints b = .ok () ∧
      setParameterNames g.dimension ps = .ok c.parameterNames ∧
      setDiscrete ws g.dimension ps = .ok c.discrete ∧
      c = ⟨g.name, g.dimension, g.maxSamples, g.innerIterations, g.threads, f, c.constraints, b.lb, b.ub,
        c.parameterNames, c.discrete⟩ := by
  unfold Driver.run at h
  obtain ⟨r, hr, h⟩ := bind_ok_inv h
  cases r with
  | none => cases h
  | some c' =>
    cases h
    unfold readConfigurationFile at hr
    obtain ⟨s, hs, hr⟩ := bind_ok_inv hr
    obtain ⟨ws, hws, hr⟩ := bind_ok_inv hr
    obtain ⟨g, hg, hr⟩ := bind_ok_inv hr
    cases g with
    | none => cases hr
    | some g =>
      dsimp only at hr
      obtain ⟨c'', hc, hr⟩ := bind_ok_inv hr
      cases hr
      unfold readOptimization at hc
      obtain ⟨ps, hps, hc⟩ := bind_ok_inv hc
      obtain ⟨b, hb, hc⟩ := bind_ok_inv hc
      obtain ⟨o, ho, hc⟩ := bind_ok_inv hc
      obtain ⟨os, hos, hc⟩ := bind_ok_inv hc
      obtain ⟨f, hf, hc⟩ := bind_ok_inv hc
      obtain ⟨cs, hcs, hc⟩ := bind_ok_inv hc
      obtain ⟨u, hu, hc⟩ := bind_ok_inv hc
      obtain ⟨names, hnames, hc⟩ := bind_ok_inv hc
      obtain ⟨disc, hdisc, hc⟩ := bind_ok_inv hc
      cases hc
      unfold readParameters at hps
      obtain ⟨p, hp, hps⟩ := bind_ok_inv hps
      exact ⟨s, p, o, ws, os, g, ps, b, f, hs, hws, hg, hp, hps, hb, ho, hos, hf, hcs, hu, hnames, hdisc, rfl⟩

/-- The parameters of an accepted file. -/
theorem Driver.params_inv {p : Str} {ps : List (Parameter K)}
    (h : (if p = [] then Except.ok [] else mapRes readParameter (extractContents p "parameter".toList)) =
      .ok ps) :
    ∃ texts, Spec.Elements "parameter".toList p texts ∧
      List.Forall₂ (fun t q => readParameter t = .ok q) texts ps := by
  have hE := (extractContents_iff (s := p) (k := "parameter".toList) (by decide)).mp rfl
  split at h
  · rename_i h0
    cases h
    rw [h0] at hE ⊢
    exact ⟨[], hE, .nil⟩
  · exact ⟨_, hE, mapRes_inv h⟩

/-- **C62**, what holds of every accepted configuration file: all mandatory keywords are given, and all
keywords but the name of the study and the number of training iterations of constraints end up in the
settings; bounds that are not given are not reported (see below). -/
theorem C62_partial {text : Str} {c : Config K} (h : Driver.run (some text) = .ok c) :
    Spec.StudyConfigured text c := by
  obtain ⟨s, p, o, ws, os, g, ps, b, f, hs, hws, hg, hp, hps, hb, ho, hos, hf, hcs, hu, hnames, hdisc, ec⟩ :=
    Driver.run_inv h
  obtain ⟨g1, ⟨g2, g3, g4⟩, g5, ⟨g6, g7⟩, g8, g9, g10, g11⟩ := general_inv hws hg
  obtain ⟨b1, b2, b3⟩ := boxOf_inv g4 hb
  have hsmall : g.dimension < 2 ^ 32 := by have := integer_small g2; omega
  have c1 : c.dimension = g.dimension := by rw [ec]
  have c2 : c.lb = b.lb := by rw [ec]
  have c3 : c.ub = b.ub := by rw [ec]
  have c4 : c.objective = f := by rw [ec]
  have hto : toUnsigned (g.dimension : Int) = g.dimension := by
    have := toUnsigned_small (n := (g.dimension : Int)) (by omega) (by omega)
    omega
  obtain ⟨texts, hE, hF⟩ := Driver.params_inv hps
  refine ⟨⟨s, (extractContentBetweenKeys_ok (by decide)).mp hs, ?_⟩,
    ⟨p, ps.map Parameter.spec, (extractContentBetweenKeys_ok (by decide)).mp hp, ?_⟩,
    ⟨o, (extractContentBetweenKeys_ok (by decide)).mp ho, ?_⟩, ?_⟩
  · rw [ec]
    exact ⟨g1, g2, g3, g6, g7, g8, g9, g10, g11⟩
  · have hpos : ps ≠ [] := by
      intro h0
      rw [h0] at b1
      simp at b1
      omega
    have hne : ∀ q ∈ ps, q.name ≠ [] := by
      intro q hq
      have : ∀ (ts : List Str) (qs : List (Parameter K)),
          List.Forall₂ (fun t q => readParameter t = .ok q) ts qs → ∀ q ∈ qs, q.name ≠ [] := by
        intro ts qs hh
        induction hh with
        | nil => simp
        | cons hab _ ih =>
          intro q hq
          rcases List.mem_cons.mp hq with rfl | hq
          · exact (readParameter_inv hab).2
          · exact ih q hq
      exact this texts ps hF q hq
    obtain ⟨n1, n2⟩ := setParameterNames_inv hne hpos hnames
    unfold setDiscrete at hdisc
    obtain ⟨d', hd', hdisc⟩ := bind_ok_inv hdisc
    split at hdisc
    · cases hdisc
    obtain ⟨d1, d2⟩ := discreteLoop_inv hdisc
    refine ⟨⟨texts, hE, ?_⟩, by rw [List.length_map, b1, c1], by rw [c2, b2, List.map_map]; rfl,
      by rw [c3, b2, List.map_map]; rfl, by rw [n1, List.map_map]; rfl, ?_, ?_, d2⟩
    · rw [List.forall₂_map_right_iff]
      have hlt : ∀ q ∈ ps, q.lb < q.ub := by
        intro q hq
        obtain ⟨i, hi⟩ := List.mem_iff_getElem?.mp hq
        exact box_lt b3 hi
      have : ∀ (ts : List Str) (qs : List (Parameter K)),
          List.Forall₂ (fun t q => readParameter t = .ok q) ts qs → (∀ q ∈ qs, q.lb < q.ub) →
          List.Forall₂ (fun t (q : Parameter K) => Spec.ParamSet t q.spec) ts qs := by
        intro ts qs hh
        induction hh with
        | nil => intro _; exact .nil
        | cons hab _ ih =>
          intro hq
          exact .cons ((readParameter_inv hab).1 (hq _ (by simp))) (ih (fun q h => hq q (by simp [h])))
      exact this texts ps hF hlt
    · rw [List.map_map]
      have : (Spec.Param.name ∘ Parameter.spec : Parameter K → Str) = (·.name) := rfl
      rw [this, ← n1]
      exact n2
    · intro i x
      rw [d1]
      constructor
      · rintro ⟨_, q, hq, hdis, e⟩
        exact ⟨q.spec, by rw [List.getElem?_map, ← Nat.sub_zero i, hq]; rfl, hdis, e⟩
      · rintro ⟨q, hq, hdis, e⟩
        rw [List.getElem?_map] at hq
        obtain ⟨q', hq', e'⟩ := Option.map_eq_some_iff.mp hq
        subst e'
        exact ⟨by omega, q', by rw [Nat.sub_zero]; exact hq', hdis, e⟩
  · unfold readObjective at hf
    obtain ⟨d', hd', hf⟩ := bind_ok_inv hf
    rw [g4] at hd'
    cases hd'
    obtain ⟨n, hn, hf⟩ := bind_ok_inv hf
    obtain ⟨d, hd, hf⟩ := bind_ok_inv hf
    split at hf
    · cases hf
    obtain ⟨_, hbox, hf⟩ := bind_ok_inv hf
    cases hf
    obtain ⟨o1, o2, o3, o4, o5, o6, o7⟩ := objectiveDefinition_inv hos hd
    unfold trainingIterations at hn
    obtain ⟨v, i1, i2⟩ := intValue_read (key := "number_of_training_iterations".toList) hos (by decide)
    rw [i2] at hn
    have hn' : Except.ok (if v ≠ noInt then toUnsigned v else 10000) = Except.ok (ε := Err) n := hn
    cases hn'
    have hopt := optional_read (d := 10000) (by decide) i1
    have hsb : Spec.SameBox c c.objective := by
      rw [c4]
      exact ⟨by rw [c1]; exact hto, c2.symm, c3.symm⟩
    have hob : c.objective.definition = d := by rw [c4]
    have hit : c.objective.trainingIterations = if v ≠ noInt then toUnsigned v else 10000 := by rw [c4]
    exact ⟨by rw [hob]; exact o1, by rw [hob]; exact o2, by rw [hob]; exact o3, by rw [hob]; exact o4,
      by rw [hob]; exact o5, by rw [hob]; exact o6, by rw [hob]; exact o7, by rw [hit]; exact hopt.1,
      by rw [hit]; exact hopt.2, hsb⟩
  · intro texts' hB
    have ht : constraintTexts (some text) = texts' := constraintLines_blocks hB []
    rw [ht] at hcs
    obtain ⟨k1, _, k3⟩ := readConstraints_inv g4 hsmall c ⟨c1, c2, c3⟩ hcs
    refine ⟨k1, fun i t x hti hxi => ?_⟩
    have := (k3 i t x hti hxi).1
    rwa [Nat.zero_add] at this

/-- The full claim: every keyword ends up in its setting, and bounds and counts are checked. -/
def C62_full (K : Type) [Field K] [LinearOrder K] [IsStrictOrderedRing K] [FloorRing K] : Prop :=
  ∀ (text : Str) (c : Config K), Driver.run (some text) = .ok c →
    Spec.StudyConfigured text c ∧ Spec.NameSet text c ∧ Spec.IterationsSet text c ∧ Spec.BoundsGiven (K := K) text ∧
      Spec.CountsGiven text

/-- A file that cannot be read is reported. -/
theorem C62_no_file : (Driver.run none : Res (Config K)) = .error .runtimeError := rfl

/-- **C62, how it fails**: a name given to the study never reaches it. -/
theorem C62_name_lost {text : Str} {c : Config K} (h : Driver.run (some text) = .ok c) {s w : Str}
    (hs : Spec.Section text "general_settings".toList s) (hw : Spec.Given s "name".toList w) :
    c.name = "OptimizationStudy".toList := by
  obtain ⟨s', p, o, ws, os, g, ps, b, f, hs', hws, hg, _, _, _, _, _, _, _, _, _, _, ec⟩ := Driver.run_inv h
  have e : s' = s := Except.ok.inj (hs'.symm.trans ((extractContentBetweenKeys_ok (by decide)).mpr hs))
  subst e
  rw [ec]
  exact (general_inv hws hg).2.2.1 w hw

/-- **C62, how it fails**: all constraints train their surrogate models as long as the objective function,
whatever their own sections say. -/
theorem C62_iterations_shared {text : Str} {c : Config K} (h : Driver.run (some text) = .ok c)
    {x : ConstraintSettings K} (hx : x ∈ c.constraints) :
    x.base.trainingIterations = c.objective.trainingIterations := by
  obtain ⟨s, p, o, ws, os, g, ps, b, f, _, hws, hg, _, _, hb, _, _, hf, hcs, _, _, _, ec⟩ := Driver.run_inv h
  obtain ⟨_, ⟨g2, _, g4⟩, _⟩ := general_inv hws hg
  have hsmall : g.dimension < 2 ^ 32 := by have := integer_small g2; omega
  obtain ⟨k1, _, k3⟩ := readConstraints_inv g4 hsmall c ⟨by rw [ec], by rw [ec], by rw [ec]⟩ hcs
  obtain ⟨i, hi⟩ := List.mem_iff_getElem?.mp hx
  have hlt : i < c.constraints.length := (List.getElem?_eq_some_iff.mp hi).1
  obtain ⟨t, ht⟩ : ∃ t, (constraintTexts (some text))[i]? = some t :=
    ⟨_, List.getElem?_eq_getElem (by omega)⟩
  have h1 := (k3 i t x ht hi).2
  unfold readObjective at hf
  obtain ⟨_, _, hf⟩ := bind_ok_inv hf
  obtain ⟨n, hn, hf⟩ := bind_ok_inv hf
  obtain ⟨d, hd, hf⟩ := bind_ok_inv hf
  split at hf
  · cases hf
  obtain ⟨_, _, hf⟩ := bind_ok_inv hf
  cases hf
  rw [h1] at hn
  have e2 : c.objective.trainingIterations = n := by rw [ec]
  rw [e2]
  exact Except.ok.inj hn

theorem Driver.empty_text {ls : List Str} {l : Str} (h : l ∈ ls)
    (h1 : Spec.openTag "constraint_function".toList <:+: l)
    (h2 : Spec.closeTag "constraint_function".toList <:+: l) :
    ∀ (b : Bool) (cur : Str), [] ∈ constraintLines b cur ls := by
  induction ls with
  | nil => cases h
  | cons a ls ih =>
    intro b cur
    rcases List.mem_cons.mp h with rfl | h
    · rw [constraintLines_both h1 h2]; simp
    · rw [constraintLines]
      split
      · exact List.mem_cons_of_mem _ (ih h _ _)
      · exact ih h _ _

/-- **C62, how it fails**: a constraint written on one line makes the whole file unacceptable. -/
theorem C62_one_line {text l : Str} (hl : l ∈ pieces '\n' text)
    (h1 : Spec.openTag "constraint_function".toList <:+: l)
    (h2 : Spec.closeTag "constraint_function".toList <:+: l) (c : Config K) :
    Driver.run (some text) ≠ .ok c := by
  intro h
  obtain ⟨s, p, o, ws, os, g, ps, b, f, _, hws, hg, _, _, hb, _, _, hf, hcs, _, _, _, ec⟩ := Driver.run_inv h
  obtain ⟨_, ⟨g2, _, g4⟩, _⟩ := general_inv hws hg
  have hsmall : g.dimension < 2 ^ 32 := by have := integer_small g2; omega
  obtain ⟨_, k2, _⟩ := readConstraints_inv g4 hsmall c ⟨by rw [ec], by rw [ec], by rw [ec]⟩ hcs
  exact k2 [] (Driver.empty_text hl h1 h2 false []) rfl

/-! ## A file -/

/-- The text of a list of lines. -/
def Driver.unlines (ls : List String) : Str := (ls.map (fun l => l.toList ++ ['\n'])).flatten

/-- The lines before the constraint: a study in two dimensions. -/
def Driver.exampleHead : List String := [
  "<general_settings>",
  "  <name> Himmelblau </name>",
  "  <type> Optimization </type>",
  "  <dimension> 2 </dimension>",
  "  <number_of_function_evaluations>50</number_of_function_evaluations>",
  "  <number_of_threads>4</number_of_threads>",
  "</general_settings>",
  "<optimization_parameters>",
  "  <parameter>",
  "    <name>x</name> <type>real</type>",
  "    <lower_bound>-6.0</lower_bound> <upper_bound>6.0</upper_bound>",
  "  </parameter>",
  "  <parameter>",
  "    <name>n</name> <type>INT</type>",
  "    <upper_bound>10</upper_bound> <increment>2</increment>",
  "  </parameter>",
  "</optimization_parameters>",
  "<objective_function>",
  "  <name>f</name>",
  "  <design_vector_filename>dv.dat</design_vector_filename>",
  "  <executable_filename>himmelblau</executable_filename>",
  "  <output_filename>f.dat</output_filename>",
  "  <training_data_filename>f.csv</training_data_filename>",
  "  <number_of_training_iterations>2000</number_of_training_iterations>",
  "</objective_function>"]

/-- The lines of the constraint. -/
def Driver.exampleBody : List String := [
  "  <name>g</name>",
  "  <constraint_type>gt</constraint_type>",
  "  <constraint_value>1.5</constraint_value>",
  "  <design_vector_filename>dv.dat</design_vector_filename>",
  "  <output_filename>g.dat</output_filename>",
  "  <training_data_filename>g.csv</training_data_filename>",
  "  <surrogate_model_type>universal_kriging</surrogate_model_type>",
  "  <number_of_training_iterations>77</number_of_training_iterations>"]

/-- The example. -/
def Driver.exampleFile : Str :=
  Driver.unlines (exampleHead ++ "<constraint_function>" :: exampleBody ++ ["</constraint_function>"])

/-- The box of the example. -/
def Driver.exampleBounds : Bounds ℚ := ⟨[-6, 1 / 10 ^ 13], [6, 10], 2, true⟩

/-- The settings of the objective function of the example. -/
def Driver.exampleObjective : FunctionSettings ℚ where
  definition := ⟨"f".toList, "dv.dat".toList, "himmelblau".toList, [], "f.dat".toList, [], "f.csv".toList, false,
    .ordinaryKriging⟩
  dim := 2
  trainingIterations := 2000
  box := exampleBounds

/-- The settings of the constraint of the example. -/
def Driver.exampleConstraint : ConstraintSettings ℚ where
  base := ⟨⟨"g".toList, "dv.dat".toList, [], [], "g.dat".toList, [], "g.csv".toList, false, .universalKriging⟩,
    2, 2000, exampleBounds⟩
  id := 0
  name := "g".toList
  inequality := ['>']
  value := 3 / 2
  userDefined := false

/-- The settings read from the example. -/
def Driver.exampleConfig : Config ℚ where
  name := "OptimizationStudy".toList
  dimension := 2
  maxSamples := 50
  innerIterations := 20000
  threads := 4
  objective := exampleObjective
  constraints := [exampleConstraint]
  lb := [-6, 1 / 10 ^ 13]
  ub := [6, 10]
  parameterNames := ["x".toList, "n".toList]
  discrete := [(1, 2)]

set_option maxRecDepth 100000 in
theorem Driver.run_example : (Driver.run (some exampleFile) : Res (Config ℚ)) = .ok exampleConfig := by
  decide +kernel

/-- The example meets the hypothesis of `C62_partial`. -/
example : Spec.StudyConfigured exampleFile exampleConfig := C62_partial run_example

set_option maxRecDepth 100000 in
theorem Driver.example_name : (do
    let s ← extractContentBetweenKeys exampleFile "general_settings".toList
    getString s "name".toList) = .ok "Himmelblau".toList := by
  decide +kernel

theorem Driver.example_name_given : ∃ s, Spec.Section exampleFile "general_settings".toList s ∧
    Spec.Given s "name".toList "Himmelblau".toList := by
  obtain ⟨s, hs, h⟩ := bind_ok_inv example_name
  refine ⟨s, (extractContentBetweenKeys_ok (by decide)).mp hs, ?_⟩
  rcases getString_ok (by decide) h with h | h
  · exact absurd h.1 (by decide)
  · exact h

/-- **C62 is false**: the study of the example does not get its name. -/
theorem C62_false : ¬ C62_full ℚ := by
  intro h
  obtain ⟨s, hs, hw⟩ := example_name_given
  have := (h _ _ run_example).2.1 s _ hs hw
  exact absurd this (by decide)

/-- The example meets the hypotheses of `C62_name_lost`. -/
example : ∃ s w, Spec.Section exampleFile "general_settings".toList s ∧ Spec.Given s "name".toList w ∧
    w ≠ "OptimizationStudy".toList := by
  obtain ⟨s, hs, hw⟩ := example_name_given
  exact ⟨s, _, hs, hw, by decide⟩

set_option maxRecDepth 100000 in
theorem Driver.example_bound : (do
    let s ← extractContentBetweenKeys exampleFile "optimization_parameters".toList
    match (extractContents s "parameter".toList)[1]? with
    | none => .error .logicError
    | some t => element t "lower_bound".toList) = .ok none := by
  decide +kernel

/-- **C62, the bounds**: the example is accepted although a lower bound is missing. -/
theorem C62_bounds_false : ¬ ∀ (text : Str) (c : Config ℚ), Driver.run (some text) = .ok c →
    Spec.BoundsGiven (K := ℚ) text := by
  intro h
  obtain ⟨s, hs, h1⟩ := bind_ok_inv example_bound
  cases ht : (extractContents s "parameter".toList)[1]? with
  | none => rw [ht] at h1; cases h1
  | some t =>
    rw [ht] at h1
    obtain ⟨l, _, ⟨v, hv, _⟩, _⟩ := h _ _ run_example s _ t ((extractContentBetweenKeys_ok (by decide)).mp hs)
      ((extractContents_iff (by decide)).mp rfl) (List.mem_of_getElem? ht)
    exact element_none.mp h1 (Spec_element_open hv)

/-- The text of the constraint of the example. -/
def Driver.exampleConstraintText : Str :=
  (("<constraint_function>" :: exampleBody).map (fun l => trimLine l.toList ++ ['\n'])).flatten

theorem Driver.pieces_unlines {ls : List String} (h : ∀ l ∈ ls, '\n' ∉ l.toList) :
    pieces '\n' (Driver.unlines ls) = ls.map String.toList := by
  rw [← pieces_lines (c := '\n') (ls.map String.toList) (by
    intro l hl
    obtain ⟨x, hx, rfl⟩ := List.mem_map.mp hl
    exact h x hx), List.map_map]
  rfl

set_option maxRecDepth 100000 in
theorem Driver.example_blocks : Spec.Blocks (pieces '\n' exampleFile) [exampleConstraintText] := by
  have e : pieces '\n' exampleFile = exampleHead.map String.toList ++
      "<constraint_function>".toList :: exampleBody.map String.toList ++ ["</constraint_function>".toList] := by
    unfold exampleFile
    rw [Driver.pieces_unlines (by decide +kernel)]
    simp only [List.map_append, List.map_cons, List.map_nil]
  have e2 : exampleConstraintText = (("<constraint_function>".toList :: exampleBody.map String.toList).map
      (fun l => trimLine l ++ ['\n'])).flatten := by
    unfold exampleConstraintText
    rw [List.map_cons, List.map_cons, List.map_map]
    rfl
  rw [e, e2]
  refine blocks_one ?_ ?_ ?_ ?_ ?_ ?_
  · unfold Spec.Plain; decide +kernel
  · decide +kernel
  · decide +kernel
  · unfold Spec.Plain; decide +kernel
  · decide +kernel
  · decide +kernel

set_option maxRecDepth 100000 in
theorem Driver.example_iterations :
    getInteger exampleConstraintText "number_of_training_iterations".toList = .ok 77 := by
  decide +kernel

/-- **C62, training iterations**: the constraint of the example asks for 77 iterations and gets 2000. -/
theorem C62_iterations_false : ¬ ∀ (text : Str) (c : Config ℚ), Driver.run (some text) = .ok c →
    Spec.IterationsSet text c := by
  intro h
  have hI : Spec.Integer exampleConstraintText "number_of_training_iterations".toList 77 := by
    rcases getInteger_ok (by decide) example_iterations with h | h
    · exact absurd h.1 (by decide)
    · exact h
  have := h _ _ run_example _ example_blocks 0 _ exampleConstraint 77 rfl rfl (by decide) hI
  exact absurd this (by decide)

/-- The example with a negative number of threads. -/
def Driver.exampleNegative : Str :=
  Driver.unlines (["<general_settings>", "<type>optimization</type>", "<dimension>2</dimension>",
    "<number_of_function_evaluations>50</number_of_function_evaluations>",
    "<number_of_threads>-1</number_of_threads>", "</general_settings>"]) ++
  Driver.unlines (exampleHead.drop 7 ++ "<constraint_function>" :: exampleBody ++ ["</constraint_function>"])

set_option maxRecDepth 100000 in
theorem Driver.run_negative : (Driver.run (some exampleNegative) : Res (Config ℚ)) =
    .ok { exampleConfig with name := [], threads := 4294967295 } := by
  decide +kernel

set_option maxRecDepth 100000 in
theorem Driver.negative_given : (do
    let s ← extractContentBetweenKeys exampleNegative "general_settings".toList
    getInteger s "number_of_threads".toList) = .ok (-1) := by
  decide +kernel

/-- **C62, counts**: -1 threads are accepted, as 4294967295. -/
theorem C62_counts_false : ¬ ∀ (text : Str) (c : Config ℚ), Driver.run (some text) = .ok c →
    Spec.CountsGiven text := by
  intro h
  obtain ⟨s, hs, h1⟩ := bind_ok_inv negative_given
  have hI : Spec.Integer s "number_of_threads".toList (-1) := by
    rcases getInteger_ok (by decide) h1 with h | h
    · exact absurd h.1 (by decide)
    · exact h
  have := h _ _ run_negative s (-1) ((extractContentBetweenKeys_ok (by decide)).mp hs) (.inr hI)
  exact absurd this (by decide)

/-- A file with a constraint on one line meets the hypotheses of `C62_one_line`. -/
example : ∃ l ∈ pieces '\n' (Driver.unlines ["<constraint_function><name>g</name></constraint_function>"]),
    Spec.openTag "constraint_function".toList <:+: l ∧ Spec.closeTag "constraint_function".toList <:+: l := by
  decide +kernel

end Rodeo
