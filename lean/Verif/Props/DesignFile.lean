import Verif.Lemmas.DesignFile
import Verif.Props.History

/-! # C97, C98: files and log messages about designs -/

set_option linter.unusedSectionVars false

namespace Rodeo
open Text Spec DesignFile

variable {K : Type} [Field K] [LinearOrder K] [IsStrictOrderedRing K] [FloorRing K]

/-! ## C97 -/

/-- The file with the parameters in one line, read by the program: a table of one row. -/
def Spec.TellsRow (file : Option Str) (params : List K) : Prop :=
  ∃ (A : Mat K) (G : Nat → Nat → K), Mat.readFromCSV file false = .ok A ∧ IsMat A 1 params.length G ∧
    ∀ j, j < params.length → Near (vecFun params j) (G 0 j)

/-- The file with one parameter per line: it lists the parameters, and the program reads them back. -/
def Spec.TellsColumn (file : Option Str) (params : List K) : Prop :=
  ∃ (text : Str) (ys : List K), file = some text ∧ Listing text ys ∧ Vec.readFromCSV file = .ok ys ∧
    List.Forall₂ Near params ys

/-- The full claim: each of the three files tells the parameters.  For the report this is: designs with the
same number of parameters and the same report have the same parameters, up to the digits that are written. -/
def C97_full (K : Type) [Field K] [LinearOrder K] [IsStrictOrderedRing K] [FloorRing K] : Prop :=
  (∀ (d : Design K) (name : Str) (file : Option Str), d.params ≠ [] → d.params.length < 2 ^ 32 → name ≠ [] →
    (∃ f, saveDesignVectorAsCSVFile true name file d = (f, .ok ()) ∧ TellsRow f d.params) ∧
    ∃ f, saveDesignVector true name file d = (f, .ok ()) ∧ TellsColumn f d.params) ∧
  ∀ (d d' : Design K) (name tag : Str) (file file' f : Option Str), name ≠ [] →
    d.params.length = d'.params.length → saveToAFile true name file tag d = (f, .ok ()) →
    saveToAFile true name file' tag d' = (f, .ok ()) →
    List.Forall₂ (fun x y => |x - y| ≤ (|x| + |y|) / 10 ^ 5) d.params d'.params

/-- **C97** for the files with the parameters only: whatever was in the file before, afterwards it tells the
parameters, to ten significant digits.  Missing: the report of `saveToAFile` (`C97_false`). -/
theorem C97_partial (d : Design K) {name : Str} (hname : name ≠ []) (file : Option Str) :
    (d.params ≠ [] → d.params.length < 2 ^ 32 →
      ∃ f, saveDesignVectorAsCSVFile true name file d = (f, .ok ()) ∧ TellsRow f d.params) ∧
    ∃ f, saveDesignVector true name file d = (f, .ok ()) ∧ TellsColumn f d.params := by
  choose g h1 h2 using (sigStr_shows (K := K) 9)
  have hst : ∀ x : K, stod (sigStr 9 x) = .ok (g x) := by
    intro x
    obtain ⟨plus, n, hn, hs, hv⟩ := h1 x
    rw [hs, stod_shown plus hn, hv]
  constructor
  · intro h0 hlen
    refine ⟨some ([','].intercalate (d.params.map (sigStr 9))), ?_, ?_⟩
    · unfold saveDesignVectorAsCSVFile
      rw [if_neg hname, if_neg (by simp), csvText_eq h0 hlen]
    · have hline : '\n' ∉ [','].intercalate (d.params.map (sigStr 9)) := by
        intro h
        rcases intercalate_mem h with h | ⟨t, ht, h⟩
        · exact absurd h (by decide)
        · obtain ⟨x, _, rfl⟩ := List.mem_map.1 ht
          exact ((sigStr_chars 9 x).1 _ h).ne.2 rfl
      have hne : [','].intercalate (d.params.map (sigStr 9)) ≠ [] := by
        obtain ⟨a, l, hl⟩ := List.exists_cons_of_ne_nil h0
        rw [hl]
        cases l with
        | nil => simpa [List.intercalate] using (sigStr_chars 9 a).2
        | cons b l => simp [List.intercalate]
      have hp : pieces '\n' ([','].intercalate (d.params.map (sigStr 9))) =
          [[','].intercalate (d.params.map (sigStr 9))] := by
        have := pieces_intercalate (c := '\n') [[','].intercalate (d.params.map (sigStr 9))] (by
          intro l hl
          rw [List.mem_singleton] at hl
          subst hl
          exact ⟨hline, hne⟩)
        simpa [List.intercalate] using this
      obtain ⟨A, e, hA⟩ := Mat.readFromCSV_ok (K := K) (hdr := false) hp (n := 1) (m := d.params.length)
        (G := fun _ j => g (vecFun d.params j)) (by norm_num) (by
          unfold Mat.readRows
          rw [if_neg (by simp)]
          have hr : mapRes stod (pieces ',' ([','].intercalate (d.params.map (sigStr 9)))) =
              .ok ((List.range d.params.length).map fun j => g (vecFun d.params j)) := by
            rw [pieces_intercalate]
            · rw [mapRes_ok (g := fun t => match (stod t : Res K) with | .ok v => v | .error _ => 0)]
              · rw [List.map_map]
                congr 1
                refine List.ext_getElem (by simp) ?_
                intro i hi hi'
                simp at hi
                simp [hst, vecFun, hi]
              · intro t ht
                obtain ⟨x, _, rfl⟩ := List.mem_map.1 ht
                simp only [hst]
            · intro l hl
              obtain ⟨x, _, rfl⟩ := List.mem_map.1 hl
              exact ⟨fun hc => ((sigStr_chars 9 x).1 _ hc).ne.1 rfl, (sigStr_chars 9 x).2⟩
          simp only [mapRes, hr]
          rfl)
      exact ⟨A, _, e, hA, fun j _ => h2 _⟩
  · refine ⟨some ((d.params.map fun x => sigStr 9 x ++ ['\n']).flatten), ?_, _, d.params.map g, rfl,
      ⟨d.params.map (sigStr 9), by simp [List.map_map, Function.comp_def], ?_⟩, ?_, ?_⟩
    · unfold saveDesignVector
      rw [if_neg hname, if_neg (by simp), linesText_eq]
    · rw [List.forall₂_map_left_iff, List.forall₂_map_right_iff]
      exact List.forall₂_same.2 fun x _ => h1 x
    · unfold Vec.readFromCSV
      dsimp only
      have e : (d.params.map fun x => sigStr 9 x ++ ['\n']).flatten =
          ((d.params.map (sigStr 9)).map (· ++ ['\n'])).flatten := by
        simp [List.map_map, Function.comp_def]
      rw [e, pieces_lines]
      · rw [mapRes_ok (g := fun t => match (stod t : Res K) with | .ok v => v | .error _ => 0)]
        · rw [List.map_map]
          congr 1
          apply List.map_congr_left
          intro x _
          simp only [Function.comp_apply, hst]
        · intro t ht
          obtain ⟨x, _, rfl⟩ := List.mem_map.1 ht
          simp only [hst]
      · intro l hl hc
        obtain ⟨x, _, rfl⟩ := List.mem_map.1 hl
        exact ((sigStr_chars 9 x).1 _ hc).ne.2 rfl
    · rw [List.forall₂_map_right_iff]
      exact List.forall₂_same.2 fun x _ => h2 x

set_option maxRecDepth 100000 in
/-- **C97 fails** for the report: nothing separates the parameters, (1, 23) and (12, 3) have the same report. -/
theorem C97_false : ¬ C97_full ℚ := by
  rintro ⟨-, h⟩
  have := h (Design.ofVec [1, 23]) (Design.ofVec [12, 3]) ['r'] "Design".toList none none
    (some (reportText "Design".toList (Design.ofVec [(1 : ℚ), 23]))) (by decide) rfl (by decide +kernel)
    (by decide +kernel)
  exact absurd this (by decide +kernel)

/-- **C97, the report** tells the objective value and the feasibility; two designs with the same report are both
feasible or both infeasible. -/
theorem C97_report (d : Design K) {name : Str} (hname : name ≠ []) (file : Option Str) (tag : Str) :
    ∃ text, saveToAFile true name file tag d = (some text, .ok ()) ∧ TellsReport text tag d ∧
      ∀ (d' : Design K) (tag' : Str), (saveToAFile true name file tag' d').1 = some text →
        d'.feasible = d.feasible := by
  have e : ∀ (d : Design K) (tag : Str), saveToAFile true name file tag d = (some (reportText tag d), .ok ()) := by
    intro d tag
    unfold saveToAFile
    rw [if_neg hname, if_neg (by simp)]
  refine ⟨_, e d tag, ⟨d.params.flatMap generalStr, fixedStr 6 d.trueValue,
    if d.numberOfConstraints > 0 then
      "Constraint values vector:\n".toList ++ d.constraintTrueValues.flatMap (fixedStr 6) else [],
    fixedStr_shows _, ?_, ?_⟩, ?_⟩
  · intro h
    obtain ⟨x, -, hx⟩ := List.mem_flatMap.1 h
    exact ((generalStr_chars x).1 _ hx).ne.2 rfl
  · unfold reportText
    have : (if d.feasible then "Feasibility = YES\n".toList else "Feasibility = NO\n".toList) =
        "Feasibility = ".toList ++ (if d.feasible then "YES\n".toList else "NO\n".toList) := by
      split_ifs <;> rfl
    rw [this, ← List.append_assoc _ "Feasibility = ".toList]
  · intro d' tag' h
    rw [e] at h
    have h := Option.some.inj h
    unfold reportText at h
    have key : ∀ A A' : Str, A ++ "Feasibility = YES\n".toList ≠ A' ++ "Feasibility = NO\n".toList := by
      intro A A' h
      have h1 : (A ++ "Feasibility = YE".toList) ++ ['S', '\n'] = (A' ++ "Feasibility = N".toList) ++ ['O', '\n'] := by
        rw [List.append_assoc, List.append_assoc]; exact h
      exact absurd (List.append_inj_right' h1 rfl) (by decide)
    cases hf : d.feasible <;> cases hf' : d'.feasible <;> rw [hf, hf'] at h
    · exact absurd h (key _ _)
    · exact absurd h.symm (key _ _)

/-- **C97, files that cannot be written**: an empty name is refused and a file that cannot be opened is left as
it is.  The report is the only one whose writing then still counts as successful. -/
theorem C97_unwritten (d : Design K) (canOpen : Bool) {name : Str} (file : Option Str) (tag : Str)
    (h : name = [] ∨ canOpen = false) :
    (saveDesignVectorAsCSVFile canOpen name file d).1 = file ∧
    (saveDesignVector canOpen name file d).1 = file ∧ (saveToAFile canOpen name file tag d).1 = file ∧
    (saveDesignVectorAsCSVFile canOpen name file d).2 ≠ .ok () ∧ (saveDesignVector canOpen name file d).2 ≠ .ok () ∧
    ((saveToAFile canOpen name file tag d).2 = .ok () ↔ name ≠ []) := by
  unfold saveDesignVectorAsCSVFile saveDesignVector saveToAFile
  by_cases hn : name = []
  · subst hn
    simp
  · have hc := h.resolve_left hn
    subst hc
    simp [hn]

/-- Writing a design without parameters in one line throws, and the file is empty afterwards. -/
theorem C97_empty {d : Design K} (h : d.params = []) {name : Str} (hname : name ≠ []) (file : Option Str) :
    saveDesignVectorAsCSVFile true name file d = (some [], .error .outOfRange) := by
  unfold saveDesignVectorAsCSVFile
  rw [if_neg hname, if_neg (by simp), h, csvText_nil]

-- Three parameters that need more than six digits.
set_option maxRecDepth 100000 in
example : (saveDesignVectorAsCSVFile true ['f'] none (Design.ofVec [(12345678 : ℚ), -1/3, 1/10^7])) =
      (some "12345678,-0.3333333333,1e-07".toList, .ok ()) ∧
    (saveDesignVector true ['f'] none (Design.ofVec [(12345678 : ℚ), -1/3, 1/10^7])) =
      (some "12345678\n-0.3333333333\n1e-07\n".toList, .ok ()) := by decide +kernel

example : ∃ f, saveDesignVectorAsCSVFile true ['f'] none (Design.ofVec [(12345678 : ℚ), -1/3, 1/10^7]) =
    (f, .ok ()) ∧ TellsRow f [(12345678 : ℚ), -1/3, 1/10^7] :=
  (C97_partial (Design.ofVec [(12345678 : ℚ), -1/3, 1/10^7]) (by simp) none).1 (by decide +kernel) (by decide)

/-! ## C98 -/

/-- The full claim: every message gets a heading of the given width. -/
def C98_full : Prop := ∀ (msg : Str) (c : Char) (width : Nat), width < 2 ^ 31 → msg.length < 2 ^ 31 →
  ∃ text, generateFormattedString msg c width = .ok text ∧ Centred text msg c width

/-- **C98** for messages that fit and even widths. -/
theorem C98_partial (msg : Str) (c : Char) {width : Nat} (hw : width < 2 ^ 31) (he : width % 2 = 0)
    (hm : msg.length + 2 ≤ width) :
    ∃ text, generateFormattedString msg c width = .ok text ∧ Centred text msg c width := by
  obtain ⟨h1, h2, h3⟩ := evenMessage_even msg
  have hfit : (evenMessage msg).length + 2 ≤ width := by
    omega
  unfold generateFormattedString
  rw [if_neg (by omega)]
  dsimp only
  rw [borderLength_fit hfit hw, if_neg (by omega), Int.toNat_natCast]
  refine ⟨_, rfl, (width - (evenMessage msg).length - 2) / 2,
    if msg.length % 2 = 1 then [' '] else [], by split_ifs <;> simp, ?_, ?_⟩
  · have : evenMessage msg = msg ++ if msg.length % 2 = 1 then [' '] else [] := by
      unfold evenMessage
      split_ifs <;> simp
    generalize hq : (width - (evenMessage msg).length - 2) / 2 = q
    rw [this]
    simp
  · simp only [List.length_append, List.length_replicate, List.length_cons]
    omega

/-- A message that does not fit throws, whatever the width. -/
theorem C98_throws {msg : Str} (c : Char) {width : Nat} (hm : msg.length + 1 < 2 ^ 31)
    (h : width < msg.length + 2) : generateFormattedString msg c width = .error .logicError := by
  obtain ⟨h1, h2, h3⟩ := evenMessage_even msg
  unfold generateFormattedString
  rw [if_neg (by omega)]
  dsimp only
  rw [if_pos (borderLength_long (by omega) (by omega))]

/-- **C98 fails** for long messages. -/
theorem C98_false : ¬ C98_full := by
  intro h
  obtain ⟨t, e, -⟩ := h (List.replicate 99 'a') '=' 100 (by norm_num) (by simp)
  rw [C98_throws (msg := List.replicate 99 'a') '=' (width := 100) (by simp) (by simp)] at e
  cases e

/-- **C98, the log message of a design** never throws and tells the design to six decimals, if its tag fits
into the heading. -/
theorem C98_log {d : Design K} (hd : d.params.length = d.dimension) {tag : Str} (ht : tag.length ≤ 98)
    (hn : '\n' ∉ tag) : ∃ text, generateOutputString tag d = .ok text ∧ TellsInLog text tag d := by
  obtain ⟨heading, e1, hc⟩ := C98_partial tag '-' (width := 100) (by norm_num) (by norm_num) (by omega)
  have e2 : parametersText d = .ok ((d.params.map fun x => fixedStr 6 x ++ [' ']).flatten) := by
    unfold parametersText
    rw [← hd, writeLoop (fixedStr 6) [' '] le_rfl, List.take_length]
  set ps := (d.params.map fun x => fixedStr 6 x ++ [' ']).flatten with hps
  set cs := (d.constraintTrueValues.map fun x => fixedStr 6 x ++ [' ']).flatten with hcs
  have e3 : constraintsText d = .ok (if d.constraintTrueValues = [] then [] else
      "Constraint values = \n".toList ++ cs ++ ['\n']) := by
    unfold constraintsText
    split_ifs with h1 h2 h2
    · rw [h2] at h1
      simp at h1
    · rw [writeLoop (fixedStr 6) [' '] le_rfl, List.take_length]
      rfl
    · rfl
    · exact absurd (List.length_pos_iff.2 h2) h1
  have hheading : '\n' ∉ heading := by
    obtain ⟨k, extra, hx, rfl, -⟩ := hc
    simp only [List.mem_append, List.mem_replicate, List.mem_singleton, not_or]
    refine ⟨⟨⟨⟨⟨by simp, by decide⟩, hn⟩, ?_⟩, by decide⟩, by simp⟩
    rcases hx with rfl | rfl <;> simp
  refine ⟨_, bind_eq e1 (bind_eq e2 (bind_eq e3 rfl)), heading, ps, fixedStr 6 d.trueValue, cs, hc,
    lineOf_text _, fixedStr_shows _, lineOf_text _, ?_⟩
  have hnum : '\n' ∉ fixedStr 6 d.trueValue := fun h => ((fixedStr_chars 6 d.trueValue).1 _ h).ne.2 rfl
  set o := fixedStr 6 d.trueValue with ho
  have hlines : ∀ l ∈ [heading, "Design parameters = ".toList, ps,
      "Objective function value : ".toList ++ o] ++
      (if d.constraintTrueValues = [] then [] else ["Constraint values = ".toList, cs]) ++
      [List.replicate 100 '-'], '\n' ∉ l := by
    intro l hl
    simp only [List.mem_append, List.mem_cons, List.not_mem_nil, or_false] at hl
    rcases hl with ((rfl | rfl | rfl | rfl) | hl) | rfl
    · exact hheading
    · decide
    · exact line_no_newline _
    · rw [List.mem_append]
      rintro (h | h)
      · exact absurd h (by decide)
      · exact hnum h
    · split_ifs at hl
      · cases hl
      · simp only [List.mem_cons, List.not_mem_nil, or_false] at hl
        rcases hl with rfl | rfl
        · decide
        · exact line_no_newline _
    · decide
  rw [← pieces_lines _ hlines]
  congr 1
  generalize hr : List.replicate 100 '-' = r
  split_ifs
  · simp [List.append_assoc]
  · simp [List.append_assoc]

/-- **C98 in the optimizer**: the message about the optimum of a history never throws. -/
theorem C98_optimum {g : GlobalDesign K} {A : Mat K} {n m : Nat} {F : Nat → Nat → K}
    (hA : IsMat A n m F) (hn : n ≠ 0)
    (hm : m = g.design.dimension + 1 + g.design.numberOfConstraints + 2) (hs : g.box.isSet = true)
    (hb : ValidBox g.design.dimension g.box.lb g.box.ub)
    (hv : ∀ i, i < n → FeasibleRow F m i → F i g.design.dimension < dblMax) :
    ∃ g' text, g.setFromHistory A = .ok g' ∧
      generateOutputString "Global optimum design".toList g'.design = .ok text ∧
      TellsInLog text "Global optimum design".toList g'.design := by
  obtain ⟨g', k, e, -, h2, h3, h4, -, d1, -⟩ := C28_partial hA hn hm hs hb hv
  obtain ⟨text, e1, e2⟩ := C98_log (d := g'.design) (tag := "Global optimum design".toList)
    (by rw [d1]; simp [h2]) (by decide) (by decide)
  exact ⟨g', text, e, e1, e2⟩

set_option maxRecDepth 100000 in
example : generateFormattedString "Optimizer settings".toList '=' 100 =
    .ok (List.replicate 40 '=' ++ " Optimizer settings ".toList ++ List.replicate 40 '=') := by decide +kernel

example : ∃ text, generateOutputString "Current Iterate".toList (Design.ofVec [(1 : ℚ), 2]) = .ok text ∧
    TellsInLog text "Current Iterate".toList (Design.ofVec [(1 : ℚ), 2]) :=
  C98_log rfl (by decide) (by decide)

end Rodeo
