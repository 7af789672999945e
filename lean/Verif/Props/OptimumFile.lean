import Verif.Lemmas.OptimumFile
import Verif.Props.History

/-! # C96: the file of the global optimum -/

set_option linter.unusedSectionVars false

namespace Rodeo
open Text Spec OptimumFile

variable {K : Type} [Field K] [LinearOrder K] [IsStrictOrderedRing K] [FloorRing K]

/-- The full claim: the file tells the optimum, and the objective value in it is the exact one. -/
def C96_full (K : Type) [Field K] [LinearOrder K] [IsStrictOrderedRing K] [FloorRing K] : Prop :=
  ∀ (g : GlobalDesign K) (file : Option Str), g.design.params ≠ [] → 0 ≤ g.design.id →
    g.design.id < 2 ^ 31 → ∃ text, saveToXMLFile true file g = (some text, .ok ()) ∧
      Tells text g.design ∧ Driver.getDouble text "ObjectiveFunction".toList = .ok g.design.trueValue

/-- **C96** up to six decimals: whatever the file was before, afterwards it tells the optimum. -/
theorem C96_partial {g : GlobalDesign K} (hp : g.design.params ≠ []) (h0 : 0 ≤ g.design.id)
    (h1 : g.design.id < 2 ^ 31) (file : Option Str) :
    ∃ text, saveToXMLFile true file g = (some text, .ok ()) ∧ Tells text g.design := by
  refine ⟨text g.design, ?_, tells_text h0 h1⟩
  unfold saveToXMLFile
  rw [if_neg (by simp), generateXmlString_ok hp]

/-- **C96, success**: whatever the file was and whether it can be opened or not: if the call reports success, the
file tells the optimum; if it fails, a file that could not be opened is as before. -/
theorem C96_success {g : GlobalDesign K} (h0 : 0 ≤ g.design.id) (h1 : g.design.id < 2 ^ 31) (canOpen : Bool)
    (file : Option Str) {f : Option Str} {r : Res Unit} (h : saveToXMLFile canOpen file g = (f, r)) :
    (r = .ok () → ∃ text, f = some text ∧ Tells text g.design) ∧
    (canOpen = false → f = file ∧ r = .error .runtimeError) := by
  unfold saveToXMLFile at h
  cases canOpen with
  | false =>
    rw [if_pos rfl] at h
    cases h
    exact ⟨fun h => (nomatch h), fun _ => ⟨rfl, rfl⟩⟩
  | true =>
    rw [if_neg (by simp)] at h
    refine ⟨fun hr => ?_, fun h => (nomatch h)⟩
    by_cases hp : g.design.params = []
    · have e : generateXmlString g = .error .abort := by
        have e' : generateXmlVector "DesignParameters".toList g.design.params = .error .abort := by
          unfold generateXmlVector
          rw [hp]; rfl
        unfold generateXmlString
        rw [e']; rfl
      rw [e] at h
      cases h
      cases hr
    · rw [generateXmlString_ok hp] at h
      cases h
      exact ⟨_, rfl, tells_text h0 h1⟩

/-- **C96 fails** exactly: an objective value of 1e-7 is zero in the file. -/
theorem C96_false : ¬ C96_full ℚ := by
  intro h
  obtain ⟨t, h1, -, h3⟩ := h ⟨{ Design.ofVec [(0 : ℚ)] with trueValue := 1 / 10 ^ 7 }, ⟨[0], [2], 1, true⟩⟩ none
    (by decide +kernel) (by decide +kernel) (by decide +kernel)
  have e : saveToXMLFile true none (⟨{ Design.ofVec [(0 : ℚ)] with trueValue := 1 / 10 ^ 7 },
      ⟨[0], [2], 1, true⟩⟩ : GlobalDesign ℚ) = (some (text
        { Design.ofVec [(0 : ℚ)] with trueValue := 1 / 10 ^ 7 }), .ok ()) := by
    unfold saveToXMLFile
    rw [if_neg (by simp), generateXmlString_ok (by decide +kernel)]
  rw [e] at h1
  obtain rfl := Option.some.inj (Prod.ext_iff.1 h1).1
  exact absurd h3 (by decide +kernel)

/-- **C96 for histories**: the file written after the optimum has been determined from a history tells
the number, parameters, objective value, constraint values and feasibility of the best row. -/
theorem C96_history {g : GlobalDesign K} {A : Mat K} {n m : Nat} {F : Nat → Nat → K}
    (hA : IsMat A n m F) (hn : n ≠ 0) (hn' : n < 2 ^ 31)
    (hm : m = g.design.dimension + 1 + g.design.numberOfConstraints + 2) (hs : g.box.isSet = true)
    (hb : ValidBox g.design.dimension g.box.lb g.box.ub)
    (hv : ∀ i, i < n → FeasibleRow F m i → F i g.design.dimension < dblMax) (file : Option Str) :
    ∃ g' text k flag, g.setFromHistory A = .ok g' ∧ saveToXMLFile true file g' = (some text, .ok ()) ∧
      IsOptimum F n m g.design.dimension k flag ∧
      Driver.getInteger text "DesignID".toList = .ok (k : Int) ∧
      (∃ y, Driver.getDouble text "ObjectiveFunction".toList = .ok y ∧
        SixDecimals (F k g.design.dimension) y) ∧
      (∃ ys, getDoubles text "DesignParameters".toList = .ok ys ∧
        List.Forall₂ SixDecimals ((List.range g.design.dimension).map (F k)) ys) ∧
      (∃ ys, getDoubles text "ConstraintValues".toList = .ok ys ∧
        List.Forall₂ SixDecimals ((List.range g.design.numberOfConstraints).map
          fun i => F k (g.design.dimension + 1 + i)) ys) ∧
      Driver.getString text "Feasibility".toList = .ok (if flag then "YES".toList else "NO".toList) := by
  obtain ⟨g', k, e, -, h2, h3, h4, d1, d2, d3, d4, -, -⟩ := C28_partial hA hn hm hs hb hv
  have hk := h4.1
  obtain ⟨text, t1, t2⟩ := C96_partial (g := g') (by
      rw [d2, h2]
      intro h
      have := congrArg List.length h
      simp only [List.length_map, List.length_range, List.length_nil] at this
      have := hb.1
      omega) (by rw [d1]; omega) (by rw [d1]; omega) file
  refine ⟨g', text, k, g'.design.feasible, e, t1, h4, by rw [← d1]; exact t2.id, ?_, ?_, ?_, t2.feasible⟩
  · rw [← h2, ← d3]; exact t2.value
  · rw [← h2, ← d2]; exact t2.params
  · rw [← h2, ← h3, ← d4]; exact t2.constraints

/-- The optimum of three rows, in an existing file. -/
example : (HistDemo.g.setFromHistory HistDemo.A).map (fun g => saveToXMLFile true (some "old".toList) g) =
    .ok (some ("<GlobalOptimalDesign>\n<DesignID>2</DesignID>\n" ++
      "<ObjectiveFunction>6.000000</ObjectiveFunction>\n<DesignParameters>\n\t<item>0.500000</item>\n" ++
      "</DesignParameters>\n<Feasibility>YES</Feasibility>\n</GlobalOptimalDesign>\n").toList, .ok ()) := by
  decide +kernel

/-- A list written by the program is read back. -/
theorem C96_list {name : Str} {data : List K} (h1 : '<' ∉ name) (h2 : '>' ∉ name) (h3 : name ≠ [])
    (h4 : name ≠ "item".toList) (h5 : data ≠ []) :
    ∃ text ys, generateXmlVector name data = .ok text ∧ getDoubles text name = .ok ys ∧
      List.Forall₂ SixDecimals data ys := by
  obtain ⟨ys, k1, k2⟩ := values_items idle_newline data
  refine ⟨_, ys, generateXmlVector_ok h5, ?_, k2⟩
  have hk : Name name := ⟨h1, h2⟩
  have hk' : Name ('/' :: name) := ⟨by simp [h1], by simp [h2]⟩
  have := getDoubles_list (K := K) (k := name) (pre := []) (v := ['\n'] ++ items data) (post := []) hk h3
    (noTag_nil _) (by
      rw [endTag_tag]
      refine noTag_tag hk' hk ?_ (noTag_char (by decide) ?_)
      · intro h
        have := congrArg List.length h
        simp at this
      · have := noTag_items hk' (k := '/' :: name) (by simp) (by simpa using h4) (noTag_nil _) data
        simpa using this)
  rw [k1] at this
  rw [← this]
  simp

example : ∃ text, generateXmlVector "x".toList [(1 : ℚ) / 3, -2] = .ok text ∧
    getDoubles text "x".toList = .ok [(333333 : ℚ) / 10 ^ 6, -2] :=
  ⟨"<x>\n\t<item>0.333333</item>\n\t<item>-2.000000</item>\n</x>".toList, by decide +kernel⟩

/-- A list of strings as a user writes it: in front of every item some text, at the end some text. -/
def Spec.itemList (l : List (Str × Str)) (last : Str) : Str :=
  (l.map fun p => p.1 ++ "<item>".toList ++ p.2 ++ "</item>".toList).flatten ++ last

theorem OptimumFile.itemLoop_ok {last : Str} (hlast : '<' ∉ last) :
    ∀ (l : List (Str × Str)) (before : Str) (n : Nat), (∀ p ∈ l, '<' ∉ p.1 ∧ '<' ∉ p.2) → l.length < n →
      itemLoop (before ++ itemList l last) n before.length = l.map (fun p => Parse.removeSpaces p.2) := by
  have hi : Name "item".toList := by decide
  have he : Name ('/' :: "item".toList) := by decide
  intro l
  induction l with
  | nil =>
    intro before n _ hn
    obtain ⟨n, rfl⟩ := Nat.exists_eq_succ_of_ne_zero (by omega : n ≠ 0)
    unfold itemLoop
    rw [Driver.findFrom_append rfl, Driver.find?_none.2]
    · rfl
    · have := noTag_text (k := "item".toList) hlast (noTag_nil _)
      simpa [itemList] using this
  | cons p l ih =>
    intro before n hl hn
    obtain ⟨n, rfl⟩ := Nat.exists_eq_succ_of_ne_zero (by omega : n ≠ 0)
    obtain ⟨h1, h2⟩ := hl p (by simp)
    have e1 : itemList (p :: l) last = p.1 ++ (Driver.tag "item".toList ++ (p.2 ++
        (Driver.endTag "item".toList ++ itemList l last))) := by
      simp [itemList, Driver.tag, Driver.endTag]
    unfold itemLoop
    have f1 : Driver.findFrom (before ++ itemList (p :: l) last) (Driver.tag "item".toList) before.length =
        some (before ++ p.1).length := by
      rw [Driver.findFrom_append rfl, e1, find_tag_first hi]
      · simp [Nat.add_comm]
      · have := noTag_text (k := "item".toList) h1 (noTag_nil _)
        simpa using this
    have e2 : before ++ itemList (p :: l) last = (before ++ p.1) ++ (Driver.tag "item".toList ++ (p.2 ++
        (Driver.endTag "item".toList ++ itemList l last))) := by
      rw [e1]; simp
    have f2 : Driver.findFrom (before ++ itemList (p :: l) last) (Driver.endTag "item".toList)
        (before ++ p.1).length = some (before ++ p.1 ++ (Driver.tag "item".toList ++ p.2)).length := by
      rw [e2, Driver.findFrom_append rfl, endTag_tag, ← List.append_assoc (Driver.tag _) p.2,
        find_tag_first he]
      · simp only [Option.map_some, List.length_append, Option.some.injEq]
        omega
      · refine noTag_tag he hi (by decide) ?_
        have := noTag_text (k := '/' :: "item".toList) h2 (noTag_nil _)
        simpa using this
    rw [f1]
    dsimp only
    rw [f2]
    dsimp only
    have g1 : Parse.substr (before ++ itemList (p :: l) last) ((before ++ p.1).length + 6)
        ((before ++ p.1 ++ (Driver.tag "item".toList ++ p.2)).length - (before ++ p.1).length - 6) = p.2 := by
      have t6 : (Driver.tag "item".toList).length = 6 := rfl
      rw [e2]
      have := Driver.substr_mid (before ++ p.1 ++ Driver.tag "item".toList) p.2
        (Driver.endTag "item".toList ++ itemList l last)
      have l1 : (before ++ p.1).length + 6 = (before ++ p.1 ++ Driver.tag "item".toList).length := by
        rw [List.length_append (as := before ++ p.1), t6]
      have l2 : (before ++ p.1 ++ (Driver.tag "item".toList ++ p.2)).length - (before ++ p.1).length - 6 =
          p.2.length := by
        rw [List.length_append (as := before ++ p.1), List.length_append (as := Driver.tag _), t6]
        omega
      rw [l1, l2]
      refine Eq.trans ?_ this
      congr 1
      simp only [List.append_assoc]
    rw [g1, List.map_cons]
    congr 1
    have e3 : before ++ itemList (p :: l) last = (before ++ p.1 ++ (Driver.tag "item".toList ++ p.2) ++
        Driver.endTag "item".toList) ++ itemList l last := by
      rw [e1]; simp
    have l3 : (before ++ p.1 ++ (Driver.tag "item".toList ++ p.2)).length + 7 =
        (before ++ p.1 ++ (Driver.tag "item".toList ++ p.2) ++ Driver.endTag "item".toList).length := by
      rw [List.length_append (bs := Driver.endTag "item".toList)]
      rfl
    rw [e3, l3]
    exact ih _ n (fun q hq => hl q (by simp [hq])) (by simpa using hn)

/-- A list of strings in a text is read: the contents of its items in order, without blanks. -/
theorem C96_strings {name pre post last : Str} {l : List (Str × Str)} (h1 : '<' ∉ name)
    (h2 : '>' ∉ name) (h3 : name ≠ []) (h4 : ¬ Driver.tag name <:+: pre)
    (h5 : ¬ Driver.endTag name <:+: pre ++ (Driver.tag name ++ itemList l last))
    (h6 : ∀ p ∈ l, '<' ∉ p.1 ∧ '<' ∉ p.2) (h7 : '<' ∉ last) :
    getStrings (pre ++ (Driver.tag name ++ (itemList l last ++ (Driver.endTag name ++ post)))) name =
      .ok (l.map fun p => p.2.filter fun c => !Text.isSpace c) := by
  have hk : Name name := ⟨h1, h2⟩
  have hk' : Name ('/' :: name) := ⟨by simp [h1], by simp [h2]⟩
  generalize hv : itemList l last = v at h5 ⊢
  unfold getStrings
  rw [if_neg (by simp [Driver.tag]), if_neg h3, Driver.findFrom_zero, Driver.findFrom_zero,
    find_tag_first hk h4]
  have e : pre ++ (Driver.tag name ++ (v ++ (Driver.endTag name ++ post))) =
      (pre ++ (Driver.tag name ++ v)) ++ (Driver.endTag name ++ post) := by
    simp
  have f2 : Driver.find? (Driver.endTag name) (pre ++ (Driver.tag name ++ (v ++ (Driver.endTag name ++ post)))) =
      some (pre ++ (Driver.tag name ++ v)).length := by
    rw [e]
    exact find_tag_first hk' h5
  rw [f2]
  dsimp only
  rw [if_pos (by simp [Driver.tag])]
  have e2 : pre ++ (Driver.tag name ++ (v ++ (Driver.endTag name ++ post))) =
      (pre ++ Driver.tag name) ++ v ++ (Driver.endTag name ++ post) := by
    simp
  have e4 : pre.length + (Driver.tag name).length = (pre ++ Driver.tag name).length := by simp
  have e3 : (pre ++ (Driver.tag name ++ v)).length - (pre ++ Driver.tag name).length = v.length := by
    simp only [List.length_append]
    omega
  rw [e4, e2, e3, Driver.substr_mid, ← hv]
  have := itemLoop_ok h7 l [] ((itemList l last).length + 1) h6 (by
    have : l.length ≤ (itemList l last).length := by
      clear hv h5 h6
      induction l with
      | nil => simp
      | cons p l ih =>
        have : (itemList (p :: l) last).length = p.1.length + 6 + p.2.length + 7 + (itemList l last).length := by
          simp [itemList]
          omega
        rw [this, List.length_cons]
        omega
    omega)
  rw [show ([] : Str) ++ itemList l last = itemList l last from rfl] at this
  exact congrArg _ this

/-- A text without the start tag has no strings; an empty text or name is refused. -/
theorem C96_strings_missing {s name : Str} :
    (s ≠ [] → name ≠ [] → ¬ Driver.tag name <:+: s → getStrings s name = .ok []) ∧
    (s = [] ∨ name = [] → getStrings s name = .error .invalidArgument) := by
  constructor
  · intro hs h0 h
    unfold getStrings
    rw [if_neg hs, if_neg h0, Driver.findFrom_zero, Driver.findFrom_zero, Driver.find?_none.2 h]
  · rintro (rfl | rfl)
    · rfl
    · unfold getStrings
      rw [if_pos rfl]; split_ifs <;> rfl

example : getStrings "a<n> <item>one two</item>, <item>b</item></n>z".toList "n".toList =
    .ok ["onetwo".toList, "b".toList] ∧
    itemList [(" ".toList, "one two".toList), (", ".toList, "b".toList)] [] =
      " <item>one two</item>, <item>b</item>".toList := by decide +kernel

end Rodeo
