import Verif.Model.Driver
import Mathlib.Data.List.Forall2

/-! # What a configuration file says

Specification side of C62 and C81.  Texts are lists of characters; nothing of the search functions of the
model is used.  `a <:+: s` says that `a` occurs in `s`.  Of the model only the records that hold the settings
appear, and `Text.stoi` and `Text.stod`, which stand for the functions of the C++ library. -/

namespace Rodeo.Spec

open Text Driver

/-- The opening tag of an element. -/
def openTag (k : Str) : Str := ['<'] ++ k ++ ['>']

/-- The closing tag of an element. -/
def closeTag (k : Str) : Str := ['<', '/'] ++ k ++ ['>']

/-- The text `s` contains the element `<k>v</k>`, at the first opening tag, and there is no other
opening tag behind it. -/
def Element (s k v : Str) : Prop :=
  ∃ pre post, s = pre ++ openTag k ++ v ++ closeTag k ++ post ∧
    ¬ openTag k <:+: pre ∧ ¬ closeTag k <:+: v ∧ ¬ openTag k <:+: post

/-- The only opening tag `<k>` of the text `s` starts the section `<k>v</k>`. -/
def Section (s k v : Str) : Prop := Element s k v ∧ ¬ openTag k <:+: v

/-- `vs` are the contents of the successive elements `<k>…</k>` of `s`. -/
inductive Elements (k : Str) : Str → List Str → Prop where
  | none {s : Str} (h : ∀ pre post, s = pre ++ openTag k ++ post → ¬ openTag k <:+: pre →
      ¬ closeTag k <:+: post) : Elements k s []
  | cons {s pre v post : Str} {vs : List Str} (h0 : s = pre ++ openTag k ++ v ++ closeTag k ++ post)
      (h1 : ¬ openTag k <:+: pre) (h2 : ¬ closeTag k <:+: v) (h : Elements k post vs) :
      Elements k s (v :: vs)

/-- A text without its white space. -/
def stripped (v : Str) : Str := v.filter (fun c => !isSpace c)

/-- The keyword `k` is given in `s`, with the non-empty word `w`. -/
def Given (s k w : Str) : Prop := ∃ v, Element s k v ∧ w = stripped v ∧ w ≠ []

/-- The keyword `k` is not given in `s`: there is no element, or nothing in it. -/
def Missing (s k : Str) : Prop := ¬ openTag k <:+: s ∨ ∃ v, Element s k v ∧ stripped v = []

/-- The keyword `k` is given in `s`, with the integer `n`. -/
def Integer (s k : Str) (n : Int) : Prop := ∃ v, Element s k v ∧ stoi v = .ok n

/-- Two words are equal up to upper and lower case. -/
def SameWord (a b : Str) : Prop := a.map API.lower = b.map API.lower

section Numbers
variable {K : Type} [Field K] [LinearOrder K] [IsStrictOrderedRing K] [FloorRing K]

/-- The keyword `k` is given in `s`, with the number `x`. -/
def Number (s k : Str) (x : K) : Prop := ∃ v, Element s k v ∧ stod (stripped v) = .ok x

/-! ## General settings -/

/-- The settings of the section `general_settings`. -/
structure GeneralSet (s : Str) (c : Config K) : Prop where
  type : ∃ t, Given s "type".toList t ∧ SameWord t "optimization".toList
  dimension : Integer s "dimension".toList c.dimension
  positive : 0 < c.dimension
  evaluations : Integer s "number_of_function_evaluations".toList c.maxSamples
  evaluations_positive : 0 < c.maxSamples
  inner : ∀ n : Int, 0 ≤ n → Integer s "max_number_of_inner_iterations".toList n →
    (c.innerIterations : Int) = n
  threads : ∀ n : Int, 0 ≤ n → Integer s "number_of_threads".toList n → (c.threads : Int) = n
  threads_one : ¬ openTag "number_of_threads".toList <:+: s → c.threads = 1
  threads_positive : 0 < c.threads

/-! ## Parameters -/

/-- A parameter as the user describes it. -/
structure Param (K : Type) where
  name : Str
  discrete : Bool
  lb : K
  ub : K
  increment : K

/-- A bound or an increment: the number given, or `1e-13` if there is none. -/
def NumberOr (s k : Str) (x : K) : Prop :=
  Number s k x ∨ (¬ openTag k <:+: s ∧ x = 1 / 10 ^ 13)

/-- The content of an element `parameter`. -/
structure ParamSet (s : Str) (p : Param K) : Prop where
  name : Given s "name".toList p.name
  type : ∃ t, Given s "type".toList t ∧
    (if p.discrete then SameWord t "discrete".toList ∨ SameWord t "int".toList
      else SameWord t "continuous".toList ∨ SameWord t "real".toList)
  lb : NumberOr s "lower_bound".toList p.lb
  ub : NumberOr s "upper_bound".toList p.ub
  lt : p.lb < p.ub
  increment : p.discrete = true → NumberOr s "increment".toList p.increment ∧ 0 < p.increment ∧
    p.increment ≤ p.ub - p.lb

/-- The settings of the section `optimization_parameters`. -/
structure ParamsSet (s : Str) (ps : List (Param K)) (c : Config K) : Prop where
  each : ∃ texts, Elements "parameter".toList s texts ∧ List.Forall₂ ParamSet texts ps
  number : ps.length = c.dimension
  lb : c.lb = ps.map (·.lb)
  ub : c.ub = ps.map (·.ub)
  names : c.parameterNames = ps.map (·.name)
  distinct : (ps.map (·.name)).Nodup
  discrete : ∀ (i : Nat) (x : K), (i, x) ∈ c.discrete ↔
    ∃ p, ps[i]? = some p ∧ p.discrete = true ∧ x = p.increment
  order : c.discrete.Pairwise (fun a b => a.1 < b.1)

/-! ## Functions -/

/-- The surrogate model called `w`. -/
def ModelNamed (w : Str) (m : ModelKind) : Prop :=
  match m with
  | .ordinaryKriging =>
    SameWord w "default".toList ∨ SameWord w "kriging".toList ∨ SameWord w "ordinary_kriging".toList
  | .universalKriging => SameWord w "universal_kriging".toList
  | .gradientEnhanced => SameWord w "gradient_enhanced".toList
  | .tangentEnhanced => SameWord w "tangent_enhanced".toList

/-- The surrogate model asked for in `s`: ordinary Kriging if there is no word about it. -/
def ModelSet (s : Str) (m : ModelKind) : Prop :=
  (Missing s "surrogate_model_type".toList ∧ m = .ordinaryKriging) ∨
  ∃ w, Given s "surrogate_model_type".toList w ∧ ModelNamed w m

/-- The dimension and the box of a function are those of the study. -/
def SameBox (c : Config K) (f : FunctionSettings K) : Prop :=
  f.dim = c.dimension ∧ f.box.lb = c.lb ∧ f.box.ub = c.ub

/-- The settings of the section `objective_function`. -/
structure ObjectiveSet (s : Str) (c : Config K) : Prop where
  name : Given s "name".toList c.objective.definition.name
  design : Given s "design_vector_filename".toList c.objective.definition.designVectorFilename
  exe : Given s "executable_filename".toList c.objective.definition.executableName
  data : Given s "training_data_filename".toList c.objective.definition.trainingData
  output : Given s "output_filename".toList c.objective.definition.outputFilename
  model : ModelSet s c.objective.definition.model
  gradient : c.objective.definition.model = .gradientEnhanced →
    Given s "executable_filename_gradient".toList c.objective.definition.executableNameGradient ∧
    Given s "output_filename_gradient".toList c.objective.definition.outputGradientFilename ∧
    ¬ SameWord c.objective.definition.outputGradientFilename c.objective.definition.outputFilename
  iterations : ∀ n : Int, 0 ≤ n → Integer s "number_of_training_iterations".toList n →
    (c.objective.trainingIterations : Int) = n
  iterations_default : ¬ openTag "number_of_training_iterations".toList <:+: s →
    c.objective.trainingIterations = 10000
  box : SameBox c c.objective

/-- A word that switches something on. -/
def On (w : Str) : Prop :=
  ∃ y ∈ ["yes", "y", "on", "true", "enable", "enabled"], SameWord w y.toList

/-- The settings of one constraint. -/
structure ConstraintSet (c : Config K) (s : Str) (i : Nat) (x : ConstraintSettings K) : Prop where
  id : x.id = i
  name : Given s "name".toList x.name ∧ x.base.definition.name = x.name
  type : ∃ t, Given s "constraint_type".toList t ∧
    ((SameWord t "lt".toList ∧ x.inequality = ['<']) ∨
     ((SameWord t "gt".toList ∨ SameWord t "tt".toList) ∧ x.inequality = ['>']))
  value : Number s "constraint_value".toList x.value
  user : x.userDefined = true ↔ ∃ w, Given s "user_defined_function".toList w ∧ On w
  /-- only the first four constraints can be user defined functions -/
  place : x.userDefined = true → i < 4
  multi : x.base.definition.multiLevel = true ↔ ∃ w, Given s "multi_fidelity".toList w ∧ On w
  files : x.userDefined = false →
    Given s "design_vector_filename".toList x.base.definition.designVectorFilename ∧
    Given s "output_filename".toList x.base.definition.outputFilename ∧
    Given s "training_data_filename".toList x.base.definition.trainingData ∧
    (Given s "executable_filename".toList x.base.definition.executableName ∨
      (Missing s "executable_filename".toList ∧ x.base.definition.executableName = [])) ∧
    ModelSet s x.base.definition.model
  box : SameBox c x.base

/-- A line without the blanks at its ends. -/
def Trimmed (l t : Str) : Prop :=
  ∃ a b, l = a ++ t ++ b ∧ (∀ x ∈ a ++ b, x = ' ' ∨ x = '\t') ∧
    (∀ x, t.head? = some x ∨ t.getLast? = some x → x ≠ ' ' ∧ x ≠ '\t')

/-- A line that says nothing about where constraints begin and end. -/
def Plain (l : Str) : Prop :=
  ¬ openTag "constraint_function".toList <:+: l ∧ ¬ closeTag "constraint_function".toList <:+: l

/-- The lines of a file in which constraints begin and end on lines of their own, and the texts of the
constraints: the lines from the opening tag up to the line of the closing tag, without the blanks at
their ends. -/
inductive Blocks : List Str → List Str → Prop where
  | none {ls : List Str} (h : ∀ l ∈ ls, Plain l) : Blocks ls []
  | cons {ls out body rest ts texts : List Str} {first last : Str}
      (h0 : ls = out ++ first :: body ++ last :: rest) (h1 : ∀ l ∈ out, Plain l)
      (h2 : openTag "constraint_function".toList <:+: first)
      (h3 : ¬ closeTag "constraint_function".toList <:+: first)
      (h4 : ∀ l ∈ body, Plain l)
      (h5 : closeTag "constraint_function".toList <:+: last)
      (h6 : ¬ openTag "constraint_function".toList <:+: last)
      (h7 : List.Forall₂ Trimmed (first :: body) ts) (h : Blocks rest texts) :
      Blocks ls ((ts.map (· ++ ['\n'])).flatten :: texts)

/-- The constraints of the study are those of the file, in their order. -/
def ConstraintsSet (text : Str) (c : Config K) : Prop :=
  ∀ texts, Blocks (pieces '\n' text) texts → texts.length = c.constraints.length ∧
    ∀ (i : Nat) (t : Str) (x : ConstraintSettings K), texts[i]? = some t → c.constraints[i]? = some x →
      ConstraintSet c t i x

/-- What every accepted file guarantees of the settings. -/
def StudyConfigured (text : Str) (c : Config K) : Prop :=
  (∃ s, Section text "general_settings".toList s ∧ GeneralSet s c) ∧
  (∃ s ps, Section text "optimization_parameters".toList s ∧ ParamsSet s ps c) ∧
  (∃ s, Section text "objective_function".toList s ∧ ObjectiveSet s c) ∧
  ConstraintsSet text c

/-- The name given is the name of the study. -/
def NameSet (text : Str) (c : Config K) : Prop :=
  ∀ s w, Section text "general_settings".toList s → Given s "name".toList w → c.name = w

/-- The number of training iterations given for a constraint is the one it uses. -/
def IterationsSet (text : Str) (c : Config K) : Prop :=
  ∀ texts, Blocks (pieces '\n' text) texts →
    ∀ (i : Nat) (t : Str) (x : ConstraintSettings K) (n : Int), texts[i]? = some t →
      c.constraints[i]? = some x → 0 ≤ n → Integer t "number_of_training_iterations".toList n →
      (x.base.trainingIterations : Int) = n

/-- Bounds of all parameters are given. -/
def BoundsGiven (text : Str) : Prop :=
  ∀ s texts t, Section text "optimization_parameters".toList s → Elements "parameter".toList s texts →
    t ∈ texts → ∃ l u : K, Number t "lower_bound".toList l ∧ Number t "upper_bound".toList u

/-- No number of iterations or threads is negative. -/
def CountsGiven (text : Str) : Prop :=
  ∀ s n, Section text "general_settings".toList s → (Integer s "max_number_of_inner_iterations".toList n ∨
    Integer s "number_of_threads".toList n) → 0 ≤ n

/-! ## Correct files -/

/-- The keyword `k` is either not there or given once, with its closing tag. -/
def Readable (s k : Str) : Prop := ¬ openTag k <:+: s ∨ ∃ v, Element s k v

/-- The keyword `k` is either not there or given with an integer. -/
def ReadableInt (s k : Str) : Prop := ¬ openTag k <:+: s ∨ ∃ n, Integer s k n

/-- The keyword `k` is given with a positive integer. -/
def PositiveInt (s k : Str) (n : Nat) : Prop := Integer s k n ∧ 0 < n

/-- A correct section `general_settings` for a study with `d` parameters. -/
structure GeneralOk (s : Str) (d : Nat) : Prop where
  type : ∃ t, Given s "type".toList t ∧ SameWord t "optimization".toList
  dimension : PositiveInt s "dimension".toList d
  evaluations : ∃ n, PositiveInt s "number_of_function_evaluations".toList n
  name : Readable s "name".toList
  display : Readable s "display".toList
  inner : ReadableInt s "max_number_of_inner_iterations".toList
  threads : ¬ openTag "number_of_threads".toList <:+: s ∨ ∃ n, PositiveInt s "number_of_threads".toList n

/-- A correct element `parameter`. -/
def ParamOk (K : Type) [Field K] [LinearOrder K] [IsStrictOrderedRing K] [FloorRing K]
    (s name : Str) : Prop :=
  ∃ p : Param K, ParamSet s p ∧ p.name = name ∧ ∃ x : K, NumberOr s "increment".toList x

/-- A correct name of a surrogate model. -/
def ModelOk (s : Str) : Prop := ∃ m, ModelSet s m

/-- A correct section `objective_function`. -/
structure ObjectiveOk (s : Str) : Prop where
  words : ∀ k ∈ ["name", "design_vector_filename", "executable_filename", "training_data_filename",
    "output_filename"], ∃ w, Given s k.toList w
  readable : ∀ k ∈ ["multi_fidelity", "warm_start", "output_filename_gradient",
    "executable_filename_gradient", "executable_filename_tangent"], Readable s k.toList
  model : ModelOk s
  gradient : ModelSet s .gradientEnhanced → (∃ w, Given s "executable_filename_gradient".toList w) ∧
    ∃ w w', Given s "output_filename_gradient".toList w ∧ Given s "output_filename".toList w' ∧ ¬ SameWord w w'
  iterations : ReadableInt s "number_of_training_iterations".toList

/-- A correct text of the constraint number `i`: only the first four may use user defined functions. -/
structure ConstraintOk (K : Type) [Field K] [LinearOrder K] [IsStrictOrderedRing K] [FloorRing K]
    (s : Str) (i : Nat) : Prop where
  name : ∃ w, Given s "name".toList w
  type : ∃ t, Given s "constraint_type".toList t ∧ (SameWord t "lt".toList ∨ SameWord t "gt".toList)
  value : ∃ x : K, Number s "constraint_value".toList x
  readable : ∀ k ∈ ["multi_fidelity", "user_defined_function", "design_vector_filename", "warm_start",
    "output_filename", "output_filename_gradient", "executable_filename", "executable_filename_gradient",
    "executable_filename_tangent", "surrogate_model_type", "training_data_filename"], Readable s k.toList
  iterations : ReadableInt s "number_of_training_iterations".toList
  user : (∃ w, Given s "user_defined_function".toList w ∧ On w) → i < 4
  files : (¬ ∃ w, Given s "user_defined_function".toList w ∧ On w) →
    (∀ k ∈ ["design_vector_filename", "output_filename", "training_data_filename"], ∃ w, Given s k.toList w) ∧
    ModelOk s

/-- A correct configuration file. -/
def CorrectFile (K : Type) [Field K] [LinearOrder K] [IsStrictOrderedRing K] [FloorRing K]
    (text : Str) : Prop :=
  ∃ (g p o : Str) (params names blocks : List Str),
    Section text "general_settings".toList g ∧ GeneralOk g params.length ∧
    Section text "optimization_parameters".toList p ∧ Elements "parameter".toList p params ∧
    List.Forall₂ (ParamOk K) params names ∧ names.Nodup ∧
    Section text "objective_function".toList o ∧ ObjectiveOk o ∧
    Blocks (pieces '\n' text) blocks ∧ ∀ (i : Nat) (t : Str), blocks[i]? = some t → ConstraintOk K t i

end Numbers
end Rodeo.Spec
