import Verif.Model.Campaign
import Verif.Props.KrigingHistory
import Verif.Spec.EGO

/-! # Specification: optimizations with surrogate models and training data files -/

namespace Rodeo.Spec

open Text

/-- The settings of a function: a name, a training data file, a type of model that can be bound, dimension
and bounds, the definition. -/
structure FnSettings (s : SurrogateFn ℝ) (dim : Nat) (b : Bounds ℝ) : Prop where
  name : s.name ≠ []
  fileName : s.fileName ≠ []
  kind : s.kind ≠ .other
  dim99 : s.kind = .universal → dim ≤ 99
  dim : s.dim = dim
  box : s.box = b
  boundsSet : s.boundsSet = true
  definitionSet : s.definitionSet = true

/-- Has the model a linear trend? -/
def trendKind (kind : ModelKind) : Bool := decide (kind = .universal)

/-- The default nugget. -/
noncomputable def defaultNugget : ℝ := 1 / 10 ^ 12

/-- How the table `G` with `n'` rows comes from the table `F` with `n` rows by handing over the samples one
after the other: the old rows are there, every new row is one of the samples up to the digits in the file,
new rows differ from all rows before them in some entry, and every sample is close to some row. -/
structure Collected (dim : Nat) (samples : List (List ℝ)) (n : Nat) (F : Nat → Nat → ℝ) (n' : Nat)
    (G : Nat → Nat → ℝ) : Prop where
  le : n ≤ n'
  kept : ∀ i j, i < n → j < dim + 1 → G i j = F i j
  source : ∀ q, n ≤ q → q < n' → ∃ sample ∈ samples, sample.length = dim + 1 ∧
    ∀ j, j < dim + 1 → |G q j - vecFun sample j| ≤ 1 / 2 / 10 ^ 12 ∧ Decimals 12 (G q j)
  separated : ∀ p q, p < q → n ≤ q → q < n' → ∃ j, j < dim + 1 ∧
    1 / 10 ^ 4 - 1 / 2 / 10 ^ 12 < |G p j - G q j|
  complete : ∀ sample ∈ samples, sample.length = dim + 1 ∧ ∃ q, q < n' ∧ CloseTo dim G q sample
  few : n' ≤ n + samples.length

/-- Objective function (`none`) and constraints that are not user defined, which have surrogate models. -/
def HasModel (E : CampaignEnv ℝ) (key : Option Nat) : Prop :=
  key = none ∨ ∃ k c D, key = some k ∧ E.base.setup.problem.constraints[k]? = some c ∧ c.source = .data D

/-- The bounds of the problem, as the functions get them. -/
def boundsOf (E : CampaignEnv ℝ) : Bounds ℝ :=
  ⟨E.base.setup.problem.lb, E.base.setup.problem.ub, E.base.setup.problem.dimension, true⟩

/-- A training data file: its content and the table in it. -/
structure TrainingFile where
  text : Str
  rows : Nat
  table : Nat → Nat → ℝ

/-- A campaign that is set up properly.  `start` are the training data files at the beginning.  The settings
of the optimizer are as in `WellPosed`; every function with a surrogate model has a new Kriging model, the
bounds of the problem and a training data file of its own that exists, can be read and ends with a line
break. -/
structure ProperCampaign (E : CampaignEnv ℝ) (names : List Str) (m : Models ℝ)
    (start : Option Nat → TrainingFile) : Prop where
  fns : E.fns = realFns
  boxSet : E.base.setup.problem.boxSet = true
  box : ValidBox E.base.setup.problem.dimension E.base.setup.problem.lb E.base.setup.problem.ub
  discrete : DiscreteBox E.base.setup.problem.dimension E.base.setup.discrete
  few : FewValues E.base.setup.discrete
  constraints : ∀ (k : Nat) c, E.base.setup.problem.constraints[k]? = some c →
    (c.type = ['<'] ∨ c.type = ['>']) ∧ -10 ^ 15 ≤ c.target ∧ c.target ≤ 10 ^ 15 ∧ c.id = (k : Int)
  constraintNames : E.base.constraintNames.length = E.base.setup.problem.constraints.length ∧
    E.base.constraintNames.Nodup ∧ [] ∉ E.base.constraintNames
  names : names = [] ∨ names.length = E.base.setup.problem.dimension
  functions : ∀ key, HasModel E key →
    FnSettings (m.fn key) E.base.setup.problem.dimension (boundsOf E) ∧ (m.fn key).krig = Kriging.new
  files : ∀ key, HasModel E key → m.file key = some (start key).text ∧
    (start key).text.getLast? = some '\n' ∧
    DataFile (some (start key).text) (start key).rows E.base.setup.problem.dimension (start key).table
  distinct : ∀ key key', HasModel E key → HasModel E key' →
    (m.fn key).fileName = (m.fn key').fileName → key = key'
  shuffles : ∀ i key n, (E.permInit i key n).Perm (List.range n) ∧
    (E.permInitL i key n).Perm (List.range n) ∧ (E.permAdd i key n).Perm (List.range n) ∧
    (E.permAddL i key n).Perm (List.range n)
  draws : ∀ i key t, Draws (E.draws i key t)
  howOften : E.base.howOften ≠ 0
  maxSamples : E.base.maxSamples ≠ 0
  fuel : 27 ≤ E.base.fuel
  complete : ∀ n i j, 0 ≤ (E.base.search n).complete i j ∧ (E.base.search n).complete i j < 1
  around : ∀ n i j, 0 ≤ (E.base.search n).around i j ∧ (E.base.search n).around i j < 1

/-- User defined constraints (and 0) are numbers. -/
structure Sane (E : EGOEnv ℝ) : Prop where
  user : ∀ c ∈ E.setup.problem.constraints, ∀ f x, c.source = .user f → E.isNan (f x) = false
  zero : E.isNan 0 = false

/-- The simulations of iteration `n` deliver numbers. -/
structure DeliversAt (E : EGOEnv ℝ) (n : Nat) : Prop where
  objective : ∀ x, ∃ v, E.objective n x = .ok v ∧ E.isNan v = false
  constraint : ∀ k x, ∃ v, E.constraint n k x = .ok v ∧ E.isNan v = false

/-- The simulation of the objective function or of a constraint in iteration `n` fails: it throws or
delivers NaN. -/
def FailsAt (E : EGOEnv ℝ) (n : Nat) : Prop :=
  (∀ x v, E.objective n x = .ok v → E.isNan v = true) ∨
  ∃ k c D, E.setup.problem.constraints[k]? = some c ∧ c.source = .data D ∧
    ∀ x v, E.constraint n k x = .ok v → E.isNan v = true

/-- All simulations deliver numbers. -/
structure Delivers (E : EGOEnv ℝ) : Prop where
  sane : Sane E
  at_ : ∀ n, DeliversAt E n

/-- The samples of one function among all samples. -/
def samplesOf (key : Option Nat) (l : List (Option Nat × List ℝ)) : List (List ℝ) :=
  l.filterMap fun p => if p.1 = key then some p.2 else none

/-- What the training data files and the other files must be after the samples `l` have been handed over, one
after the other: only the training data files have changed, by rows that were appended, and these are the
samples. -/
structure FilesAfter (E : CampaignEnv ℝ) (m0 : Models ℝ) (start : Option Nat → TrainingFile)
    (l : List (Option Nat × List ℝ)) (files : Files) : Prop where
  others : ∀ name, (∀ key, HasModel E key → name ≠ (m0.fn key).fileName) → files name = m0.files name
  data : ∀ key, HasModel E key → ∃ text n G, files (m0.fn key).fileName = some text ∧
    (start key).text <+: text ∧ text.getLast? = some '\n' ∧
    DataFile (some text) n E.base.setup.problem.dimension G ∧
    Collected E.base.setup.problem.dimension (samplesOf key l) (start key).rows (start key).table n G

/-- Every surrogate model predicts from the rows of its training data file. -/
def ModelsFollow (E : CampaignEnv ℝ) (m : Models ℝ) : Prop :=
  ∀ key, HasModel E key → ∃ n G, DataFile (m.file key) n E.base.setup.problem.dimension G ∧
    PredictsFrom (m.fn key).krig n E.base.setup.problem.dimension G (boundsOf E)
      (trendKind (m.fn key).kind) defaultNugget

/-- The parameters `x` were found by a search with the acquisition function of the models. -/
def ProposedBy (E : CampaignEnv ℝ) (m : Models ℝ) (s : EGOState ℝ) (x : List ℝ) : Prop :=
  ∃ norm, findDesignToSimulate (Campaign.acqOf E m s) E.base.setup E.base.fuel
    s.global.design.paramsNormalized s.tr.length (E.base.search (s.iteration + 1)) = .ok (norm, x)

end Rodeo.Spec
