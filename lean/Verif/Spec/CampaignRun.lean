import Verif.Spec.Campaign
import Verif.Props.EGO

/-! # Specification: what an optimization with surrogate models and training data files is to do -/

namespace Rodeo.Spec

open Text EGO

/-- The training data files after the samples of the designs `ds`. -/
def FilesOf (E : CampaignEnv ℝ) (m0 : Models ℝ) (start : Option Nat → TrainingFile) (ds : List (Design ℝ))
    (files : Files) : Prop :=
  FilesAfter E m0 start (ds.flatMap (newSamples E.base)) files

/-- The bookkeeping of the optimizer after the designs `ds`: all of them and nothing else are in the history,
in the list of calls and in the list of samples, and the optimum is the best row of the history. -/
def BookOf (E : CampaignEnv ℝ) (start : Option Nat → TrainingFile) (s : EGOState ℝ) (ds : List (Design ℝ)) :
    Prop :=
  Completed { E.base with maxSamples := ds.length } (start none).rows (start none).table s ds

/-- How a design was found: at that time the bookkeeping, the files and the models were those of the
designs before it; the search used the acquisition function of these models, with an exploration factor
between 1 and 100 if the initial designs are not all the same. -/
def Found (E : CampaignEnv ℝ) (m0 : Models ℝ) (start : Option Nat → TrainingFile) (before : List (Design ℝ))
    (x : List ℝ) : Prop :=
  ∃ (s1 : EGOState ℝ) (m1 : Models ℝ), BookOf E start s1 before ∧ s1.iteration = before.length ∧
    FilesOf E m0 start before m1.files ∧ ModelsFollow E m1 ∧ ProposedBy E m1 s1 x ∧
    ((∀ n, 2 ≤ (E.base.sigmaDraw n).2) →
      0 < reportedCrowding (start none).rows E.base.setup.problem.dimension (start none).table →
      ∃ y, s1.sigma = .fin y ∧ 1 ≤ y ∧ y ≤ 100)

/-- The end of an optimization that simulated the designs `ds`: all are done, or the training of a model in
the next iteration threw, or the next simulation failed. -/
inductive EndOf (E : CampaignEnv ℝ) (m0 : Models ℝ) (start : Option Nat → TrainingFile) (ds : List (Design ℝ)) :
    CampaignState ℝ × Res Unit → Prop where
  | completed (s : EGOState ℝ) (m : Models ℝ) (count : ds.length = E.base.maxSamples)
      (book : BookOf E start s ds) : EndOf E m0 start ds ((s, m), .ok ())
  | training (s : EGOState ℝ) (m m1 : Models ℝ) (e : Err) (count : ds.length < E.base.maxSamples)
      (due : (ds.length + 1) % E.base.howOften = 1) (book : BookOf E start s ds)
      (files : FilesOf E m0 start ds m1.files)
      (threw : Campaign.trainSurrogates E (ds.length + 1) m1 = (m, .error e)) :
      EndOf E m0 start ds ((s, m), .error e)
  | simulation (s1 s : EGOState ℝ) (m : Models ℝ) (x : List ℝ) (e : Err)
      (count : ds.length < E.base.maxSamples) (fails : FailsAt E.base (ds.length + 1))
      (book : BookOf E start s1 ds) (samples : s.samples = s1.samples) (history : s.history = s1.history)
      (optimum : s.global = s1.global) (calls : s.calls = s1.calls ++ [x])
      (found : Found E m0 start ds x) : EndOf E m0 start ds ((s, m), .error e)

/-- An optimization with the outcome `p` that simulated the designs `ds`. -/
structure RunOf (E : CampaignEnv ℝ) (m0 : Models ℝ) (start : Option Nat → TrainingFile)
    (p : CampaignState ℝ × Res Unit) (ds : List (Design ℝ)) : Prop where
  designs : ∀ (i : Nat) d, ds[i]? = some d → Simulated E.base (i + 1) d ∧
    ¬ FailsAt E.base (i + 1) ∧ Found E m0 start (ds.take i) d.params
  files : FilesOf E m0 start ds p.1.2.files
  models : ModelsFollow E p.1.2
  ended : EndOf E m0 start ds p

end Rodeo.Spec
