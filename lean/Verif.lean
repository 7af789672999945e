import Verif.Basic
import Verif.Lemmas.Basic
import Verif.Spec.Box
import Verif.Model.Vec
import Verif.Model.Bounds
import Verif.Lemmas.Bounds
import Verif.Lemmas.Vec
import Verif.Props.Bounds
import Verif.Props.Vec
import Verif.Model.Mat
import Verif.Spec.Mat
import Verif.Lemmas.Mat
import Verif.Lemmas.MatEdit
import Verif.Lemmas.MatRead
import Verif.Lemmas.MatDelete
import Verif.Props.Mat
import Verif.Model.Solve
import Verif.Spec.LinSys
import Verif.Lemmas.Rep1
import Verif.Lemmas.LinAlg
import Verif.Lemmas.LU
import Verif.Lemmas.Chol
import Verif.Lemmas.Matrix
import Verif.Props.Solve
import Verif.Model.EAPop
import Verif.Model.EA
import Verif.Spec.EA
import Verif.Lemmas.Post
import Verif.Lemmas.EAPop
import Verif.Lemmas.EA
import Verif.Lemmas.EARun
import Verif.Lemmas.EAPoint
import Verif.Lemmas.EASelect
import Verif.Props.EA
import Verif.Props.EASelect
import Verif.Model.Text
import Verif.Model.CSV
import Verif.Spec.Text
import Verif.Lemmas.Text
import Verif.Lemmas.CSV
import Verif.Props.CSV
import Verif.Model.EAFile
import Verif.Spec.EAFile
import Verif.Lemmas.EAFile
import Verif.Props.EAFile
import Verif.Model.GradOpt
import Verif.Spec.Grad
import Verif.Lemmas.GradOpt
import Verif.Props.GradOpt
import Verif.Model.Design
import Verif.Model.History
import Verif.Model.InitHistory
import Verif.Spec.History
import Verif.Lemmas.History
import Verif.Lemmas.Crowding
import Verif.Lemmas.InitHistory
import Verif.Props.History
import Verif.Spec.Design
import Verif.Props.Design
import Verif.Model.TrustRegion
import Verif.Model.Rounding
import Verif.Model.AcqSearch
import Verif.Spec.Optimizer
import Verif.Spec.Search
import Verif.Lemmas.InPlace
import Verif.Lemmas.Rounding
import Verif.Lemmas.AcqSearch
import Verif.Props.TrustRegion
import Verif.Props.Rounding
import Verif.Props.AcqSearch
import Verif.Model.EGO
import Verif.Spec.EGO
import Verif.Lemmas.EGO
import Verif.Lemmas.EGOTotal
import Verif.Lemmas.EGOInit
import Verif.Lemmas.EGORun
import Verif.Props.EGO
import Verif.Model.Sampling
import Verif.Props.Sampling
import Verif.Model.Parse
import Verif.Spec.Parse
import Verif.Props.Parse
import Verif.Model.API
import Verif.Spec.API
import Verif.Lemmas.API
import Verif.Props.DoE
import Verif.Spec.Study
import Verif.Props.Study
import Verif.Props.StudySettings
import Verif.Model.Corr
import Verif.Spec.Corr
import Verif.Lemmas.Corr
import Verif.Lemmas.PSD
import Verif.Props.Corr
import Verif.Props.CorrPD
import Verif.Model.SurrogateData
import Verif.Spec.SurrogateData
import Verif.Lemmas.MatRows
import Verif.Lemmas.SurrogateData
import Verif.Props.SurrogateData
import Verif.Spec.Derivative
import Verif.Lemmas.Normalize
import Verif.Props.Normalize
import Verif.Model.Linear
import Verif.Spec.Regression
import Verif.Lemmas.Linear
import Verif.Props.Linear
import Verif.Model.Kriging
import Verif.Spec.Kriging
import Verif.Lemmas.Kriging
import Verif.Lemmas.DataConfig
import Verif.Lemmas.KrigingBuild
import Verif.Lemmas.KrigingTrain
import Verif.Props.Kriging
import Verif.Props.KrigingBuild
import Verif.Props.KrigingTrain
import Verif.Lemmas.KrigingHistory
import Verif.Props.KrigingHistory
import Verif.Props.Acquisition
import Verif.Model.Driver
import Verif.Spec.Driver
import Verif.Lemmas.Driver
import Verif.Lemmas.DriverAccept
import Verif.Props.Driver
import Verif.Props.DriverAccept
import Verif.Model.Evaluate
import Verif.Spec.Evaluate
import Verif.Spec.Simulation
import Verif.Lemmas.Evaluate
import Verif.Props.Evaluate
import Verif.Model.ModelTest
import Verif.Spec.ModelTest
import Verif.Lemmas.ModelTest
import Verif.Props.ModelTest
import Verif.Model.Surrogates
import Verif.Model.Campaign
import Verif.Spec.Campaign
import Verif.Spec.CampaignRun
import Verif.Lemmas.Surrogates
import Verif.Lemmas.Campaign
import Verif.Lemmas.CampaignRun
import Verif.Lemmas.CampaignLoop
import Verif.Lemmas.CampaignInit
import Verif.Lemmas.CampaignEnd
import Verif.Props.Campaign
import Verif.Props.OptimumFile
import Verif.Props.OptimumGradient
import Verif.Props.GradStep
import Verif.Props.Special
import Verif.Props.VecStat
import Verif.Props.DesignFile
import Verif.Model.Tester
import Verif.Spec.Tester
import Verif.Lemmas.Tester
import Verif.Lemmas.TesterKriging
import Verif.Props.Tester
import Verif.Spec.EALive
import Verif.Lemmas.EALive
import Verif.Props.EALive
import Verif.Spec.KrigingLive
import Verif.Lemmas.KrigingLive
import Verif.Props.KrigingLive
import Verif.Props.Restated
import Verif.Props.Heap
import Verif.Props.Units
import Verif.Props.Restart
import Verif.Props.WarmStart
import Verif.Props.Dbl
import Verif.Props.DblGrid
import Verif.Props.DblTrip
import Verif.Props.DblSum
import Verif.Props.DblChol
import Verif.Props.FnCopy
import Verif.Props.Race
import Verif.Props.DblCorr
import Verif.Props.AddData
import Verif.Props.Blas
import Verif.Props.BlasKriging
import Verif.Props.DblVar
import Verif.Props.DblAcq
import Verif.Props.DblLik
import Verif.Props.DblBlup
import Verif.Props.DblEA
import Verif.Props.DblLU
import Verif.Props.DblDoE
import Verif.Props.DblLinear
import Verif.Props.DblGrad
import Verif.Props.DblTrust
import Verif.Props.DblEARun
import Verif.Props.EAChild
import Verif.Props.DblCrowd
import Verif.Props.DblSigma
import Verif.Props.DblSplit
import Verif.Props.DblImp
