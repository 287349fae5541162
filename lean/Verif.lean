import Verif.Props.PSO
import Verif.Props.DE
import Verif.Props.SFSamplers
import Verif.Props.MFSamplers
import Verif.Props.Kernels
import Verif.Props.GP
import Verif.Props.MFKriging
import Verif.Props.CoKriging
import Verif.Props.BayesOpt
import Verif.Props.Likelihood
import Verif.Props.Acquisitions
import Verif.Props.EvolutionaryRaise
import Verif.Props.GPOptimizers
import Verif.Props.Problems
import Verif.Props.Optima
import Verif.Props.BOAssembled
import Verif.Props.GPObjects
import Verif.Props.Rounded
import Verif.Props.EvolutionaryHeap
import Verif.Props.BestPrediction
import Verif.Props.CoKrigingPrediction
import Verif.Props.Units
import Verif.Props.InputUnits
import Verif.Props.Batch
import Verif.Props.SampleOrder
import Verif.Props.MFTrains
import Verif.Model.MFObjects
import Verif.Lemmas.MFObjects
import Verif.Props.MFObjects
import Verif.Props.MFRuns
import Verif.Model.HKObjects
import Verif.Lemmas.HKObjects
import Verif.Props.HKObjects
import Verif.Model.CKObjects
import Verif.Lemmas.CKObjects
import Verif.Props.CKObjects
import Verif.Props.Evaluated
import Verif.Props.Resampling
import Verif.Props.Continuity
import Verif.Props.SearchSolvable
import Verif.Props.ResamplingExample
import Verif.Props.SearchSolvableMF
import Verif.Props.MaxLikelihood
import Verif.Props.RunRelations
import Verif.Props.ArrayShapes
import Verif.Props.SampleShapes
import Verif.Model.StoredLikelihood
import Verif.Props.StoredLikelihood
import Verif.Props.FarAway
import Verif.Props.LowFidelityUnits
import Verif.Props.Uniform
import Verif.Spec.BOUnits
import Verif.Props.BOUnits
import Verif.Props.MFBOUnits
import Verif.Spec.Trend
import Verif.Props.TrendReproduction
import Verif.Model.SamplerObjects
import Verif.Spec.SamplerObjects
import Verif.Lemmas.SamplerObjects
import Verif.Props.SamplerObjects
import Verif.Model.BayesOptHeap
import Verif.Spec.BayesOptHeap
import Verif.Lemmas.BayesOptHeap
import Verif.Props.BayesOptHeap
import Verif.Lemmas.TradeOff
import Verif.Props.TradeOff
import Verif.Model.StepResults
import Verif.Spec.StepResults
import Verif.Lemmas.StepResults
import Verif.Props.StepResults
import Verif.Props.VariableOrder
import Verif.Props.VariableOrderGP
import Verif.Props.VariableOrderMF
import Verif.Props.SobolBlocks
import Verif.Props.ProblemColumns
import Verif.Props.Bumpiness
import Verif.Model.Figures
import Verif.Spec.Figures
import Verif.Props.Figures
import Verif.Model.UpdateModel
import Verif.Props.UpdateModel
import Verif.Model.EvolutionaryNaN
import Verif.Props.NaNValues
import Verif.Model.SamplerArgs
import Verif.Props.SamplerArgs
import Verif.Props.SamplerArgsMF
import Verif.Props.SamplerUnits
import Verif.Spec.BOInputUnits
import Verif.Props.BOInputUnits
import Verif.Props.MFBOInputUnits
import Verif.Model.NonFinite
import Verif.Model.BayesOptNonFinite
import Verif.Spec.NonFinite
import Verif.Props.NonFinite
import Verif.Props.BayesOptNonFinite
import Verif.Model.BOReports
import Verif.Spec.BOReports
import Verif.Props.BOReports
import Verif.Spec.ConsIncumbent
import Verif.Props.ConsIncumbent
import Verif.Spec.ConsUnits
import Verif.Props.ConsUnits
import Verif.Model.Constructors
import Verif.Spec.KernelBounds
import Verif.Props.KernelBounds
import Verif.Spec.CostRatio
import Verif.Props.CostRatio
import Verif.Props.ScaledShapes
import Verif.Props.MFLatin
import Verif.Props.LowFidelityOnly
import Verif.Props.Stagnation
import Verif.Model.NonFinitePredict
import Verif.Props.NonFinitePredict
import Verif.Spec.NativeSpace
import Verif.Props.NativeSpace
import Verif.Spec.Untrained
import Verif.Props.Untrained
import Verif.Props.ScaleFactor
import Verif.Props.KronDelta
import Verif.Spec.ConsReport
import Verif.Props.ConsReport
import Verif.Spec.Minima
import Verif.Props.Minima
import Verif.Spec.ConstraintOrder
import Verif.Props.ConstraintOrder
import Verif.Model.Data
import Verif.Spec.Data
import Verif.Props.Data
import Verif.Lemmas.RoundedError
import Verif.Props.RoundedError
import Verif.Spec.FiniteAgrees
import Verif.Props.FiniteAgrees
import Verif.Spec.SamplerHistory
import Verif.Props.SamplerHistory
import Verif.Model.RoundedKernel
import Verif.Spec.RoundedKernel
import Verif.Lemmas.RoundedKernel
import Verif.Props.RoundedKernel
import Verif.Props.Mirror
import Verif.Model.RoundedCholesky
import Verif.Spec.RoundedCholesky
import Verif.Lemmas.RoundedCholesky
import Verif.Props.RoundedCholesky
import Verif.Model.Overflow
import Verif.Spec.Overflow
import Verif.Lemmas.Overflow
import Verif.Lemmas.OverflowSamplers
import Verif.Lemmas.OverflowPSO
import Verif.Props.Overflow
import Verif.Model.RoundedNormalize
import Verif.Lemmas.RoundedNormalize
import Verif.Props.RoundedNormalize
import Verif.Model.RoundedCoKriging
import Verif.Spec.RoundedCoKriging
import Verif.Lemmas.RoundedCoKriging
import Verif.Props.RoundedCoKriging
import Verif.Model.RoundedAcquisition
import Verif.Spec.RoundedAcquisition
import Verif.Lemmas.RoundedAcquisition
import Verif.Props.RoundedAcquisition
import Verif.Model.RoundedPredict
import Verif.Spec.RoundedPredict
import Verif.Lemmas.RoundedPredict
import Verif.Props.RoundedPredict
import Verif.Spec.RoundedLatin
import Verif.Props.RoundedLatin
import Verif.Model.RoundedMFAcquisition
import Verif.Lemmas.RoundedMFAcquisition
import Verif.Props.RoundedMFAcquisition
import Verif.Model.RoundedMFPredict
import Verif.Spec.RoundedMFPredict
import Verif.Props.RoundedMFPredict
import Verif.Spec.EvaluatedMF
import Verif.Props.EvaluatedMF
import Verif.Props.EvaluatedCK
import Verif.Model.RoundedCKPredict
import Verif.Spec.RoundedCKPredict
import Verif.Props.RoundedCKPredict
import Verif.Props.NoiseFloor
import Verif.Model.RoundedStd
import Verif.Lemmas.RoundedStd
import Verif.Props.RoundedStd
import Verif.Props.SlowCK
