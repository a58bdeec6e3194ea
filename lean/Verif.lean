import Verif.Base
import Verif.Props.RingBuffer
import Verif.Props.Stopping
import Verif.Props.RuleList
import Verif.Props.Body
import Verif.Props.Predictor
import Verif.Props.Parallel
import Verif.Props.SparseSet
import Verif.Props.BitVector
import Verif.Props.Iterators
import Verif.Props.Random
import Verif.Props.Sampling
import Verif.Props.Partition
import Verif.Props.FeatureSpace
import Verif.Props.Search
import Verif.Props.StatisticVector
import Verif.Props.Refinement
import Verif.Props.Update
import Verif.Props.Induction
import Verif.Props.RuleEval
import Verif.Props.JointEval
import Verif.Props.LabelBinning
import Verif.Props.Loss
import Verif.Props.LossNorm
import Verif.Props.LossUpdate
import Verif.Props.LabelVectors
import Verif.Props.Gfm
import Verif.Props.Isotonic
import Verif.Props.Coverage
import Verif.Props.Confusion
import Verif.Props.Heuristic
import Verif.Props.LiftFunction
import Verif.Props.SecoEval
import Verif.Props.DecisionList
import Verif.Props.PartialPrediction
import Verif.Props.Config
import Verif.Props.FeatureBinning
import Verif.Props.SearchBinned
import Verif.Props.BinnedFilter
import Verif.Props.BeamSearch
import Verif.Props.JointBinned
import Verif.Props.FeatureType
import Verif.Props.OutputStrata
import Verif.Props.SparsePrediction
import Verif.Props.AutoConfig
import Verif.Props.DenseMatrix
import Verif.Props.StatisticsProvider
import Verif.Props.Training
import Verif.Props.TrainingTermination
import Verif.Props.TrainingLoss
import Verif.Props.Tabular
import Verif.Props.TabularData
import Verif.Props.BoostingTermination
import Verif.Props.TabularTermination
import Verif.Props.SecoTraining
import Verif.Props.SampledBoosting
import Verif.Props.OutOfSample
import Verif.Props.SparseData
import Verif.Props.BinnedTraining
import Verif.Props.SecoMatrix
import Verif.Props.BeamTraining
import Verif.Props.BeamDivergence
import Verif.Props.SampledTermination
import Verif.Props.ProbabilityPrediction
import Verif.Props.Calibrators
import Verif.Props.FloatingPoint
import Verif.Props.FloatBinning
import Verif.Props.SecoPruning
import Verif.Props.Serialization
import Verif.Props.PythonInput
import Verif.Props.SecoPruned
import Verif.Props.PythonFeatures
import Verif.Props.PythonPrediction
import Verif.Props.PythonOptions
import Verif.Props.PythonParameters
import Verif.Props.PythonSetters
import Verif.Props.CrossValidation
import Verif.Props.DataSets
import Verif.Props.LabelCharacteristics
import Verif.Props.ModelOutput
import Verif.Props.ParameterFiles
import Verif.Props.OneHotEncoding
import Verif.Props.TrainingSize
import Verif.Props.ConfigSlots
import Verif.Props.Duration
import Verif.Props.Experiment
import Verif.Props.Measures
import Verif.Props.ResultFiles
import Verif.Props.CalibrationOutput
import Verif.Props.DataSplitting
import Verif.Props.PythonLearners
import Verif.Props.DataSplitOption
import Verif.Props.PythonPrePruning
import Verif.Props.PythonRuleInduction
import Verif.Props.PythonScalars
import Verif.Props.PythonScalarOptions
import Verif.Props.PythonHoldout
