/-!
# The parts of a rule learner's configuration

A configuration object stores one pointer per part of a rule learner.  A client obtains the object with default values and
then calls any of the functions `use...` the learner offers.  When a model is trained or predictions are obtained, the
pointers are accessed through getters that throw an exception if a pointer is null.  Many parts hold getters of other
parts, which they evaluate when a factory is created, that is, long after they have been selected.
-/

namespace MLRL.ConfigSlots

/-- The pointers stored by `RuleLearnerConfig`, cpp/subprojects/common/include/mlrl/common/learner_common.hpp:490-660,
`BoostedRuleLearnerConfig`, cpp/subprojects/boosting/include/mlrl/boosting/learner_common.hpp:73-120, and
`SeCoRuleLearnerConfig`, cpp/subprojects/seco/include/mlrl/seco/learner_common.hpp:86-116.  The pointer `headConfigPtr_`
exists in the two latter classes; since a learner uses only one of them, the model uses the same name for both. -/
inductive Slot where
  | rng | assemblage | defaultRule | induction | postProcessor | featureBinning | outputSampling
  | classificationInstanceSampling | regressionInstanceSampling | featureSampling | classificationPartitionSampling
  | regressionPartitionSampling | rulePruning | parallelRefinement | refinement | parallelUpdate
  | parallelPrediction | sizeStopping | timeStopping | globalPruning | postOptimization | marginalCalibration
  | jointCalibration | scorePredictor | probabilityPredictor | binaryPredictor | head | classificationStatistics
  | regressionStatistics | classificationLoss | regressionLoss | l1 | l2 | labelBinning | coverageStopping | lift
  | heuristic | pruningHeuristic | unusedRuleRemoval
  deriving DecidableEq, Repr

/-- The objects a pointer may refer to (the classes whose names end with `Config`).  Their parameters, e.g., the size of a
sample, are omitted. -/
inductive Part where
  | rng | sequentialAssemblage | defaultRule | noDefaultRule | automaticDefaultRule | greedyInduction
  | beamSearchInduction | noPostProcessor | constantShrinkage | noFeatureBinning | equalWidthFeatureBinning
  | equalFrequencyFeatureBinning | automaticFeatureBinning | noOutputSampling | outputSamplingWithoutReplacement
  | roundRobinOutputSampling | noInstanceSampling | instanceSamplingWithReplacement
  | instanceSamplingWithoutReplacement | outputWiseStratifiedInstanceSampling
  | exampleWiseStratifiedInstanceSampling | noFeatureSampling | featureSamplingWithoutReplacement
  | noPartitionSampling | randomBiPartitionSampling | outputWiseStratifiedBiPartitionSampling
  | exampleWiseStratifiedBiPartitionSampling | automaticPartitionSampling | noRulePruning | irep
  | noParallelRefinement | parallelRefinement | automaticParallelRefinement | statisticsBasedRefinement
  | noParallelUpdate | parallelUpdate | automaticParallelUpdate | noParallelPrediction | parallelPrediction
  | noSizeStopping | sizeStopping | noTimeStopping | timeStopping | noGlobalPruning | prePruning | postPruning
  | noPostOptimization | sequentialPostOptimization | noMarginalCalibration | isotonicMarginalCalibration
  | noJointCalibration | isotonicJointCalibration | noScorePredictor | outputWiseScorePredictor
  | noProbabilityPredictor | outputWiseProbabilityPredictor | marginalizedProbabilityPredictor
  | automaticProbabilityPredictor | noBinaryPredictor | outputWiseBinaryPredictor | exampleWiseBinaryPredictor
  | gfmBinaryPredictor | automaticBinaryPredictor | outputWiseBinaryPredictorSeCo | completeHeads
  | fixedPartialHeads | dynamicPartialHeads | singleOutputHeads | automaticHeads | denseStatistics
  | sparseStatistics | automaticStatistics | nonDecomposableSquaredErrorLoss | decomposableSquaredErrorLoss
  | nonDecomposableLogisticLoss | nonDecomposableSquaredHingeLoss | decomposableLogisticLoss
  | decomposableSquaredHingeLoss | noL1 | manualL1 | noL2 | manualL2 | noLabelBinning | equalWidthLabelBinning
  | automaticLabelBinning | noCoverageStopping | coverageStopping | singleOutputHeadsSeCo | partialHeadsSeCo
  | noLift | peakLift | klnLift | accuracy | fMeasure | mEstimate | laplace | precision | recall | wra
  | unusedRuleRemoval
  deriving DecidableEq, Repr

/-- `ReadableProperty`, cpp/subprojects/common/include/mlrl/common/util/properties.hpp:16-34: either the getter of a single
pointer (lines 97-128) or the getter of two pointers, which prefers the first one (lines 140-157). -/
inductive Ref where
  | one (s : Slot) | either (s s' : Slot)
  deriving DecidableEq, Repr

/-- The exception `std::runtime_error` that is thrown by a getter if there is no object, properties.hpp:105, 125, 154. -/
inductive Error where
  | nullPointer
  deriving DecidableEq, Repr

/-- The pointers of a configuration object (`none` is a null pointer). -/
abbrev Config := Slot → Option Part

/-- The getters, properties.hpp:97-157. -/
def Config.get (cfg : Config) : Ref → Except Error Part
  | .one s => match cfg s with
    | some p => .ok p
    | none => .error .nullPointer
  | .either s s' => match cfg s with
    | some p => .ok p
    | none => match cfg s' with
      | some p => .ok p
      | none => .error .nullPointer

/-- The setters, properties.hpp:166-186: the previous object is replaced, possibly by a null pointer. -/
def Config.set (cfg : Config) (s : Slot) (p : Option Part) : Config :=
  fun s' => if s' = s then p else cfg s'

/-- Whether a model is trained via `AbstractClassificationRuleLearner` or `AbstractRegressionRuleLearner`. -/
inductive Task where
  | classification | regression
  deriving DecidableEq, Repr

/-- `BoostedRuleLearnerConfig::getLossConfig`, boosting/learner_common.hpp:154-157. -/
def anyLoss : Ref := .either .classificationLoss .regressionLoss

/-- `BoostedRuleLearnerConfig::getStatisticsConfig`, boosting/learner_common.hpp:132-136. -/
def anyStatistics : Ref := .either .classificationStatistics .regressionStatistics

/-- The loss that is accessed by the statistics when a factory is created for a certain task,
cpp/subprojects/boosting/src/mlrl/boosting/statistics/statistic_format_auto.cpp:13-34, statistic_format_dense.cpp:11-33 and
statistic_format_sparse.cpp:11-25. -/
def lossOf : Task → Ref
  | .classification => .one .classificationLoss
  | .regression => .one .regressionLoss

/-- The getters a part holds and evaluates when one of its functions is called for a certain task: the arguments that are
passed to its constructor by the functions `use...` (see `Call.assignments` for the lines).  All getters are included even
if a particular function of a part evaluates only some of them, or evaluates them only under certain conditions; the only
distinction that is made is the one between the tasks in case of the statistics.  Parts that are temporarily created by
other parts, e.g., by `AutomaticHeadConfig`, are given the getters of the part that creates them. -/
def Part.refs (t : Task) : Part → List Ref
  | .sequentialAssemblage =>
    [.one .induction, .one .defaultRule]
  | .automaticDefaultRule =>
    [anyStatistics, anyLoss, .one .head]
  | .greedyInduction | .beamSearchInduction =>
    [.one .refinement, .one .rulePruning, .one .postProcessor]
  | .outputSamplingWithoutReplacement | .instanceSamplingWithReplacement | .instanceSamplingWithoutReplacement
  | .outputWiseStratifiedInstanceSampling | .exampleWiseStratifiedInstanceSampling
  | .featureSamplingWithoutReplacement | .randomBiPartitionSampling | .outputWiseStratifiedBiPartitionSampling
  | .exampleWiseStratifiedBiPartitionSampling =>
    [.one .rng]
  | .automaticPartitionSampling =>
    [.one .rng, .one .globalPruning, .one .marginalCalibration, .one .jointCalibration]
  | .automaticParallelRefinement =>
    [anyLoss, .one .head, .one .featureSampling]
  | .statisticsBasedRefinement =>
    [.one .parallelRefinement]
  | .automaticParallelUpdate =>
    [anyLoss]
  | .sequentialPostOptimization =>
    [.one .induction]
  | .isotonicMarginalCalibration | .isotonicJointCalibration =>
    [.one .classificationLoss]
  | .outputWiseScorePredictor | .outputWiseBinaryPredictorSeCo =>
    [.one .parallelPrediction]
  | .outputWiseProbabilityPredictor | .marginalizedProbabilityPredictor | .automaticProbabilityPredictor
  | .outputWiseBinaryPredictor | .exampleWiseBinaryPredictor | .gfmBinaryPredictor | .automaticBinaryPredictor =>
    [.one .classificationLoss, .one .parallelPrediction]
  | .completeHeads | .singleOutputHeads =>
    [.one .labelBinning, .one .parallelUpdate, .one .l1, .one .l2]
  | .fixedPartialHeads | .dynamicPartialHeads =>
    [.one .labelBinning, .one .parallelUpdate]
  | .automaticHeads =>
    [anyLoss, .one .labelBinning, .one .parallelUpdate, .one .l1, .one .l2]
  | .denseStatistics | .sparseStatistics =>
    [lossOf t]
  | .automaticStatistics =>
    [lossOf t, .one .head, .one .defaultRule]
  | .nonDecomposableSquaredErrorLoss | .decomposableSquaredErrorLoss | .nonDecomposableLogisticLoss
  | .nonDecomposableSquaredHingeLoss | .decomposableLogisticLoss | .decomposableSquaredHingeLoss =>
    [.one .head]
  | .noLabelBinning | .equalWidthLabelBinning | .automaticLabelBinning =>
    [.one .l1, .one .l2]
  | .singleOutputHeadsSeCo =>
    [.one .heuristic, .one .pruningHeuristic]
  | .partialHeadsSeCo =>
    [.one .heuristic, .one .pruningHeuristic, .one .lift]
  | _ => []

/-- The functions `use...` of the mixins, cpp/subprojects/common/include/mlrl/common/learner.hpp:412-1249,
cpp/subprojects/common/include/mlrl/common/learner_classification.hpp:323-419,
cpp/subprojects/boosting/include/mlrl/boosting/learner.hpp:139-590,
cpp/subprojects/boosting/include/mlrl/boosting/learner_classification.hpp:32-370 and
cpp/subprojects/seco/include/mlrl/seco/learner.hpp:91-513 (the functions of the latter whose names also occur in the
namespace `boosting` have the suffix `SeCo`). -/
inductive Call where
  | useRNG | useSequentialRuleModelAssemblage | useDefaultRule | useNoDefaultRule | useAutomaticDefaultRule
  | useGreedyTopDownRuleInduction | useBeamSearchTopDownRuleInduction | useNoPostProcessor
  | useConstantShrinkagePostProcessor | useNoFeatureBinning | useEqualWidthFeatureBinning
  | useEqualFrequencyFeatureBinning | useAutomaticFeatureBinning | useNoOutputSampling
  | useOutputSamplingWithoutReplacement | useRoundRobinOutputSampling | useNoInstanceSampling
  | useInstanceSamplingWithReplacement | useInstanceSamplingWithoutReplacement
  | useOutputWiseStratifiedInstanceSampling | useExampleWiseStratifiedInstanceSampling | useNoFeatureSampling
  | useFeatureSamplingWithoutReplacement | useNoPartitionSampling | useRandomBiPartitionSampling
  | useOutputWiseStratifiedBiPartitionSampling | useExampleWiseStratifiedBiPartitionSampling
  | useAutomaticPartitionSampling | useNoRulePruning | useIrepRulePruning | useNoParallelRuleRefinement
  | useParallelRuleRefinement | useAutomaticParallelRuleRefinement | useNoParallelStatisticAggregation
  | useNoParallelStatisticUpdate | useParallelStatisticUpdate | useAutomaticParallelStatisticUpdate
  | useNoParallelPrediction | useParallelPrediction | useNoSizeStoppingCriterion | useSizeStoppingCriterion
  | useNoTimeStoppingCriterion | useTimeStoppingCriterion | useNoGlobalPruning | useGlobalPrePruning
  | useGlobalPostPruning | useNoSequentialPostOptimization | useSequentialPostOptimization
  | useNoMarginalProbabilityCalibration | useIsotonicMarginalProbabilityCalibration
  | useNoJointProbabilityCalibration | useIsotonicJointProbabilityCalibration | useNoScorePredictor
  | useOutputWiseScorePredictor | useNoProbabilityPredictor | useOutputWiseProbabilityPredictor
  | useMarginalizedProbabilityPredictor | useAutomaticProbabilityPredictor | useNoBinaryPredictor
  | useOutputWiseBinaryPredictor | useExampleWiseBinaryPredictor | useGfmBinaryPredictor
  | useAutomaticBinaryPredictor | useOutputWiseBinaryPredictorSeCo | useCompleteHeads | useFixedPartialHeads
  | useDynamicPartialHeads | useSingleOutputHeads | useAutomaticHeads | useDenseStatistics | useSparseStatistics
  | useAutomaticStatistics | useNonDecomposableSquaredErrorLoss | useDecomposableSquaredErrorLoss
  | useNonDecomposableLogisticLoss | useNonDecomposableSquaredHingeLoss | useDecomposableLogisticLoss
  | useDecomposableSquaredHingeLoss | useNoL1Regularization | useL1Regularization | useNoL2Regularization
  | useL2Regularization | useNoLabelBinning | useEqualWidthLabelBinning | useAutomaticLabelBinning
  | useNoCoverageStoppingCriterion | useCoverageStoppingCriterion | useSingleOutputHeadsSeCo | usePartialHeadsSeCo
  | useNoLiftFunction | usePeakLiftFunction | useKlnLiftFunction | useAccuracyHeuristic | useFMeasureHeuristic
  | useMEstimateHeuristic | useLaplaceHeuristic | usePrecisionHeuristic | useRecallHeuristic | useWraHeuristic
  | useAccuracyPruningHeuristic | useFMeasurePruningHeuristic | useMEstimatePruningHeuristic
  | useLaplacePruningHeuristic | usePrecisionPruningHeuristic | useRecallPruningHeuristic | useWraPruningHeuristic
  deriving DecidableEq, Repr

/-- The assignments performed by each of these functions.  Functions for which different classes exist for classification
and regression problems set two pointers; those that are only available for classification problems either set a single one
(learner_classification.hpp:339, 363, 390, 416) or set the second one to a null pointer (boosting,
learner_classification.hpp:42-44, 62-64, 82-84, 102-104). -/
def Call.assignments : Call → List (Slot × Option Part)
  | .useRNG => [(.rng, some .rng)]
  | .useSequentialRuleModelAssemblage => [(.assemblage, some .sequentialAssemblage)]
  | .useDefaultRule => [(.defaultRule, some .defaultRule)]
  | .useNoDefaultRule => [(.defaultRule, some .noDefaultRule)]
  | .useAutomaticDefaultRule => [(.defaultRule, some .automaticDefaultRule)]
  | .useGreedyTopDownRuleInduction => [(.induction, some .greedyInduction)]
  | .useBeamSearchTopDownRuleInduction => [(.induction, some .beamSearchInduction)]
  | .useNoPostProcessor => [(.postProcessor, some .noPostProcessor)]
  | .useConstantShrinkagePostProcessor => [(.postProcessor, some .constantShrinkage)]
  | .useNoFeatureBinning => [(.featureBinning, some .noFeatureBinning)]
  | .useEqualWidthFeatureBinning => [(.featureBinning, some .equalWidthFeatureBinning)]
  | .useEqualFrequencyFeatureBinning => [(.featureBinning, some .equalFrequencyFeatureBinning)]
  | .useAutomaticFeatureBinning => [(.featureBinning, some .automaticFeatureBinning)]
  | .useNoOutputSampling => [(.outputSampling, some .noOutputSampling)]
  | .useOutputSamplingWithoutReplacement => [(.outputSampling, some .outputSamplingWithoutReplacement)]
  | .useRoundRobinOutputSampling => [(.outputSampling, some .roundRobinOutputSampling)]
  | .useNoInstanceSampling => [(.classificationInstanceSampling, some .noInstanceSampling), (.regressionInstanceSampling, some .noInstanceSampling)]
  | .useInstanceSamplingWithReplacement => [(.classificationInstanceSampling, some .instanceSamplingWithReplacement), (.regressionInstanceSampling, some .instanceSamplingWithReplacement)]
  | .useInstanceSamplingWithoutReplacement => [(.classificationInstanceSampling, some .instanceSamplingWithoutReplacement), (.regressionInstanceSampling, some .instanceSamplingWithoutReplacement)]
  | .useOutputWiseStratifiedInstanceSampling => [(.classificationInstanceSampling, some .outputWiseStratifiedInstanceSampling)]
  | .useExampleWiseStratifiedInstanceSampling => [(.classificationInstanceSampling, some .exampleWiseStratifiedInstanceSampling)]
  | .useNoFeatureSampling => [(.featureSampling, some .noFeatureSampling)]
  | .useFeatureSamplingWithoutReplacement => [(.featureSampling, some .featureSamplingWithoutReplacement)]
  | .useNoPartitionSampling => [(.classificationPartitionSampling, some .noPartitionSampling), (.regressionPartitionSampling, some .noPartitionSampling)]
  | .useRandomBiPartitionSampling => [(.classificationPartitionSampling, some .randomBiPartitionSampling), (.regressionPartitionSampling, some .randomBiPartitionSampling)]
  | .useOutputWiseStratifiedBiPartitionSampling => [(.classificationPartitionSampling, some .outputWiseStratifiedBiPartitionSampling)]
  | .useExampleWiseStratifiedBiPartitionSampling => [(.classificationPartitionSampling, some .exampleWiseStratifiedBiPartitionSampling)]
  | .useAutomaticPartitionSampling => [(.classificationPartitionSampling, some .automaticPartitionSampling), (.regressionPartitionSampling, some .automaticPartitionSampling)]
  | .useNoRulePruning => [(.rulePruning, some .noRulePruning)]
  | .useIrepRulePruning => [(.rulePruning, some .irep)]
  | .useNoParallelRuleRefinement => [(.parallelRefinement, some .noParallelRefinement)]
  | .useParallelRuleRefinement => [(.parallelRefinement, some .parallelRefinement)]
  | .useAutomaticParallelRuleRefinement => [(.parallelRefinement, some .automaticParallelRefinement)]
  | .useNoParallelStatisticAggregation => [(.refinement, some .statisticsBasedRefinement)]
  | .useNoParallelStatisticUpdate => [(.parallelUpdate, some .noParallelUpdate)]
  | .useParallelStatisticUpdate => [(.parallelUpdate, some .parallelUpdate)]
  | .useAutomaticParallelStatisticUpdate => [(.parallelUpdate, some .automaticParallelUpdate)]
  | .useNoParallelPrediction => [(.parallelPrediction, some .noParallelPrediction)]
  | .useParallelPrediction => [(.parallelPrediction, some .parallelPrediction)]
  | .useNoSizeStoppingCriterion => [(.sizeStopping, some .noSizeStopping)]
  | .useSizeStoppingCriterion => [(.sizeStopping, some .sizeStopping)]
  | .useNoTimeStoppingCriterion => [(.timeStopping, some .noTimeStopping)]
  | .useTimeStoppingCriterion => [(.timeStopping, some .timeStopping)]
  | .useNoGlobalPruning => [(.globalPruning, some .noGlobalPruning)]
  | .useGlobalPrePruning => [(.globalPruning, some .prePruning)]
  | .useGlobalPostPruning => [(.globalPruning, some .postPruning)]
  | .useNoSequentialPostOptimization => [(.postOptimization, some .noPostOptimization)]
  | .useSequentialPostOptimization => [(.postOptimization, some .sequentialPostOptimization)]
  | .useNoMarginalProbabilityCalibration => [(.marginalCalibration, some .noMarginalCalibration)]
  | .useIsotonicMarginalProbabilityCalibration => [(.marginalCalibration, some .isotonicMarginalCalibration)]
  | .useNoJointProbabilityCalibration => [(.jointCalibration, some .noJointCalibration)]
  | .useIsotonicJointProbabilityCalibration => [(.jointCalibration, some .isotonicJointCalibration)]
  | .useNoScorePredictor => [(.scorePredictor, some .noScorePredictor)]
  | .useOutputWiseScorePredictor => [(.scorePredictor, some .outputWiseScorePredictor)]
  | .useNoProbabilityPredictor => [(.probabilityPredictor, some .noProbabilityPredictor)]
  | .useOutputWiseProbabilityPredictor => [(.probabilityPredictor, some .outputWiseProbabilityPredictor)]
  | .useMarginalizedProbabilityPredictor => [(.probabilityPredictor, some .marginalizedProbabilityPredictor)]
  | .useAutomaticProbabilityPredictor => [(.probabilityPredictor, some .automaticProbabilityPredictor)]
  | .useNoBinaryPredictor => [(.binaryPredictor, some .noBinaryPredictor)]
  | .useOutputWiseBinaryPredictor => [(.binaryPredictor, some .outputWiseBinaryPredictor)]
  | .useExampleWiseBinaryPredictor => [(.binaryPredictor, some .exampleWiseBinaryPredictor)]
  | .useGfmBinaryPredictor => [(.binaryPredictor, some .gfmBinaryPredictor)]
  | .useAutomaticBinaryPredictor => [(.binaryPredictor, some .automaticBinaryPredictor)]
  | .useOutputWiseBinaryPredictorSeCo => [(.binaryPredictor, some .outputWiseBinaryPredictorSeCo)]
  | .useCompleteHeads => [(.head, some .completeHeads)]
  | .useFixedPartialHeads => [(.head, some .fixedPartialHeads)]
  | .useDynamicPartialHeads => [(.head, some .dynamicPartialHeads)]
  | .useSingleOutputHeads => [(.head, some .singleOutputHeads)]
  | .useAutomaticHeads => [(.head, some .automaticHeads)]
  | .useDenseStatistics => [(.classificationStatistics, some .denseStatistics), (.regressionStatistics, some .denseStatistics)]
  | .useSparseStatistics => [(.classificationStatistics, some .sparseStatistics), (.regressionStatistics, some .sparseStatistics)]
  | .useAutomaticStatistics => [(.classificationStatistics, some .automaticStatistics), (.regressionStatistics, some .automaticStatistics)]
  | .useNonDecomposableSquaredErrorLoss => [(.classificationLoss, some .nonDecomposableSquaredErrorLoss), (.regressionLoss, some .nonDecomposableSquaredErrorLoss)]
  | .useDecomposableSquaredErrorLoss => [(.classificationLoss, some .decomposableSquaredErrorLoss), (.regressionLoss, some .decomposableSquaredErrorLoss)]
  | .useNonDecomposableLogisticLoss => [(.classificationLoss, some .nonDecomposableLogisticLoss), (.regressionLoss, none)]
  | .useNonDecomposableSquaredHingeLoss => [(.classificationLoss, some .nonDecomposableSquaredHingeLoss), (.regressionLoss, none)]
  | .useDecomposableLogisticLoss => [(.classificationLoss, some .decomposableLogisticLoss), (.regressionLoss, none)]
  | .useDecomposableSquaredHingeLoss => [(.classificationLoss, some .decomposableSquaredHingeLoss), (.regressionLoss, none)]
  | .useNoL1Regularization => [(.l1, some .noL1)]
  | .useL1Regularization => [(.l1, some .manualL1)]
  | .useNoL2Regularization => [(.l2, some .noL2)]
  | .useL2Regularization => [(.l2, some .manualL2)]
  | .useNoLabelBinning => [(.labelBinning, some .noLabelBinning)]
  | .useEqualWidthLabelBinning => [(.labelBinning, some .equalWidthLabelBinning)]
  | .useAutomaticLabelBinning => [(.labelBinning, some .automaticLabelBinning)]
  | .useNoCoverageStoppingCriterion => [(.coverageStopping, some .noCoverageStopping)]
  | .useCoverageStoppingCriterion => [(.coverageStopping, some .coverageStopping)]
  | .useSingleOutputHeadsSeCo => [(.head, some .singleOutputHeadsSeCo)]
  | .usePartialHeadsSeCo => [(.head, some .partialHeadsSeCo)]
  | .useNoLiftFunction => [(.lift, some .noLift)]
  | .usePeakLiftFunction => [(.lift, some .peakLift)]
  | .useKlnLiftFunction => [(.lift, some .klnLift)]
  | .useAccuracyHeuristic => [(.heuristic, some .accuracy)]
  | .useFMeasureHeuristic => [(.heuristic, some .fMeasure)]
  | .useMEstimateHeuristic => [(.heuristic, some .mEstimate)]
  | .useLaplaceHeuristic => [(.heuristic, some .laplace)]
  | .usePrecisionHeuristic => [(.heuristic, some .precision)]
  | .useRecallHeuristic => [(.heuristic, some .recall)]
  | .useWraHeuristic => [(.heuristic, some .wra)]
  | .useAccuracyPruningHeuristic => [(.pruningHeuristic, some .accuracy)]
  | .useFMeasurePruningHeuristic => [(.pruningHeuristic, some .fMeasure)]
  | .useMEstimatePruningHeuristic => [(.pruningHeuristic, some .mEstimate)]
  | .useLaplacePruningHeuristic => [(.pruningHeuristic, some .laplace)]
  | .usePrecisionPruningHeuristic => [(.pruningHeuristic, some .precision)]
  | .useRecallPruningHeuristic => [(.pruningHeuristic, some .recall)]
  | .useWraPruningHeuristic => [(.pruningHeuristic, some .wra)]

/-- The execution of a function `use...`. -/
def Config.apply (cfg : Config) (c : Call) : Config :=
  c.assignments.foldl (fun cfg a => cfg.set a.1 a.2) cfg

/-- The execution of several such functions, one after the other. -/
def Config.run (cfg : Config) (calls : List Call) : Config :=
  calls.foldl Config.apply cfg

/-- The algorithms that are provided by the library. -/
inductive Learner where
  | boomerClassifier | boomerRegressor | secoClassifier
  deriving DecidableEq, Repr

/-- `BoomerClassifier` and `SeCoClassifier` extend `AbstractClassificationRuleLearner`, `BoomerRegressor` extends
`AbstractRegressionRuleLearner`, learner_boomer_classifier.cpp:65, learner_seco_classifier.cpp:79,
learner_boomer_regressor.cpp:62. -/
def Learner.task : Learner → Task
  | .boomerClassifier | .secoClassifier => .classification
  | .boomerRegressor => .regression

/-- `IRuleLearnerMixin::useDefaults`, cpp/subprojects/common/include/mlrl/common/learner.hpp:1281-1304.  The same functions
are offered by every learner (lines 1254-1276). -/
def commonCalls : List Call :=
  [
    .useRNG, .useDefaultRule, .useNoFeatureBinning, .useNoOutputSampling, .useNoInstanceSampling,
    .useNoFeatureSampling, .useNoPartitionSampling, .useNoRulePruning, .useNoParallelRuleRefinement,
    .useNoParallelStatisticAggregation, .useNoParallelStatisticUpdate, .useNoParallelPrediction,
    .useNoSizeStoppingCriterion, .useNoTimeStoppingCriterion, .useNoSequentialPostOptimization,
    .useNoPostProcessor, .useNoGlobalPruning, .useNoScorePredictor, .useNoProbabilityPredictor,
    .useNoBinaryPredictor, .useNoMarginalProbabilityCalibration, .useNoJointProbabilityCalibration]

/-- `IBoostedRuleLearnerMixin::useDefaults`, cpp/subprojects/boosting/include/mlrl/boosting/learner.hpp:610-615. -/
def boostedCalls : List Call :=
  commonCalls ++ [
    .useNoL1Regularization, .useNoL2Regularization, .useNoLabelBinning]

/-- `ISeCoRuleLearnerMixin::useDefaults`, cpp/subprojects/seco/include/mlrl/seco/learner.hpp:529-533. -/
def secoCalls : List Call :=
  commonCalls ++ [
    .useNoCoverageStoppingCriterion, .useNoLiftFunction]

/-- The functions that are offered by the interfaces `IBoomerClassifier::IConfig`,
cpp/subprojects/boosting/include/mlrl/boosting/learner_boomer_classifier.hpp:21-80, `IBoomerRegressor::IConfig`,
learner_boomer_regressor.hpp:22-62, and `ISeCoClassifier::IConfig`,
cpp/subprojects/seco/include/mlrl/seco/learner_seco_classifier.hpp:27-70. -/
def Learner.offered : Learner → List Call
  | .boomerClassifier => boostedCalls ++ [
    .useSequentialRuleModelAssemblage, .useNoDefaultRule, .useAutomaticDefaultRule,
    .useGreedyTopDownRuleInduction, .useBeamSearchTopDownRuleInduction, .useConstantShrinkagePostProcessor,
    .useEqualWidthFeatureBinning, .useEqualFrequencyFeatureBinning, .useAutomaticFeatureBinning,
    .useOutputSamplingWithoutReplacement, .useRoundRobinOutputSampling, .useInstanceSamplingWithReplacement,
    .useInstanceSamplingWithoutReplacement, .useOutputWiseStratifiedInstanceSampling,
    .useExampleWiseStratifiedInstanceSampling, .useFeatureSamplingWithoutReplacement,
    .useRandomBiPartitionSampling, .useOutputWiseStratifiedBiPartitionSampling,
    .useExampleWiseStratifiedBiPartitionSampling, .useAutomaticPartitionSampling, .useIrepRulePruning,
    .useParallelRuleRefinement, .useAutomaticParallelRuleRefinement, .useParallelStatisticUpdate,
    .useAutomaticParallelStatisticUpdate, .useParallelPrediction, .useSizeStoppingCriterion,
    .useTimeStoppingCriterion, .useGlobalPrePruning, .useGlobalPostPruning, .useSequentialPostOptimization,
    .useIsotonicMarginalProbabilityCalibration, .useIsotonicJointProbabilityCalibration,
    .useOutputWiseScorePredictor, .useOutputWiseProbabilityPredictor, .useMarginalizedProbabilityPredictor,
    .useAutomaticProbabilityPredictor, .useOutputWiseBinaryPredictor, .useExampleWiseBinaryPredictor,
    .useGfmBinaryPredictor, .useAutomaticBinaryPredictor, .useCompleteHeads, .useFixedPartialHeads,
    .useDynamicPartialHeads, .useSingleOutputHeads, .useAutomaticHeads, .useDenseStatistics, .useSparseStatistics,
    .useAutomaticStatistics, .useNonDecomposableSquaredErrorLoss, .useDecomposableSquaredErrorLoss,
    .useNonDecomposableLogisticLoss, .useNonDecomposableSquaredHingeLoss, .useDecomposableLogisticLoss,
    .useDecomposableSquaredHingeLoss, .useL1Regularization, .useL2Regularization, .useEqualWidthLabelBinning,
    .useAutomaticLabelBinning]
  | .boomerRegressor => boostedCalls ++ [
    .useSequentialRuleModelAssemblage, .useNoDefaultRule, .useAutomaticDefaultRule,
    .useGreedyTopDownRuleInduction, .useBeamSearchTopDownRuleInduction, .useConstantShrinkagePostProcessor,
    .useEqualWidthFeatureBinning, .useEqualFrequencyFeatureBinning, .useAutomaticFeatureBinning,
    .useOutputSamplingWithoutReplacement, .useRoundRobinOutputSampling, .useInstanceSamplingWithReplacement,
    .useInstanceSamplingWithoutReplacement, .useFeatureSamplingWithoutReplacement, .useRandomBiPartitionSampling,
    .useAutomaticPartitionSampling, .useIrepRulePruning, .useParallelRuleRefinement,
    .useAutomaticParallelRuleRefinement, .useParallelStatisticUpdate, .useAutomaticParallelStatisticUpdate,
    .useParallelPrediction, .useSizeStoppingCriterion, .useTimeStoppingCriterion, .useGlobalPrePruning,
    .useGlobalPostPruning, .useSequentialPostOptimization, .useOutputWiseScorePredictor, .useCompleteHeads,
    .useFixedPartialHeads, .useDynamicPartialHeads, .useSingleOutputHeads, .useAutomaticHeads,
    .useDenseStatistics, .useSparseStatistics, .useAutomaticStatistics, .useNonDecomposableSquaredErrorLoss,
    .useDecomposableSquaredErrorLoss, .useL1Regularization, .useL2Regularization]
  | .secoClassifier => secoCalls ++ [
    .useSequentialRuleModelAssemblage, .useGreedyTopDownRuleInduction, .useBeamSearchTopDownRuleInduction,
    .useEqualWidthFeatureBinning, .useEqualFrequencyFeatureBinning, .useOutputSamplingWithoutReplacement,
    .useRoundRobinOutputSampling, .useInstanceSamplingWithReplacement, .useInstanceSamplingWithoutReplacement,
    .useOutputWiseStratifiedInstanceSampling, .useExampleWiseStratifiedInstanceSampling,
    .useFeatureSamplingWithoutReplacement, .useRandomBiPartitionSampling,
    .useOutputWiseStratifiedBiPartitionSampling, .useExampleWiseStratifiedBiPartitionSampling,
    .useIrepRulePruning, .useParallelRuleRefinement, .useParallelStatisticUpdate, .useParallelPrediction,
    .useSizeStoppingCriterion, .useTimeStoppingCriterion, .useSequentialPostOptimization,
    .useOutputWiseBinaryPredictorSeCo, .useCoverageStoppingCriterion, .useSingleOutputHeadsSeCo,
    .usePartialHeadsSeCo, .usePeakLiftFunction, .useKlnLiftFunction, .useAccuracyHeuristic, .useFMeasureHeuristic,
    .useMEstimateHeuristic, .useLaplaceHeuristic, .usePrecisionHeuristic, .useRecallHeuristic, .useWraHeuristic,
    .useAccuracyPruningHeuristic, .useFMeasurePruningHeuristic, .useMEstimatePruningHeuristic,
    .useLaplacePruningHeuristic, .usePrecisionPruningHeuristic, .useRecallPruningHeuristic,
    .useWraPruningHeuristic]

/-- `useDefaults` of the three learners, cpp/subprojects/boosting/src/mlrl/boosting/learner_boomer_classifier.cpp:22-43,
learner_boomer_regressor.cpp:22-40 and cpp/subprojects/seco/src/mlrl/seco/learner_seco_classifier.cpp:22-37. -/
def Learner.defaults : Learner → List Call
  | .boomerClassifier => boostedCalls ++ [
    .useAutomaticDefaultRule, .useSequentialRuleModelAssemblage, .useGreedyTopDownRuleInduction,
    .useAutomaticFeatureBinning, .useFeatureSamplingWithoutReplacement, .useAutomaticPartitionSampling,
    .useConstantShrinkagePostProcessor, .useAutomaticParallelRuleRefinement, .useAutomaticParallelStatisticUpdate,
    .useParallelPrediction, .useSizeStoppingCriterion, .useOutputWiseScorePredictor,
    .useAutomaticProbabilityPredictor, .useAutomaticBinaryPredictor, .useAutomaticHeads, .useAutomaticStatistics,
    .useDecomposableLogisticLoss, .useL2Regularization, .useAutomaticLabelBinning]
  | .boomerRegressor => boostedCalls ++ [
    .useAutomaticDefaultRule, .useSequentialRuleModelAssemblage, .useGreedyTopDownRuleInduction,
    .useAutomaticFeatureBinning, .useFeatureSamplingWithoutReplacement, .useAutomaticPartitionSampling,
    .useConstantShrinkagePostProcessor, .useAutomaticParallelRuleRefinement, .useAutomaticParallelStatisticUpdate,
    .useParallelPrediction, .useSizeStoppingCriterion, .useOutputWiseScorePredictor, .useAutomaticHeads,
    .useAutomaticStatistics, .useDecomposableSquaredErrorLoss, .useL2Regularization]
  | .secoClassifier => secoCalls ++ [
    .useSequentialRuleModelAssemblage, .useGreedyTopDownRuleInduction, .useOutputWiseStratifiedInstanceSampling,
    .useIrepRulePruning, .useParallelRuleRefinement, .useParallelPrediction, .useSizeStoppingCriterion,
    .useOutputWiseBinaryPredictorSeCo, .useCoverageStoppingCriterion, .useSingleOutputHeadsSeCo,
    .useFMeasureHeuristic, .useAccuracyPruningHeuristic, .usePeakLiftFunction]

/-- The constructors, common/learner_common.hpp:662-664, boosting/learner_common.hpp:124 and seco/learner_common.hpp:120-127:
all pointers that are not mentioned are null. -/
def Learner.initial : Learner → Config
  | .boomerClassifier | .boomerRegressor => fun s => match s with
    | .unusedRuleRemoval => some .unusedRuleRemoval
    | _ => none
  | .secoClassifier => fun s => match s with
    | .unusedRuleRemoval => some .unusedRuleRemoval
    | .coverageStopping => some .noCoverageStopping
    | .head => some .singleOutputHeadsSeCo
    | .heuristic | .pruningHeuristic => some .precision
    | .lift => some .noLift
    | _ => none

/-- `createBoomerClassifierConfig`, `createBoomerRegressorConfig`, `createSeCoClassifierConfig`,
learner_boomer_classifier.cpp:69-73, learner_boomer_regressor.cpp:66-70, learner_seco_classifier.cpp:83-87. -/
def Learner.create (l : Learner) : Config :=
  l.initial.run l.defaults

/-- The properties accessed by `fit` of both kinds of learners, common/learner_common.hpp:126-292, i.e., rule model
assemblage, feature binning, parallel update of statistics, sampling of outputs and features, size and time stopping
criterion, global pruning, both post-optimization phases, and the score predictor, line 405. -/
def commonRoots : List Ref :=
  [.one .assemblage, .one .featureBinning, .one .parallelUpdate, .one .outputSampling, .one .featureSampling,
    .one .sizeStopping, .one .timeStopping, .one .globalPruning, .one .postOptimization, .one .unusedRuleRemoval,
    .one .scorePredictor]

/-- In addition, the properties accessed by `AbstractClassificationRuleLearner`,
common/learner_classification_common.hpp:50-201, via common/learner_common.hpp:171, 208, 306, 316, 383-386, 421, 436, 452. -/
def classificationRoots : List Ref :=
  [.one .classificationInstanceSampling, .one .classificationPartitionSampling, .one .marginalCalibration,
    .one .jointCalibration, .one .probabilityPredictor, .one .binaryPredictor]

/-- In addition, the properties accessed by `AbstractRegressionRuleLearner`, common/learner_regression_common.hpp:50-121, via
common/learner_common.hpp:183, 220. -/
def regressionRoots : List Ref :=
  [.one .regressionInstanceSampling, .one .regressionPartitionSampling]

/-- The properties that are directly accessed when a model is trained and when predictions are obtained.  This includes the
properties accessed by `BoostedRuleLearnerConfigurator`, boosting/learner_common.hpp:53-67, and
`SeCoRuleLearnerConfigurator`, seco/learner_common.hpp:25-27, 55, 78. -/
def Learner.roots : Learner → List Ref
  | .boomerClassifier => commonRoots ++ classificationRoots ++ [.one .classificationStatistics]
  | .boomerRegressor => commonRoots ++ regressionRoots ++ [.one .regressionStatistics]
  | .secoClassifier => commonRoots ++ classificationRoots ++ [.one .coverageStopping, .one .head]

/-- The properties that may be accessed, directly or by the parts that have been obtained from other properties. -/
inductive Accessed (l : Learner) (cfg : Config) : Ref → Prop
  | root {r} : r ∈ l.roots → Accessed l cfg r
  | part {r r' p} : Accessed l cfg r → cfg.get r = .ok p → r' ∈ p.refs l.task → Accessed l cfg r'

end MLRL.ConfigSlots
