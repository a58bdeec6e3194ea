import Verif.Model.ConfigSlots

/-!
# What a client of a rule learner's configuration expects

The specification only mentions the names of the functions that are offered to the client: each of them selects one
alternative for one aspect of the learner.
-/

namespace MLRL.ConfigSlots

/-- The aspects of a rule learner a client may configure. -/
inductive Aspect where
  | rng | assemblage | defaultRule | induction | postProcessor | featureBinning | outputSampling | instanceSampling
  | featureSampling | partitionSampling | rulePruning | parallelRefinement | refinement | parallelUpdate
  | parallelPrediction | sizeStopping | timeStopping | globalPruning | postOptimization | marginalCalibration
  | jointCalibration | scorePredictor | probabilityPredictor | binaryPredictor | head | statistics | loss | l1 | l2
  | labelBinning | coverageStopping | lift | heuristic | pruningHeuristic
  deriving DecidableEq, Repr

/-- The aspect that is configured by a function, according to its name and documentation. -/
def Call.aspect : Call → Aspect
  | .useRNG => .rng
  | .useSequentialRuleModelAssemblage => .assemblage
  | .useDefaultRule | .useNoDefaultRule | .useAutomaticDefaultRule => .defaultRule
  | .useGreedyTopDownRuleInduction | .useBeamSearchTopDownRuleInduction => .induction
  | .useNoPostProcessor | .useConstantShrinkagePostProcessor => .postProcessor
  | .useNoFeatureBinning | .useEqualWidthFeatureBinning | .useEqualFrequencyFeatureBinning
  | .useAutomaticFeatureBinning => .featureBinning
  | .useNoOutputSampling | .useOutputSamplingWithoutReplacement | .useRoundRobinOutputSampling => .outputSampling
  | .useNoInstanceSampling | .useInstanceSamplingWithReplacement | .useInstanceSamplingWithoutReplacement
  | .useOutputWiseStratifiedInstanceSampling | .useExampleWiseStratifiedInstanceSampling => .instanceSampling
  | .useNoFeatureSampling | .useFeatureSamplingWithoutReplacement => .featureSampling
  | .useNoPartitionSampling | .useRandomBiPartitionSampling | .useOutputWiseStratifiedBiPartitionSampling
  | .useExampleWiseStratifiedBiPartitionSampling | .useAutomaticPartitionSampling => .partitionSampling
  | .useNoRulePruning | .useIrepRulePruning => .rulePruning
  | .useNoParallelRuleRefinement | .useParallelRuleRefinement | .useAutomaticParallelRuleRefinement => .parallelRefinement
  | .useNoParallelStatisticAggregation => .refinement
  | .useNoParallelStatisticUpdate | .useParallelStatisticUpdate | .useAutomaticParallelStatisticUpdate => .parallelUpdate
  | .useNoParallelPrediction | .useParallelPrediction => .parallelPrediction
  | .useNoSizeStoppingCriterion | .useSizeStoppingCriterion => .sizeStopping
  | .useNoTimeStoppingCriterion | .useTimeStoppingCriterion => .timeStopping
  | .useNoGlobalPruning | .useGlobalPrePruning | .useGlobalPostPruning => .globalPruning
  | .useNoSequentialPostOptimization | .useSequentialPostOptimization => .postOptimization
  | .useNoMarginalProbabilityCalibration | .useIsotonicMarginalProbabilityCalibration => .marginalCalibration
  | .useNoJointProbabilityCalibration | .useIsotonicJointProbabilityCalibration => .jointCalibration
  | .useNoScorePredictor | .useOutputWiseScorePredictor => .scorePredictor
  | .useNoProbabilityPredictor | .useOutputWiseProbabilityPredictor | .useMarginalizedProbabilityPredictor
  | .useAutomaticProbabilityPredictor => .probabilityPredictor
  | .useNoBinaryPredictor | .useOutputWiseBinaryPredictor | .useExampleWiseBinaryPredictor | .useGfmBinaryPredictor
  | .useAutomaticBinaryPredictor | .useOutputWiseBinaryPredictorSeCo => .binaryPredictor
  | .useCompleteHeads | .useFixedPartialHeads | .useDynamicPartialHeads | .useSingleOutputHeads
  | .useAutomaticHeads | .useSingleOutputHeadsSeCo | .usePartialHeadsSeCo => .head
  | .useDenseStatistics | .useSparseStatistics | .useAutomaticStatistics => .statistics
  | .useNonDecomposableSquaredErrorLoss | .useDecomposableSquaredErrorLoss | .useNonDecomposableLogisticLoss
  | .useNonDecomposableSquaredHingeLoss | .useDecomposableLogisticLoss | .useDecomposableSquaredHingeLoss => .loss
  | .useNoL1Regularization | .useL1Regularization => .l1
  | .useNoL2Regularization | .useL2Regularization => .l2
  | .useNoLabelBinning | .useEqualWidthLabelBinning | .useAutomaticLabelBinning => .labelBinning
  | .useNoCoverageStoppingCriterion | .useCoverageStoppingCriterion => .coverageStopping
  | .useNoLiftFunction | .usePeakLiftFunction | .useKlnLiftFunction => .lift
  | .useAccuracyHeuristic | .useFMeasureHeuristic | .useMEstimateHeuristic | .useLaplaceHeuristic
  | .usePrecisionHeuristic | .useRecallHeuristic | .useWraHeuristic => .heuristic
  | .useAccuracyPruningHeuristic | .useFMeasurePruningHeuristic | .useMEstimatePruningHeuristic
  | .useLaplacePruningHeuristic | .usePrecisionPruningHeuristic | .useRecallPruningHeuristic
  | .useWraPruningHeuristic => .pruningHeuristic

/-- The alternative that is selected by a function, according to its name and documentation. -/
def Call.selects : Call → Part
  | .useRNG => .rng
  | .useSequentialRuleModelAssemblage => .sequentialAssemblage
  | .useDefaultRule => .defaultRule
  | .useNoDefaultRule => .noDefaultRule
  | .useAutomaticDefaultRule => .automaticDefaultRule
  | .useGreedyTopDownRuleInduction => .greedyInduction
  | .useBeamSearchTopDownRuleInduction => .beamSearchInduction
  | .useNoPostProcessor => .noPostProcessor
  | .useConstantShrinkagePostProcessor => .constantShrinkage
  | .useNoFeatureBinning => .noFeatureBinning
  | .useEqualWidthFeatureBinning => .equalWidthFeatureBinning
  | .useEqualFrequencyFeatureBinning => .equalFrequencyFeatureBinning
  | .useAutomaticFeatureBinning => .automaticFeatureBinning
  | .useNoOutputSampling => .noOutputSampling
  | .useOutputSamplingWithoutReplacement => .outputSamplingWithoutReplacement
  | .useRoundRobinOutputSampling => .roundRobinOutputSampling
  | .useNoInstanceSampling => .noInstanceSampling
  | .useInstanceSamplingWithReplacement => .instanceSamplingWithReplacement
  | .useInstanceSamplingWithoutReplacement => .instanceSamplingWithoutReplacement
  | .useOutputWiseStratifiedInstanceSampling => .outputWiseStratifiedInstanceSampling
  | .useExampleWiseStratifiedInstanceSampling => .exampleWiseStratifiedInstanceSampling
  | .useNoFeatureSampling => .noFeatureSampling
  | .useFeatureSamplingWithoutReplacement => .featureSamplingWithoutReplacement
  | .useNoPartitionSampling => .noPartitionSampling
  | .useRandomBiPartitionSampling => .randomBiPartitionSampling
  | .useOutputWiseStratifiedBiPartitionSampling => .outputWiseStratifiedBiPartitionSampling
  | .useExampleWiseStratifiedBiPartitionSampling => .exampleWiseStratifiedBiPartitionSampling
  | .useAutomaticPartitionSampling => .automaticPartitionSampling
  | .useNoRulePruning => .noRulePruning
  | .useIrepRulePruning => .irep
  | .useNoParallelRuleRefinement => .noParallelRefinement
  | .useParallelRuleRefinement => .parallelRefinement
  | .useAutomaticParallelRuleRefinement => .automaticParallelRefinement
  | .useNoParallelStatisticAggregation => .statisticsBasedRefinement
  | .useNoParallelStatisticUpdate => .noParallelUpdate
  | .useParallelStatisticUpdate => .parallelUpdate
  | .useAutomaticParallelStatisticUpdate => .automaticParallelUpdate
  | .useNoParallelPrediction => .noParallelPrediction
  | .useParallelPrediction => .parallelPrediction
  | .useNoSizeStoppingCriterion => .noSizeStopping
  | .useSizeStoppingCriterion => .sizeStopping
  | .useNoTimeStoppingCriterion => .noTimeStopping
  | .useTimeStoppingCriterion => .timeStopping
  | .useNoGlobalPruning => .noGlobalPruning
  | .useGlobalPrePruning => .prePruning
  | .useGlobalPostPruning => .postPruning
  | .useNoSequentialPostOptimization => .noPostOptimization
  | .useSequentialPostOptimization => .sequentialPostOptimization
  | .useNoMarginalProbabilityCalibration => .noMarginalCalibration
  | .useIsotonicMarginalProbabilityCalibration => .isotonicMarginalCalibration
  | .useNoJointProbabilityCalibration => .noJointCalibration
  | .useIsotonicJointProbabilityCalibration => .isotonicJointCalibration
  | .useNoScorePredictor => .noScorePredictor
  | .useOutputWiseScorePredictor => .outputWiseScorePredictor
  | .useNoProbabilityPredictor => .noProbabilityPredictor
  | .useOutputWiseProbabilityPredictor => .outputWiseProbabilityPredictor
  | .useMarginalizedProbabilityPredictor => .marginalizedProbabilityPredictor
  | .useAutomaticProbabilityPredictor => .automaticProbabilityPredictor
  | .useNoBinaryPredictor => .noBinaryPredictor
  | .useOutputWiseBinaryPredictor => .outputWiseBinaryPredictor
  | .useExampleWiseBinaryPredictor => .exampleWiseBinaryPredictor
  | .useGfmBinaryPredictor => .gfmBinaryPredictor
  | .useAutomaticBinaryPredictor => .automaticBinaryPredictor
  | .useOutputWiseBinaryPredictorSeCo => .outputWiseBinaryPredictorSeCo
  | .useCompleteHeads => .completeHeads
  | .useFixedPartialHeads => .fixedPartialHeads
  | .useDynamicPartialHeads => .dynamicPartialHeads
  | .useSingleOutputHeads => .singleOutputHeads
  | .useAutomaticHeads => .automaticHeads
  | .useDenseStatistics => .denseStatistics
  | .useSparseStatistics => .sparseStatistics
  | .useAutomaticStatistics => .automaticStatistics
  | .useNonDecomposableSquaredErrorLoss => .nonDecomposableSquaredErrorLoss
  | .useDecomposableSquaredErrorLoss => .decomposableSquaredErrorLoss
  | .useNonDecomposableLogisticLoss => .nonDecomposableLogisticLoss
  | .useNonDecomposableSquaredHingeLoss => .nonDecomposableSquaredHingeLoss
  | .useDecomposableLogisticLoss => .decomposableLogisticLoss
  | .useDecomposableSquaredHingeLoss => .decomposableSquaredHingeLoss
  | .useNoL1Regularization => .noL1
  | .useL1Regularization => .manualL1
  | .useNoL2Regularization => .noL2
  | .useL2Regularization => .manualL2
  | .useNoLabelBinning => .noLabelBinning
  | .useEqualWidthLabelBinning => .equalWidthLabelBinning
  | .useAutomaticLabelBinning => .automaticLabelBinning
  | .useNoCoverageStoppingCriterion => .noCoverageStopping
  | .useCoverageStoppingCriterion => .coverageStopping
  | .useSingleOutputHeadsSeCo => .singleOutputHeadsSeCo
  | .usePartialHeadsSeCo => .partialHeadsSeCo
  | .useNoLiftFunction => .noLift
  | .usePeakLiftFunction => .peakLift
  | .useKlnLiftFunction => .klnLift
  | .useAccuracyHeuristic => .accuracy
  | .useFMeasureHeuristic => .fMeasure
  | .useMEstimateHeuristic => .mEstimate
  | .useLaplaceHeuristic => .laplace
  | .usePrecisionHeuristic => .precision
  | .useRecallHeuristic => .recall
  | .useWraHeuristic => .wra
  | .useAccuracyPruningHeuristic => .accuracy
  | .useFMeasurePruningHeuristic => .fMeasure
  | .useMEstimatePruningHeuristic => .mEstimate
  | .useLaplacePruningHeuristic => .laplace
  | .usePrecisionPruningHeuristic => .precision
  | .useRecallPruningHeuristic => .recall
  | .useWraPruningHeuristic => .wra

/-- The alternative that is expected to be used for an aspect after several functions have been called: the one that has
been selected last. -/
def selection (a : Aspect) (calls : List Call) : Option Part :=
  ((calls.filter fun c => decide (c.aspect = a)).map Call.selects).getLast?

/-- The properties that provide access to the alternative used for an aspect in classification or regression problems.
There are two of them if the aspect is also consulted by parts that do not distinguish between the two problems. -/
def Aspect.refs : Task → Aspect → List Ref
  | .classification, .instanceSampling => [.one .classificationInstanceSampling]
  | .regression, .instanceSampling => [.one .regressionInstanceSampling]
  | .classification, .partitionSampling => [.one .classificationPartitionSampling]
  | .regression, .partitionSampling => [.one .regressionPartitionSampling]
  | .classification, .statistics =>
    [.one .classificationStatistics, .either .classificationStatistics .regressionStatistics]
  | .regression, .statistics => [.one .regressionStatistics, .either .classificationStatistics .regressionStatistics]
  | .classification, .loss => [.one .classificationLoss, .either .classificationLoss .regressionLoss]
  | .regression, .loss => [.one .regressionLoss, .either .classificationLoss .regressionLoss]
  | _, .rng => [.one .rng]
  | _, .assemblage => [.one .assemblage]
  | _, .defaultRule => [.one .defaultRule]
  | _, .induction => [.one .induction]
  | _, .postProcessor => [.one .postProcessor]
  | _, .featureBinning => [.one .featureBinning]
  | _, .outputSampling => [.one .outputSampling]
  | _, .featureSampling => [.one .featureSampling]
  | _, .rulePruning => [.one .rulePruning]
  | _, .parallelRefinement => [.one .parallelRefinement]
  | _, .refinement => [.one .refinement]
  | _, .parallelUpdate => [.one .parallelUpdate]
  | _, .parallelPrediction => [.one .parallelPrediction]
  | _, .sizeStopping => [.one .sizeStopping]
  | _, .timeStopping => [.one .timeStopping]
  | _, .globalPruning => [.one .globalPruning]
  | _, .postOptimization => [.one .postOptimization]
  | _, .marginalCalibration => [.one .marginalCalibration]
  | _, .jointCalibration => [.one .jointCalibration]
  | _, .scorePredictor => [.one .scorePredictor]
  | _, .probabilityPredictor => [.one .probabilityPredictor]
  | _, .binaryPredictor => [.one .binaryPredictor]
  | _, .head => [.one .head]
  | _, .l1 => [.one .l1]
  | _, .l2 => [.one .l2]
  | _, .labelBinning => [.one .labelBinning]
  | _, .coverageStopping => [.one .coverageStopping]
  | _, .lift => [.one .lift]
  | _, .heuristic => [.one .heuristic]
  | _, .pruningHeuristic => [.one .pruningHeuristic]

end MLRL.ConfigSlots
