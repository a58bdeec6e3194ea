import Verif.Base

/-!
# The configuration of a boosting algorithm and the choices made by its automatic options

A configuration is a set of pointers to configuration objects (`learner_common.hpp`) that read each other through
properties when the learner is trained.  The objects are modelled by the values they stand for, the functions by which
they consult each other are modelled one by one.
-/

namespace MLRL.AutoConfig

/-- The loss functions (`cpp/subprojects/boosting/src/mlrl/boosting/losses/loss_*.cpp`). -/
inductive Loss where
  | decomposableLogistic
  | decomposableSquaredError
  | decomposableSquaredHinge
  | nonDecomposableLogistic
  | nonDecomposableSquaredError
  | nonDecomposableSquaredHinge
  deriving DecidableEq, Repr

/-- `ILossConfig::isDecomposable` (`losses/loss_decomposable.hpp:239-241`, `losses/loss_non_decomposable.hpp:146-148`). -/
def Loss.isDecomposable : Loss → Bool
  | .decomposableLogistic | .decomposableSquaredError | .decomposableSquaredHinge => true
  | .nonDecomposableLogistic | .nonDecomposableSquaredError | .nonDecomposableSquaredHinge => false

/-- `ILossConfig::isSparse`: `false` in `losses/loss_decomposable.hpp:243-245`, overridden by `true` in
`losses/loss_decomposable_sparse.hpp:177-179` (the base of the squared hinge loss), `true` in
`losses/loss_non_decomposable.hpp:150-152`. -/
def Loss.isSparse : Loss → Bool
  | .decomposableLogistic | .decomposableSquaredError => false
  | .decomposableSquaredHinge => true
  | .nonDecomposableLogistic | .nonDecomposableSquaredError | .nonDecomposableSquaredHinge => true

/-- Whether `createMarginalProbabilityFunctionFactory` returns a factory rather than a null pointer
(`losses/loss_decomposable_logistic.cpp:99-102`, `loss_non_decomposable_logistic.cpp:334-337`; the other losses return
`nullptr`). -/
def Loss.hasMarginalProbabilities : Loss → Bool
  | .decomposableLogistic | .nonDecomposableLogistic => true
  | _ => false

/-- Whether `createJointProbabilityFunctionFactory` returns a factory rather than a null pointer
(`losses/loss_decomposable_logistic.cpp:104-107`, `loss_non_decomposable_logistic.cpp:339-342`; the other losses return
`nullptr`). -/
def Loss.hasJointProbabilities : Loss → Bool
  | .decomposableLogistic | .nonDecomposableLogistic => true
  | _ => false

/-- The types of rule heads (`cpp/subprojects/boosting/src/mlrl/boosting/rule_evaluation/head_type_*.cpp`). -/
inductive Head where
  | complete
  | fixedPartial
  | dynamicPartial
  | single
  | auto
  deriving DecidableEq, Repr

/-- The formats of statistics (`cpp/subprojects/boosting/src/mlrl/boosting/statistics/statistic_format_*.cpp`). -/
inductive Format where
  | dense
  | sparse
  | auto
  deriving DecidableEq, Repr

/-- The configurations of the default rule (`common/rule_model_assemblage/default_rule.cpp` with argument `true` or
`false`, `boosting/rule_model_assemblage/default_rule_auto.cpp`). -/
inductive DefaultRule where
  | always
  | never
  | auto
  deriving DecidableEq, Repr

/-- The part of the training data the choices depend on (`IOutputMatrix::isSparse`, `getNumOutputs`). -/
structure OutputMatrix where
  isSparse : Bool
  numOutputs : Nat

/-! ### The pointers and the mixins that set them -/

/-- The pointers of a configuration (`boosting/learner_common.hpp:80-104`, `common/learner_common.hpp:510`).
Simplification: only those read by the functions below. -/
structure State where
  classificationLoss : Option Loss
  regressionLoss : Option Loss
  classificationFormat : Option Format
  regressionFormat : Option Format
  head : Option Head
  defaultRule : Option DefaultRule

/-- All pointers are null when a configuration is created (`boosting/learner_common.hpp:124`). -/
def State.init : State := ⟨none, none, none, none, none, none⟩

/-- The functions of the mixins. -/
inductive Call where
  | useLoss (loss : Loss)
  | useFormat (format : Format)
  | useHead (head : Head)
  | useDefaultRule (defaultRule : DefaultRule)

/-- Whether the configuration object of a loss also implements `IRegressionLossConfig`
(`losses/loss_decomposable_squared_error.hpp:18-19`, `losses/loss_non_decomposable_squared_error.hpp:18-19`). -/
def Loss.isRegressionLoss : Loss → Bool
  | .decomposableSquaredError | .nonDecomposableSquaredError => true
  | _ => false

/-- The mixins that set a loss: those of `boosting/learner_classification.hpp:41-45, 61-65, 81-85, 101-105` set the
pointer to the regression loss to null, those of `boosting/learner.hpp:529-533, 549-553` set both pointers to the same
object. -/
def setLoss (s : State) (loss : Loss) : State :=
  if loss.isRegressionLoss then { s with classificationLoss := some loss, regressionLoss := some loss }
  else { s with classificationLoss := some loss, regressionLoss := none }

/-- One function call.  The statistics (`boosting/learner.hpp:248-253, 268-273, 288-295`) set both pointers to the same
object; heads (`boosting/learner.hpp:420-515`) and default rules (`common/learner.hpp`, `boosting/learner.hpp:385-405`)
set one pointer. -/
def Call.apply (s : State) : Call → State
  | .useLoss loss => setLoss s loss
  | .useFormat f => { s with classificationFormat := some f, regressionFormat := some f }
  | .useHead h => { s with head := some h }
  | .useDefaultRule d => { s with defaultRule := some d }

/-- A sequence of calls. -/
def configure (calls : List Call) (s : State) : State := calls.foldl Call.apply s

/-- The getter of a property that is backed by one pointer (`common/util/properties.hpp:97-128`). -/
def get (ptr : Option α) : Res α :=
  match ptr with
  | some a => .ok a
  | none => .error .exception

/-- The getter of a property that is backed by two pointers (`common/util/properties.hpp:140-157`). -/
def get₂ (ptr1 ptr2 : Option α) : Res α :=
  match ptr1 with
  | some a => .ok a
  | none => get ptr2

/-- `IBoostedRuleLearnerConfig::getLossConfig` (`boosting/learner_common.hpp:154-157`). -/
def State.lossConfig (s : State) : Res Loss := get₂ s.classificationLoss s.regressionLoss

/-- `IBoostedRuleLearnerConfig::getStatisticsConfig` (`boosting/learner_common.hpp:132-136`). -/
def State.statisticsConfig (s : State) : Res Format := get₂ s.classificationFormat s.regressionFormat

/-! ### The default rule -/

/-- `shouldSparseStatisticsBePreferred` (`boosting/statistics/statistic_format.hpp:25-28`). -/
def shouldSparseStatisticsBePreferred (m : OutputMatrix) (defaultRuleUsed partialHeadsUsed : Bool) : Bool :=
  m.isSparse && decide (m.numOutputs > 120) && !defaultRuleUsed && partialHeadsUsed

/-- `IHeadConfig::isPartial` (`head_type_complete.cpp`: `false`; `head_type_partial_fixed.cpp:187-189`,
`head_type_partial_dynamic.cpp`, `head_type_single.cpp:144-146`: `true`; `head_type_auto.cpp:69-71`). -/
def isPartial (s : State) : Head → Res Bool
  | .complete => .ok false
  | .fixedPartial => .ok true
  | .dynamicPartial => .ok true
  | .single => .ok true
  | .auto => do
    let l ← s.lossConfig
    pure (l.isDecomposable && l.isSparse)

/-- `IHeadConfig::isSingleOutput` (`head_type_single.cpp:148-150`: `true`; `head_type_auto.cpp:73-75`; otherwise
`false`, e.g. `head_type_partial_fixed.cpp:191-193`). -/
def isSingleOutput (s : State) : Head → Res Bool
  | .complete => .ok false
  | .fixedPartial => .ok false
  | .dynamicPartial => .ok false
  | .single => .ok true
  | .auto => do
    let l ← s.lossConfig
    pure (l.isDecomposable && l.isSparse)

/-- `IStatisticsConfig::isDense` (`statistic_format_dense.cpp:18-20`, `_sparse.cpp:26-28`, `_auto.cpp`). -/
def Format.isDense : Format → Bool
  | .dense => true
  | .sparse => false
  | .auto => false

/-- `IStatisticsConfig::isSparse` (`statistic_format_dense.cpp:22-24`, `_sparse.cpp:30-32`, `_auto.cpp`). -/
def Format.isSparse : Format → Bool
  | .dense => false
  | .sparse => true
  | .auto => false

/-- `AutomaticDefaultRuleConfig::isDefaultRuleUsed` (`boosting/rule_model_assemblage/default_rule_auto.cpp:10-19`); the
operands of `||` are evaluated lazily. -/
def isDefaultRuleUsedAuto (s : State) (m : OutputMatrix) : Res Bool := do
  let f ← s.statisticsConfig
  match f.isDense with
  | true => pure true
  | false =>
    let l ← s.lossConfig
    match f.isSparse with
    | true => pure (!l.isSparse)
    | false =>
      match !l.isSparse with
      | true => pure true
      | false => do
        let h ← get s.head
        let p ← isPartial s h
        pure (!shouldSparseStatisticsBePreferred m false p)

/-- `IDefaultRuleConfig::isDefaultRuleUsed` (`common/rule_model_assemblage/default_rule.cpp:5-7` and the automatic
configuration).  Read by `SequentialRuleModelAssemblageConfig::createRuleModelAssemblageFactory`
(`rule_model_assemblage_sequential.cpp:112`) as well as by the automatic statistics. -/
def isDefaultRuleUsed (s : State) (m : OutputMatrix) : Res Bool := do
  let d ← get s.defaultRule
  match d with
  | .always => pure true
  | .never => pure false
  | .auto => isDefaultRuleUsedAuto s m

/-! ### The statistics -/

/-- The kinds of rule evaluations, i.e., of heads that are found by them. -/
inductive Evaluation where
  | complete
  | fixedPartial
  | dynamicPartial
  | single
  deriving DecidableEq, Repr

/-- The created factory of statistics providers: whether it uses sparse statistics, and the rule evaluations used when
the default rule is learned, when rules are refined and when rules are pruned.  Simplification: the loss, evaluation
measure, label binning, regularisation and multi-threading settings the factory holds are left out. -/
structure Provider where
  sparse : Bool
  default : Evaluation
  regular : Evaluation
  pruning : Evaluation
  deriving DecidableEq, Repr

/-- A `DenseDecomposable...`, `DenseNonDecomposable...` or `DenseConvertibleNonDecomposable...StatisticsProviderFactory`
whose default rule evaluation is complete, as in all `head_type_*.cpp`. -/
def denseProvider (e : Evaluation) : Provider := ⟨false, .complete, e, e⟩

/-- `SparseDecomposableClassificationStatisticsProviderFactory`: the statistics are created with the regular rule
evaluation (`statistics_provider_decomposable_sparse.cpp:128-144`), so that it is used for the default rule as well. -/
def sparseProvider (e : Evaluation) : Provider := ⟨true, e, e, e⟩

/-- The overloads of `IHeadConfig::createClassificationStatisticsProviderFactory` and
`createRegressionStatisticsProviderFactory` (for regression there is no sparse one). -/
inductive Overload where
  | decomposable
  | sparseDecomposable
  | nonDecomposable

/-- The statistics provider factory created by a type of heads (`head_type_complete.cpp:16-112`,
`head_type_partial_fixed.cpp:65-185`, `head_type_partial_dynamic.cpp:36-150`, `head_type_single.cpp:17-142`,
`head_type_auto.cpp:16-67`).  The overloads for regression create the same kinds of factories. -/
def Head.create (m : OutputMatrix) : Head → Overload → Provider
  | .complete, _ => denseProvider .complete
  | .fixedPartial, .sparseDecomposable => sparseProvider .fixedPartial
  | .fixedPartial, _ => denseProvider .fixedPartial
  | .dynamicPartial, .sparseDecomposable => sparseProvider .dynamicPartial
  | .dynamicPartial, _ => denseProvider .dynamicPartial
  | .single, .sparseDecomposable => sparseProvider .single
  | .single, _ => denseProvider .single
  | .auto, .sparseDecomposable =>
    if m.numOutputs > 1 then sparseProvider .single else denseProvider .complete
  | .auto, _ => denseProvider .complete

/-- The overload used by a loss in `createClassificationStatisticsProviderFactory`
(`loss_decomposable_squared_hinge.cpp:69-79` depends on `preferSparseStatistics`; `loss_decomposable_logistic.cpp:92-97`,
`loss_decomposable_squared_error.cpp:63-68`, `loss_non_decomposable_logistic.cpp:326-332`,
`loss_non_decomposable_squared_error.cpp:386-392`, `loss_non_decomposable_squared_hinge.cpp:355-361` do not). -/
def Loss.overload (preferSparse : Bool) : Loss → Overload
  | .decomposableSquaredHinge => if preferSparse then .sparseDecomposable else .decomposable
  | .decomposableLogistic | .decomposableSquaredError => .decomposable
  | .nonDecomposableLogistic | .nonDecomposableSquaredError | .nonDecomposableSquaredHinge => .nonDecomposable

/-- The overload used by a loss in `createRegressionStatisticsProviderFactory`
(`loss_decomposable_squared_error.cpp:70-75`, `loss_non_decomposable_squared_error.cpp:394-400`). -/
def Loss.regressionOverload : Loss → Overload
  | .nonDecomposableSquaredError => .nonDecomposable
  | _ => .decomposable

/-- Whether sparse statistics are preferred (`statistic_format_dense.cpp:14-15`: `false`, `statistic_format_sparse.cpp:14-15`:
`true`, `statistic_format_auto.cpp:12-42`). -/
def preferSparse (s : State) (m : OutputMatrix) : Format → Res Bool
  | .dense => .ok false
  | .sparse => .ok true
  | .auto => do
    let d ← isDefaultRuleUsed s m
    let h ← get s.head
    let p ← isPartial s h
    pure (shouldSparseStatisticsBePreferred m d p)

/-- `BoostedRuleLearnerConfigurator::createClassificationStatisticsProviderFactory` (`boosting/learner_common.hpp:53-58`):
statistics, loss and heads are consulted one after the other. -/
def createClassification (s : State) (m : OutputMatrix) : Res Provider := do
  let f ← get s.classificationFormat
  let p ← preferSparse s m f
  let l ← get s.classificationLoss
  let h ← get s.head
  pure (h.create m (l.overload p))

/-- `BoostedRuleLearnerConfigurator::createRegressionStatisticsProviderFactory` (`boosting/learner_common.hpp:63-67`). -/
def createRegression (s : State) (m : OutputMatrix) : Res Provider := do
  let f ← get s.regressionFormat
  let _p ← preferSparse s m f
  let l ← get s.regressionLoss
  let h ← get s.head
  pure (h.create m l.regressionOverload)

/-! ### Predictors, calibrators and the label vectors they need -/

/-- The binary predictors of a boosting algorithm (`boosting/prediction/predictor_binary_*.cpp`,
`common/prediction/predictor_binary_no.cpp`); the flag is `basedOnProbabilities_`. -/
inductive BinaryPredictor where
  | no
  | outputWise (basedOnProbabilities : Bool)
  | exampleWise (basedOnProbabilities : Bool)
  | gfm
  | auto
  deriving DecidableEq, Repr

/-- The probability predictors (`boosting/prediction/predictor_probability_*.cpp`,
`common/prediction/predictor_probability_no.cpp`). -/
inductive ProbabilityPredictor where
  | no
  | outputWise
  | marginalized
  | auto
  deriving DecidableEq, Repr

/-- The calibrators of marginal or joint probabilities (`boosting/prediction/probability_calibration_isotonic.cpp`,
`common/prediction/probability_calibration_no.cpp`); the flag is `useHoldoutSet_`. -/
inductive Calibrator where
  | no
  | isotonic (useHoldoutSet : Bool)
  deriving DecidableEq, Repr

/-- Global pruning (`common/stopping/global_pruning_{no,pre,post}.cpp`); the flag is `useHoldoutSet_`. -/
inductive GlobalPruning where
  | no
  | pre (useHoldoutSet : Bool)
  | post (useHoldoutSet : Bool)
  deriving DecidableEq, Repr

/-- The configuration of predictions and calibrations, together with the loss for classification problems. -/
structure Prediction where
  loss : Loss
  binary : BinaryPredictor
  probability : ProbabilityPredictor
  marginal : Calibrator
  joint : Calibrator
  pruning : GlobalPruning

/-- The kinds of predictors that may be created. -/
inductive Predictor where
  | outputWise
  | exampleWise
  | gfm
  | marginalized
  deriving DecidableEq, Repr

/-- `IBinaryPredictorConfig::createPredictorFactory` and `createSparsePredictorFactory` (which test the same
conditions): `none` is a null pointer (`predictor_binary_output_wise.cpp:159-175, 203-233`,
`predictor_binary_example_wise.cpp:219-226, 256-286`, `predictor_binary_gfm.cpp:241-271`,
`predictor_binary_auto.cpp:11-33`; `createDistanceMeasureFactory` never returns a null pointer). -/
def BinaryPredictor.factory (l : Loss) : BinaryPredictor → Option Predictor
  | .no => none
  | .outputWise false => some .outputWise
  | .outputWise true => if l.hasMarginalProbabilities then some .outputWise else none
  | .exampleWise false => some .exampleWise
  | .exampleWise true => if l.hasJointProbabilities then some .exampleWise else none
  | .gfm => if l.hasJointProbabilities then some .gfm else none
  | .auto => if l.isDecomposable then some .outputWise else some .exampleWise

/-- `IBinaryPredictorConfig::isLabelVectorSetNeeded` (`predictor_binary_output_wise.cpp:235-237`,
`predictor_binary_example_wise.cpp:288-290`, `predictor_binary_gfm.cpp:273-275`, `predictor_binary_auto.cpp:35-41`,
`predictor_binary_no.cpp:13-15`). -/
def BinaryPredictor.needsLabelVectors (l : Loss) : BinaryPredictor → Bool
  | .no => false
  | .outputWise _ => false
  | .exampleWise _ => true
  | .gfm => true
  | .auto => if l.isDecomposable then false else true

/-- `IProbabilityPredictorConfig::createPredictorFactory` (`predictor_probability_output_wise.cpp:96-110`,
`predictor_probability_marginalized.cpp:132-146`, `predictor_probability_auto.cpp:11-22`). -/
def ProbabilityPredictor.factory (l : Loss) : ProbabilityPredictor → Option Predictor
  | .no => none
  | .outputWise => if l.hasMarginalProbabilities then some .outputWise else none
  | .marginalized => if l.hasJointProbabilities then some .marginalized else none
  | .auto =>
    if l.isDecomposable then (if l.hasMarginalProbabilities then some .outputWise else none)
    else (if l.hasJointProbabilities then some .marginalized else none)

/-- `IProbabilityPredictorConfig::isLabelVectorSetNeeded` (`predictor_probability_output_wise.cpp:112-114`,
`predictor_probability_marginalized.cpp:148-150`, `predictor_probability_auto.cpp:24-30`). -/
def ProbabilityPredictor.needsLabelVectors (l : Loss) : ProbabilityPredictor → Bool
  | .no => false
  | .outputWise => false
  | .marginalized => true
  | .auto => if l.isDecomposable then false else true

/-- `IJointProbabilityCalibratorConfig::isLabelVectorSetNeeded` (`probability_calibration_isotonic.cpp:665-667`,
`probability_calibration_no.cpp:103-105`). -/
def Calibrator.needsLabelVectors : Calibrator → Bool
  | .no => false
  | .isotonic _ => true

/-- `RuleLearnerConfigurator::createOutputSpaceInfo` (`common/learner_common.hpp:382-391`): whether the training result
contains a set of label vectors.  The score predictor never needs one (`predictor_score_output_wise.cpp:57-59`,
`predictor_score_no.cpp:8-10`). -/
def Prediction.hasLabelVectorSet (c : Prediction) : Bool :=
  c.binary.needsLabelVectors c.loss || false || c.probability.needsLabelVectors c.loss || c.joint.needsLabelVectors

/-- The creation of a predictor by a factory: an exception is thrown if a required set of label vectors is missing
(`predictor_binary_example_wise.cpp:13-21`, `predictor_binary_gfm.cpp:14-22`,
`predictor_probability_marginalized.cpp:16-24`). -/
def Predictor.create (labelVectorSet : Bool) : Predictor → Res Predictor
  | .outputWise => .ok .outputWise
  | .exampleWise => if labelVectorSet then .ok .exampleWise else .error .exception
  | .gfm => if labelVectorSet then .ok .gfm else .error .exception
  | .marginalized => if labelVectorSet then .ok .marginalized else .error .exception

/-- The creation of a predictor by a learner: an exception is thrown if there is no factory
(`common/learner_classification_common.hpp:147-200`). -/
def createPredictor (factory : Option Predictor) (labelVectorSet : Bool) : Res Predictor :=
  match factory with
  | some p => p.create labelVectorSet
  | none => .error .exception

/-- The calibrator of joint probabilities that is created when a learner is trained
(`learner_classification_common.hpp:111-115`, `probability_calibration_isotonic.cpp:630-644, 669-680`): without a joint
probability function no calibration takes place; otherwise, an exception is thrown if there is no set of label vectors. -/
def createJointCalibrator (l : Loss) (labelVectorSet : Bool) : Calibrator → Res Calibrator
  | .no => .ok .no
  | .isotonic h =>
    if l.hasJointProbabilities then (if labelVectorSet then .ok (.isotonic h) else .error .exception) else .ok .no

/-- The calibrator of marginal probabilities that is created when a learner is trained
(`probability_calibration_isotonic.cpp:322-333`). -/
def createMarginalCalibrator (l : Loss) : Calibrator → Calibrator
  | .no => .no
  | .isotonic h => if l.hasMarginalProbabilities then .isotonic h else .no

/-- `shouldUseHoldoutSet` of a calibrator (`probability_calibration_isotonic.cpp:318-320, 661-663`,
`probability_calibration_no.cpp:53-55, 99-101`). -/
def Calibrator.shouldUseHoldoutSet : Calibrator → Bool
  | .no => false
  | .isotonic h => h

/-- `IGlobalPruningConfig::shouldUseHoldoutSet` (`global_pruning_no.cpp:7-9`, `global_pruning_pre.cpp:294-296`,
`global_pruning_post.cpp:141-143`). -/
def GlobalPruning.shouldUseHoldoutSet : GlobalPruning → Bool
  | .no => false
  | .pre h => h
  | .post h => h

/-- Whether the automatic partition sampling creates a bi-partition (`boosting/sampling/partition_sampling_auto.cpp:9-44`). -/
def usesBiPartition (c : Prediction) : Bool :=
  c.pruning.shouldUseHoldoutSet || c.marginal.shouldUseHoldoutSet || c.joint.shouldUseHoldoutSet

end MLRL.AutoConfig
