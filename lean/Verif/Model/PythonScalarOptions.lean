import Verif.Model.PythonScalars

/-!
# Parameters and options with individual numbers

In the following, `common` refers to `python/subprojects/common/mlrl/common/config.py`, `boosting` to `python/subprojects/boosting/mlrl/boosting/config.py` and `seco` to
`python/subprojects/seco/mlrl/seco/config.py`. The functions `int` and `float` are parameters. The roundings to the formats binary32 and binary64, which affect literals in the C++ code, are denoted
by `rnd32` and `rnd64`. What remains of a configuration when an exception is raised is not modelled.
-/

namespace MLRL.PythonScalarOptions

open PythonOptions (Str Dict getNumber getBool)
open PythonSetters (PyFloat Failure)
open PythonPrePruning (lift)
open PythonScalars (FloatSetter IntSetter)

/-! ### Numerical parameters -/

/-- `self.numeric_type(value)` in `NumericalParameter.configure`, common:249-251. -/
def parse {α : Type} (convert : Str → Option α) (text : Str) : Except Failure α :=
  match convert text with
  | some value => .ok value
  | none => .error .valueError

/-- `SizeStoppingCriterionParameter._configure`, common:732-736, and `TimeStoppingCriterionParameter._configure`, common:751-755. The first argument specifies whether the configuration supports that
no stopping criterion is used. Returns `none` if no stopping criterion is used. -/
def configureLimit (supportsNone : Bool) (s : IntSetter) (value : Int) : Except Failure (Option Nat) :=
  if value = 0 ∧ supportsNone then .ok none
  else do
    let n ← s.set value
    return some n

/-- `value == number` -/
def isNumber : PyFloat → ℚ → Bool
  | .fin x, y => decide (x = y)
  | _, _ => false

/-- `ShrinkageParameter._configure`, boosting:123-127, where the neutral value is one, and `L1RegularizationParameter._configure`, boosting:140-144, as well as
`L2RegularizationParameter._configure`, boosting:157-161, where it is zero. Returns `none` if no post-processor or regularization is used. -/
def configureWeight (rnd32 : ℚ → ℚ) (supportsNone : Bool) (s : FloatSetter) (neutral : ℚ) (value : PyFloat) : Except Failure (Option PyFloat) :=
  if isNumber value neutral ∧ supportsNone then .ok none
  else do
    let w ← s.set rnd32 value
    return some w

/-- `configure` of the parameter `max_rules`, common:720-736. -/
def configureMaxRules (supportsNone : Bool) (int : Str → Option Int) (text : Str) : Except Failure (Option Nat) := do
  let value ← parse int text
  configureLimit supportsNone .maxRules value

/-- `configure` of the parameter `time_limit`, common:739-755. -/
def configureTimeLimit (supportsNone : Bool) (int : Str → Option Int) (text : Str) : Except Failure (Option Nat) := do
  let value ← parse int text
  configureLimit supportsNone .timeLimit value

/-- `configure` of the parameter `shrinkage`, boosting:112-127. -/
def configureShrinkage (rnd32 : ℚ → ℚ) (supportsNone : Bool) (float : Str → Option PyFloat) (text : Str) : Except Failure (Option PyFloat) := do
  let value ← parse float text
  configureWeight rnd32 supportsNone .shrinkage 1 value

/-- `configure` of the parameters `l1_regularization_weight` and `l2_regularization_weight`, boosting:130-161. -/
def configureRegularization (rnd32 : ℚ → ℚ) (supportsNone : Bool) (float : Str → Option PyFloat) (text : Str) : Except Failure (Option PyFloat) := do
  let value ← parse float text
  configureWeight rnd32 supportsNone .regularizationWeight 0 value

/-! ### Options -/

/-- `conf.set_...(options.get_float(..., conf.get_...()))` -/
def floatOption (rnd32 : ℚ → ℚ) (s : FloatSetter) (float : Str → Option PyFloat) (options : Dict) (key : Str) (default : ℚ) : Except Failure PyFloat := do
  let value ← lift (getNumber float options key (.fin default))
  s.set rnd32 value

/-- `conf.set_...(options.get_int(..., conf.get_...()))` -/
def intOption (s : IntSetter) (int : Str → Option Int) (options : Dict) (key : Str) (default : Nat) : Except Failure Nat := do
  let value ← lift (getNumber int options key default)
  s.set value

/-- The properties of the class `PeakLiftFunctionConfig`. -/
structure PeakState where
  peakLabel : Nat
  maxLift : PyFloat
  curvature : PyFloat

/-- `LiftFunctionParameter._configure` if the value is `peak`, seco:86-90. The default values are set in lift_function_peak.cpp:116. -/
def configurePeak (rnd32 rnd64 : ℚ → ℚ) (int : Str → Option Int) (float : Str → Option PyFloat) (options : Dict) : Except Failure PeakState := do
  let peakLabel ← intOption .peakLabel int options "peak_label".toList 2
  let maxLift ← floatOption rnd32 .maxLift float options "max_lift".toList (rnd64 (108 / 100))
  let curvature ← floatOption rnd32 .curvature float options "curvature".toList 1
  return ⟨peakLabel, maxLift, curvature⟩

/-- `LiftFunctionParameter._configure` if the value is `kln`, seco:91-93. The default value is set in lift_function_kln.cpp:66. -/
def configureKln (rnd32 rnd64 : ℚ → ℚ) (float : Str → Option PyFloat) (options : Dict) : Except Failure PyFloat :=
  floatOption rnd32 .k float options "k".toList (rnd64 (2 / 10))

/-- `HeuristicParameter._configure` and `PruningHeuristicParameter._configure` if the value is `f-measure`, seco:123-125,159-161. The default value is set in
heuristic_f_measure.cpp:68. -/
def configureFMeasure (rnd32 : ℚ → ℚ) (float : Str → Option PyFloat) (options : Dict) : Except Failure PyFloat :=
  floatOption rnd32 .beta float options "beta".toList (1 / 4)

/-- `HeuristicParameter._configure` and `PruningHeuristicParameter._configure` if the value is `m-estimate`, seco:126-128,162-164. The default value is set in
heuristic_m_estimate.cpp:71. -/
def configureMEstimate (rnd32 rnd64 : ℚ → ℚ) (float : Str → Option PyFloat) (options : Dict) : Except Failure PyFloat :=
  floatOption rnd32 .m float options "m".toList (rnd64 (22466 / 1000))

/-- The properties of the class `DynamicPartialHeadConfig`. -/
structure DynamicHeadState where
  threshold : PyFloat
  exponent : PyFloat

/-- `HeadTypeParameter._configure` if the value is `partial-dynamic`, boosting:340-343. The default values are set in head_type_partial_dynamic.cpp:12. -/
def configureDynamicHeads (rnd32 : ℚ → ℚ) (float : Str → Option PyFloat) (options : Dict) : Except Failure DynamicHeadState := do
  let threshold ← floatOption rnd32 .headThreshold float options "threshold".toList (rnd32 (2 / 100))
  let exponent ← floatOption rnd32 .exponent float options "exponent".toList 2
  return ⟨threshold, exponent⟩

/-- `PartitionSamplingParameter._configure` if a holdout set should be used, common:512-520. The default value is set in partition_sampling_bi_random.cpp:99,
partition_sampling_bi_stratified_output_wise.cpp:87 and partition_sampling_bi_stratified_example_wise.cpp:86. -/
def configureHoldout (rnd32 : ℚ → ℚ) (float : Str → Option PyFloat) (options : Dict) : Except Failure PyFloat :=
  floatOption rnd32 .holdoutSetSize float options "holdout_set_size".toList (rnd32 (33 / 100))

/-- The properties of the class `SequentialPostOptimizationConfig`. -/
structure PostOptimizationState where
  numIterations : Nat
  refineHeads : Bool
  resampleFeatures : Bool

/-- `SequentialPostOptimizationParameter._configure` if the value is `true`, common:781-785. The default values are set in post_optimization_sequential.cpp:166. -/
def configurePostOptimization (int : Str → Option Int) (options : Dict) : Except Failure PostOptimizationState := do
  let numIterations ← intOption .numIterations int options "num_iterations".toList 2
  let refineHeads ← lift (getBool options "refine_heads".toList false)
  let resampleFeatures ← lift (getBool options "resample_features".toList true)
  return ⟨numIterations, refineHeads, resampleFeatures⟩

/-- The warnings that are logged. -/
inductive Warning where
  | notSupported
  | tooManyThreads
  deriving DecidableEq

/-- The statements in common:653-658, 683-688 and 712-717 that log warnings. -/
def threadWarning (supported : Bool) (numCores : Nat) (numPreferredThreads : Nat) : Option Warning :=
  if numPreferredThreads > 1 ∧ !supported then some .notSupported
  else if numPreferredThreads > numCores then some .tooManyThreads
  else none

/-- `ParallelRuleRefinementParameter._configure`, `ParallelStatisticUpdateParameter._configure` and `ParallelPredictionParameter._configure` if the value is not `false`, common:649-658, 679-688 and
708-717. The default value is set in multi_threading_manual.cpp:6. The warning depends on the value before it is converted, which is the same number. -/
def configureThreads (supported : Bool) (numCores : Nat) (int : Str → Option Int) (options : Dict) : Except Failure (Nat × Option Warning) := do
  let n ← intOption .numPreferredThreads int options "num_preferred_threads".toList 0
  return (n, threadWarning supported numCores n)

end MLRL.PythonScalarOptions
