import Verif.Model.Sampling
import Verif.Model.Stopping

/-!
# Model of the setters of configurations

Sources: `common/include/mlrl/common/util/validation.hpp` and the configuration classes named below.

A floating point value is a rational number (there is no rounding) or `none`, if it is not a number. Infinities are not modelled. Exceptions are
reported as faults; setters throw exceptions before they modify anything.
-/

namespace MLRL.Config

/-! ### Assertions -/

/-- Comparisons of floating point values are false if one of them is not a number. -/
def isLess (a b : Option ℚ) : Bool :=
  match a, b with
  | some a, some b => decide (a < b)
  | _, _ => false

/-- `assertGreater`, validation.hpp:19-25. -/
def assertGreater (value threshold : Option ℚ) : Res Unit := if !(isLess threshold value) then .error .exception else .ok ()

/-- `assertGreaterOrEqual`, validation.hpp:35-42. -/
def assertGreaterOrEqual (value threshold : Option ℚ) : Res Unit := if isLess value threshold then .error .exception else .ok ()

/-- `assertLess`, validation.hpp:52-58. -/
def assertLess (value threshold : Option ℚ) : Res Unit := if !(isLess value threshold) then .error .exception else .ok ()

/-- `assertLessOrEqual`, validation.hpp:68-74. -/
def assertLessOrEqual (value threshold : Option ℚ) : Res Unit := if isLess threshold value then .error .exception else .ok ()

/-- `assertGreaterOrEqual` for integers, validation.hpp:35-42. -/
def assertAtLeast (value threshold : Nat) : Res Unit := if value < threshold then .error .exception else .ok ()

/-- `assertMultiple`, validation.hpp:84-90. -/
def assertMultiple (value other : Nat) : Res Unit := do
  let m ← modAt value other
  if m ≠ 0 then .error .exception else .ok ()

/-- `isEqualToZero` for floating point values, types.hpp:38-41 and 61-64, where `ε` is the machine epsilon. The comparison is false if the value is
not a number. -/
def isEqualToZero (ε : ℚ) (a : Option ℚ) : Bool :=
  match a with
  | some a => decide (|a| ≤ ε * max 1 |a|)
  | none => false

/-! ### Configurations with a ratio, a minimum and a maximum -/

/-- The members of configurations such as `InstanceSamplingWithoutReplacementConfig`. -/
structure BoundedConfig where
  ratio : Option ℚ
  minimum : Nat
  maximum : Nat
  deriving DecidableEq

/-- In what regard these configurations differ: the check of the ratio, the smallest value of the minimum and the initial values. -/
structure BoundedClass where
  checkRatio : Option ℚ → Res Unit
  lowest : Nat
  initial : BoundedConfig

/-- The setters. -/
inductive BoundedCall where
  | setRatio (ratio : Option ℚ)
  | setMinimum (minimum : Nat)
  | setMaximum (maximum : Nat)

/-- A call of a setter, e.g. instance_sampling_without_replacement.cpp:164-189. -/
def BoundedCall.apply (c : BoundedClass) (s : BoundedConfig) : BoundedCall → Res BoundedConfig
  | .setRatio ratio => do
    let _ ← c.checkRatio ratio
    return { s with ratio := ratio }
  | .setMinimum minimum => do
    let _ ← assertAtLeast minimum c.lowest
    return { s with minimum := minimum }
  | .setMaximum maximum => do
    let _ ← if maximum ≠ 0 then assertAtLeast maximum s.minimum else .ok ()
    return { s with maximum := maximum }

/-- Several calls; the configuration remains as it is if an exception is thrown. Other faults do not occur (`assertAtLeast` and `checkRatio` throw
exceptions only). -/
def runBounded (c : BoundedClass) : List BoundedCall → BoundedConfig → BoundedConfig
  | [], s => s
  | call :: calls, s =>
    match call.apply c s with
    | .ok s' => runBounded c calls s'
    | .error _ => runBounded c calls s

/-- `assertGreater(ratio, 0)` and `assertLess(ratio, 1)`. -/
def checkOpen (ratio : Option ℚ) : Res Unit := do
  let _ ← assertGreater ratio (some 0)
  assertLess ratio (some 1)

/-- `InstanceSamplingWithoutReplacementConfig`, instance_sampling_without_replacement.cpp:156-189;
`ExampleWiseStratifiedInstanceSamplingConfig`, instance_sampling_stratified_example_wise.cpp:123-159;
`OutputWiseStratifiedInstanceSamplingConfig`, instance_sampling_stratified_output_wise.cpp:122-158. -/
def instanceSampling : BoundedClass := { checkRatio := checkOpen, lowest := 1, initial := ⟨some (66 / 100), 1, 0⟩ }

/-- `InstanceSamplingWithReplacementConfig`, instance_sampling_with_replacement.cpp:190-222. -/
def instanceSamplingWithReplacement : BoundedClass :=
  { checkRatio := fun ratio => do
      let _ ← assertGreater ratio (some 0)
      assertLessOrEqual ratio (some 1)
    lowest := 1, initial := ⟨some (66 / 100), 1, 0⟩ }

/-- `OutputSamplingWithoutReplacementConfig`, output_sampling_without_replacement.cpp:70-102. -/
def outputSampling : BoundedClass := { checkRatio := checkOpen, lowest := 1, initial := ⟨some (33 / 100), 1, 1⟩ }

/-- `FeatureSamplingWithoutReplacementConfig`, feature_sampling_without_replacement.cpp:101-133. The member `numRetained_` may have any value. -/
def featureSampling : BoundedClass :=
  { checkRatio := fun ratio => do
      let _ ← assertGreaterOrEqual ratio (some 0)
      assertLess ratio (some 1)
    lowest := 1, initial := ⟨some 0, 1, 0⟩ }

/-- `EqualWidthFeatureBinningConfig`, feature_binning_equal_width.cpp:226-257; `EqualFrequencyFeatureBinningConfig`,
feature_binning_equal_frequency.cpp:220-251. -/
def featureBinning : BoundedClass := { checkRatio := checkOpen, lowest := 2, initial := ⟨some (33 / 100), 2, 0⟩ }

/-- `EqualWidthLabelBinningConfig`, label_binning_equal_width.cpp:166-201. -/
def labelBinning : BoundedClass := { checkRatio := checkOpen, lowest := 1, initial := ⟨some (4 / 100), 1, 0⟩ }

/-- `FixedPartialHeadConfig`, head_type_partial_fixed.cpp:26-63. -/
def fixedPartialHead (ε : ℚ) : BoundedClass :=
  { checkRatio := fun ratio => if !(isEqualToZero ε ratio) then checkOpen ratio else .ok (), lowest := 2, initial := ⟨some 0, 2, 0⟩ }

/-! ### Rule induction -/

/-- The members `minCoverage_` and `minSupport_` of `GreedyTopDownRuleInductionConfig` and `BeamSearchTopDownRuleInductionConfig`. -/
structure CoverageConfig where
  minCoverage : Nat
  minSupport : Option ℚ
  deriving DecidableEq

/-- The setters of these members. -/
inductive CoverageCall where
  | setMinCoverage (minCoverage : Nat)
  | setMinSupport (minSupport : Option ℚ)

/-- rule_induction_top_down_greedy.cpp:186-204, rule_induction_top_down_beam_search.cpp:465-483. -/
def CoverageCall.apply (ε : ℚ) (s : CoverageConfig) : CoverageCall → Res CoverageConfig
  | .setMinCoverage minCoverage => do
    let _ ← assertAtLeast minCoverage 1
    return { s with minCoverage := minCoverage }
  | .setMinSupport minSupport => do
    let _ ← if !(isEqualToZero ε minSupport) then checkOpen minSupport else .ok ()
    return { s with minSupport := minSupport }

/-- The initial values, rule_induction_top_down_greedy.cpp:178, and several calls. -/
def runCoverage (ε : ℚ) : List CoverageCall → CoverageConfig → CoverageConfig
  | [], s => s
  | call :: calls, s =>
    match call.apply ε s with
    | .ok s' => runCoverage ε calls s'
    | .error _ => runCoverage ε calls s

/-- rule_induction_top_down_greedy.cpp:178. -/
def CoverageConfig.init : CoverageConfig := ⟨1, some 0⟩

/-- The number of examples that must be covered, rule_induction_top_down_greedy.cpp:238-245. The conversion of a value that is not a number is
undefined (but is not reached, because comparisons are false). -/
def minCoverageOf (s : CoverageConfig) (numExamples : Nat) : Nat :=
  match s.minSupport with
  | some minSupport =>
    if minSupport > 0 then Sampling.calculateBoundedFraction numExamples minSupport s.minCoverage numExamples
    else min numExamples s.minCoverage
  | none => min numExamples s.minCoverage

/-! ### Pre-pruning -/

/-- The members of `PrePruningConfig` that are checked. -/
structure PrePruningConfig where
  minRules : Nat
  updateInterval : Nat
  stopInterval : Nat
  numPast : Nat
  numCurrent : Nat
  minImprovement : Option ℚ
  deriving DecidableEq

/-- The initial values, global_pruning_pre.cpp:194-196. -/
def PrePruningConfig.init : PrePruningConfig := ⟨100, 1, 1, 50, 50, some (5 / 1000)⟩

/-- The setters. -/
inductive PrePruningCall where
  | setMinRules (minRules : Nat)
  | setUpdateInterval (updateInterval : Nat)
  | setStopInterval (stopInterval : Nat)
  | setNumPast (numPast : Nat)
  | setNumCurrent (numCurrent : Nat)
  | setMinImprovement (minImprovement : Option ℚ)

/-- global_pruning_pre.cpp:229-284. -/
def PrePruningCall.apply (s : PrePruningConfig) : PrePruningCall → Res PrePruningConfig
  | .setMinRules minRules => do
    let _ ← assertAtLeast minRules 1
    return { s with minRules := minRules }
  | .setUpdateInterval updateInterval => do
    let _ ← assertAtLeast updateInterval 1
    return { s with updateInterval := updateInterval }
  | .setStopInterval stopInterval => do
    let _ ← assertMultiple stopInterval s.updateInterval
    return { s with stopInterval := stopInterval }
  | .setNumPast numPast => do
    let _ ← assertAtLeast numPast 1
    return { s with numPast := numPast }
  | .setNumCurrent numCurrent => do
    let _ ← assertAtLeast numCurrent 1
    return { s with numCurrent := numCurrent }
  | .setMinImprovement minImprovement => do
    let _ ← assertGreaterOrEqual minImprovement (some 0)
    let _ ← assertLessOrEqual minImprovement (some 1)
    return { s with minImprovement := minImprovement }

/-- Several calls; the configuration remains as it is if an exception is thrown. Undefined behaviour is propagated. -/
def runPrePruning : List PrePruningCall → PrePruningConfig → Res PrePruningConfig
  | [], s => .ok s
  | call :: calls, s =>
    match call.apply s with
    | .ok s' => runPrePruning calls s'
    | .error .exception => runPrePruning calls s
    | .error e => .error e

end MLRL.Config
