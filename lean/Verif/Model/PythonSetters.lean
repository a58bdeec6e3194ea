import Verif.Model.Config
import Verif.Model.FloatBinning

/-!
# Model of setters that are called via the Python API

Sources (`/repo/python/subprojects`): `common/mlrl/common/cython/validation.py`, `common/mlrl/common/cython/instance_sampling.pyx` and `.pxd`,
`common/mlrl/common/cython/output_sampling.pyx` and `.pxd`, `common/mlrl/common/cython/feature_sampling.pyx` and `.pxd`,
`common/mlrl/common/cython/feature_binning.pyx` and `.pxd`, `boosting/mlrl/boosting/cython/label_binning.pyx` and `.pxd`,
`boosting/mlrl/boosting/cython/head_type.pyx` and `.pxd`. The setters of the C++ API are those in `Verif/Model/Config.lean`.

A setter checks the given value, converts it into the type that is declared in the `.pxd` file, and calls the setter of the C++ API. If the latter throws an exception, it
is translated into a `ValueError`, if `except +` is specified in the `.pxd` file. Otherwise, the program is terminated. The functions `rnd32` and `rnd64`, which round to the
formats binary32 and binary64, are parameters.
-/

namespace MLRL.PythonSetters

open Config

/-- A floating point value in Python. -/
inductive PyFloat where
  | nan
  | negInf
  | posInf
  | fin (x : ℚ)

/-- `value <= threshold` -/
def PyFloat.le : PyFloat → ℚ → Bool
  | .nan, _ => false
  | .negInf, _ => true
  | .posInf, _ => false
  | .fin x, t => decide (x ≤ t)

/-- `value < threshold` -/
def PyFloat.lt : PyFloat → ℚ → Bool
  | .nan, _ => false
  | .negInf, _ => true
  | .posInf, _ => false
  | .fin x, t => decide (x < t)

/-- `value >= threshold` -/
def PyFloat.ge : PyFloat → ℚ → Bool
  | .nan, _ => false
  | .negInf, _ => false
  | .posInf, _ => true
  | .fin x, t => decide (t ≤ x)

/-- What may happen instead of a property being set. `infinite` means that an infinite value is passed to the C++ API, which is not modelled. -/
inductive Failure where
  | valueError
  | overflowError
  | terminated
  | undefined
  | infinite
  deriving DecidableEq

/-- `assert_greater`, validation.py:6-16. -/
def assertGreater (value : PyFloat) (threshold : ℚ) : Except Failure Unit := if value.le threshold then .error .valueError else .ok ()

/-- `assert_greater_or_equal`, validation.py:19-29, for floating point values. -/
def assertGreaterOrEqual (value : PyFloat) (threshold : ℚ) : Except Failure Unit := if value.lt threshold then .error .valueError else .ok ()

/-- `assert_less`, validation.py:32-42. -/
def assertLess (value : PyFloat) (threshold : ℚ) : Except Failure Unit := if value.ge threshold then .error .valueError else .ok ()

/-- `assert_greater_or_equal`, validation.py:19-29, for integers. -/
def assertAtLeast (value threshold : Int) : Except Failure Unit := if value < threshold then .error .valueError else .ok ()

/-- The checks of a ratio in `set_sample_size`, `set_bin_ratio` and `set_output_ratio`: `open` in instance_sampling.pyx:30-31, output_sampling.pyx:29-30,
feature_binning.pyx:31-32, label_binning.pyx:31-32; `zero` in feature_sampling.pyx:30-31; `optional` in head_type.pyx:31-33. -/
inductive RatioCheck where
  | open
  | zero
  | optional

/-- `value != 0.0` -/
def PyFloat.nonZero : PyFloat → Bool
  | .fin x => decide (x ≠ 0)
  | _ => true

/-- The checks of a ratio. -/
def RatioCheck.run : RatioCheck → PyFloat → Except Failure Unit
  | .open, value => do
    let _ ← assertGreater value 0
    assertLess value 1
  | .zero, value => do
    let _ ← assertGreaterOrEqual value 0
    assertLess value 1
  | .optional, value =>
    if value.nonZero then do
      let _ ← assertGreater value 0
      assertLess value 1
    else .ok ()

/-- A class of the Python API: the check of the ratio, the smallest value of the minimum, the type of the other arguments that is declared in the `.pxd` file (either `float32` or `uint32`), whether
exceptions are translated, and the corresponding class of the C++ API. -/
structure PyClass where
  check : RatioCheck
  lowest : Int
  countsAreFloats : Bool
  translated : Bool
  cpp : BoundedClass

/-- `InstanceSamplingWithoutReplacementConfig`, `ExampleWiseStratifiedInstanceSamplingConfig` and `OutputWiseStratifiedInstanceSamplingConfig`, instance_sampling.pyx,
instance_sampling.pxd:4-40 and 61-78. -/
def instanceSampling : PyClass := ⟨.open, 1, true, false, Config.instanceSampling⟩

/-- `InstanceSamplingWithReplacementConfig`, instance_sampling.pyx, instance_sampling.pxd:42-59. -/
def instanceSamplingWithReplacement : PyClass := ⟨.open, 1, true, false, Config.instanceSamplingWithReplacement⟩

/-- `OutputSamplingWithoutReplacementConfig`, output_sampling.pyx, output_sampling.pxd:4-20. -/
def outputSampling : PyClass := ⟨.open, 1, true, false, Config.outputSampling⟩

/-- `FeatureSamplingWithoutReplacementConfig`, feature_sampling.pyx, feature_sampling.pxd:4-24. -/
def featureSampling : PyClass := ⟨.zero, 1, false, true, Config.featureSampling⟩

/-- `EqualWidthFeatureBinningConfig` and `EqualFrequencyFeatureBinningConfig`, feature_binning.pyx, feature_binning.pxd. -/
def featureBinning : PyClass := ⟨.open, 2, false, true, Config.featureBinning⟩

/-- `EqualWidthLabelBinningConfig`, label_binning.pyx, label_binning.pxd. -/
def labelBinning : PyClass := ⟨.open, 1, false, true, Config.labelBinning⟩

/-- `FixedPartialHeadConfig`, head_type.pyx, head_type.pxd. -/
def fixedPartialHead (ε : ℚ) : PyClass := ⟨.optional, 2, false, true, Config.fixedPartialHead ε⟩

/-- The conversion into a value of type `float32`; values that are too large become infinite. -/
def toFloat32 (rnd32 : ℚ → ℚ) : PyFloat → Except Failure (Option ℚ)
  | .nan => .ok none
  | .negInf => .error .infinite
  | .posInf => .error .infinite
  | .fin x => if |rnd32 x| ≤ FloatingPoint.maxFloat32 then .ok (some (rnd32 x)) else .error .infinite

/-- The greatest finite number of type `float64`. -/
def maxFloat64 : ℚ := (2 ^ 53 - 1) * 2 ^ 971

/-- The conversion of an integer into a value of type `uint32`. If the declared type is `uint32`, an `OverflowError` is raised if the integer is out of range. If the declared
type is `float32`, the integer is converted into a value of type `float64` first, which raises an `OverflowError` if it is too large, then into a value of type `float32`, and
finally into one of type `uint32`. The behaviour of the latter is undefined if the value is out of range. -/
def toUint32 (rnd32 rnd64 : ℚ → ℚ) (countsAreFloats : Bool) (n : Int) : Except Failure Nat :=
  if countsAreFloats then
    if |rnd64 n| ≤ maxFloat64 then
      let x := rnd32 (rnd64 n)
      if -1 < x ∧ x < 2 ^ 32 then .ok ⌊x⌋₊ else .error .undefined
    else .error .overflowError
  else if 0 ≤ n ∧ n < 2 ^ 32 then .ok n.toNat
  else .error .overflowError

/-- A call of a setter of the C++ API. The only fault that may occur is an exception. -/
def callCpp (c : PyClass) (s : BoundedConfig) (call : BoundedCall) : Except Failure BoundedConfig :=
  match call.apply c.cpp s with
  | .ok s' => .ok s'
  | .error _ => .error (if c.translated then .valueError else .terminated)

/-- The setters of the Python API. -/
inductive PyCall where
  | setRatio (ratio : PyFloat)
  | setMinimum (minimum : Int)
  | setMaximum (maximum : Int)

/-- A call of a setter, e.g. instance_sampling.pyx:21-75. -/
def PyCall.apply (rnd32 rnd64 : ℚ → ℚ) (c : PyClass) (s : BoundedConfig) : PyCall → Except Failure BoundedConfig
  | .setRatio ratio => do
    let _ ← c.check.run ratio
    let x ← toFloat32 rnd32 ratio
    callCpp c s (.setRatio x)
  | .setMinimum minimum => do
    let _ ← assertAtLeast minimum c.lowest
    let n ← toUint32 rnd32 rnd64 c.countsAreFloats minimum
    callCpp c s (.setMinimum n)
  | .setMaximum maximum => do
    let _ ← if maximum ≠ 0 then assertAtLeast maximum s.minimum else .ok ()
    let n ← toUint32 rnd32 rnd64 c.countsAreFloats maximum
    callCpp c s (.setMaximum n)

/-- Several calls. The configuration remains as it is if an exception is raised in Python, the program ends with any other failure. -/
def run (rnd32 rnd64 : ℚ → ℚ) (c : PyClass) : List PyCall → BoundedConfig → Except Failure BoundedConfig
  | [], s => .ok s
  | call :: calls, s =>
    match call.apply rnd32 rnd64 c s with
    | .ok s' => run rnd32 rnd64 c calls s'
    | .error .valueError => run rnd32 rnd64 c calls s
    | .error .overflowError => run rnd32 rnd64 c calls s
    | .error e => .error e

/-- The statements in common/mlrl/common/config.py:406-409 that set the properties of a configuration, given the options that have been specified. The first exception is
passed on. -/
def configure (rnd32 rnd64 : ℚ → ℚ) (c : PyClass) (ratio : Option PyFloat) (minimum maximum : Option Int) (s : BoundedConfig) : Except Failure BoundedConfig := do
  let current : PyFloat := match s.ratio with
    | some x => .fin x
    | none => .nan
  let s1 ← PyCall.apply rnd32 rnd64 c s (.setRatio (ratio.getD current))
  let s2 ← PyCall.apply rnd32 rnd64 c s1 (.setMinimum (minimum.getD s1.minimum))
  PyCall.apply rnd32 rnd64 c s2 (.setMaximum (maximum.getD s2.maximum))

end MLRL.PythonSetters
