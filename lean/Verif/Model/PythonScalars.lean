import Verif.Model.PythonRuleInduction

/-!
# Setters of the Python API for individual numbers

Setters of the Python API check the given value, convert it into the type that is declared in the `.pxd` file and call a setter of the C++ API, which performs checks on its own.
Exceptions thrown by the C++ API are translated, because `except +` is specified for all setters below. The rounding to the format binary32 is a parameter. Arguments of type `int` given to a
setter for floating point values are not modelled.

In the following, `cython` refers to `python/subprojects/*/mlrl/*/cython`, `validation.hpp` to `cpp/subprojects/common/include/mlrl/common/util/validation.hpp`, and files with the
extension `.cpp` are in `cpp/subprojects/*/src/mlrl/*`.
-/

namespace MLRL.PythonScalars

open PythonSetters (PyFloat Failure assertAtLeast assertGreater assertGreaterOrEqual assertLess)
open PythonPrePruning (uint32 gt)

/-! ### Floating point values -/

/-- `util::assertGreater`, validation.hpp:19-25. -/
def cppGreater (value : PyFloat) (threshold : ℚ) : Except Failure Unit := if !(gt value threshold) then .error .valueError else .ok ()

/-- `util::assertGreaterOrEqual`, validation.hpp:35-42. -/
def cppGreaterOrEqual (value : PyFloat) (threshold : ℚ) : Except Failure Unit := if value.lt threshold then .error .valueError else .ok ()

/-- `util::assertLess`, validation.hpp:52-58. -/
def cppLess (value : PyFloat) (threshold : ℚ) : Except Failure Unit := if !(value.lt threshold) then .error .valueError else .ok ()

/-- The setters for floating point values that are modelled here. -/
inductive FloatSetter where
  /-- `set_regularization_weight`, cython/regularization.pyx:21-31 -/
  | regularizationWeight
  /-- `set_shrinkage`, cython/post_processor.pyx:20-30 -/
  | shrinkage
  /-- `set_max_lift`, cython/lift_function.pyx:42-51 -/
  | maxLift
  /-- `set_curvature`, cython/lift_function.pyx:61-71 -/
  | curvature
  /-- `set_k`, cython/lift_function.pyx:88-98 -/
  | k
  /-- `set_beta`, cython/heuristic.pyx:23-32 -/
  | beta
  /-- `set_m`, cython/heuristic.pyx:50-59 -/
  | m
  /-- `set_threshold` of the class `CoverageStoppingCriterionConfig`, cython/stopping_criterion.pyx:21-31 -/
  | coverageThreshold
  /-- `set_holdout_set_size` of three classes, cython/partition_sampling.pyx:21-34,51-64,80-93 -/
  | holdoutSetSize
  /-- `set_threshold` of the class `DynamicPartialHeadConfig`, cython/head_type.pyx:93-108 -/
  | headThreshold
  /-- `set_exponent`, cython/head_type.pyx:118-129 -/
  | exponent
  deriving DecidableEq

/-- The checks of the Python API, in the lines of the `.pyx` files given above. -/
def FloatSetter.pythonCheck (s : FloatSetter) (value : PyFloat) : Except Failure Unit :=
  match s with
  | .regularizationWeight => assertGreater value 0
  | .shrinkage => do
    let _ ← assertGreater value 0
    assertLess value 1
  | .maxLift => assertGreaterOrEqual value 1
  | .curvature => assertGreater value 0
  | .k => assertGreater value 0
  | .beta => assertGreaterOrEqual value 0
  | .m => assertGreaterOrEqual value 0
  | .coverageThreshold => assertGreaterOrEqual value 0
  | .holdoutSetSize => do
    let _ ← assertGreater value 0
    assertLess value 1
  | .headThreshold => do
    let _ ← assertGreater value 0
    assertLess value 1
  | .exponent => assertGreaterOrEqual value 1

/-- The checks of the C++ API: regularization_manual.cpp:14, shrinkage_constant.cpp:65-66, lift_function_peak.cpp:133, lift_function_peak.cpp:143, lift_function_kln.cpp:73,
heuristic_f_measure.cpp:75, heuristic_m_estimate.cpp:78, stopping_criterion_coverage.cpp:70, partition_sampling_bi_random.cpp:106-107 (and
partition_sampling_bi_stratified_example_wise.cpp:94-95, partition_sampling_bi_stratified_output_wise.cpp:95-96), head_type_partial_dynamic.cpp:20-21 and 31. -/
def FloatSetter.cppCheck (s : FloatSetter) (value : PyFloat) : Except Failure Unit :=
  match s with
  | .regularizationWeight => cppGreater value 0
  | .shrinkage => do
    let _ ← cppGreater value 0
    cppLess value 1
  | .maxLift => cppGreaterOrEqual value 1
  | .curvature => cppGreater value 0
  | .k => cppGreater value 0
  | .beta => cppGreaterOrEqual value 0
  | .m => cppGreaterOrEqual value 0
  | .coverageThreshold => cppGreaterOrEqual value 0
  | .holdoutSetSize => do
    let _ ← cppGreater value 0
    cppLess value 1
  | .headThreshold => do
    let _ ← cppGreater value 0
    cppLess value 1
  | .exponent => cppGreaterOrEqual value 1

/-- Whether the argument of the setter of the C++ API is of type `float32`, rather than `float64`: partition_sampling.pxd:12,23,34 and head_type.pxd:31,35. -/
def FloatSetter.single : FloatSetter → Bool
  | .holdoutSetSize => true
  | .headThreshold => true
  | .exponent => true
  | _ => false

/-- The conversion into a value of type `float32`; values that are too large become infinite. -/
def convert32 (rnd32 : ℚ → ℚ) : PyFloat → PyFloat
  | .fin x => if |rnd32 x| ≤ FloatingPoint.maxFloat32 then .fin (rnd32 x) else if x < 0 then .negInf else .posInf
  | v => v

/-- The conversion into the type of the argument. -/
def FloatSetter.convert (rnd32 : ℚ → ℚ) (s : FloatSetter) (value : PyFloat) : PyFloat := if s.single then convert32 rnd32 value else value

/-- A call of a setter of the Python API. Returns the value that is stored. -/
def FloatSetter.set (rnd32 : ℚ → ℚ) (s : FloatSetter) (value : PyFloat) : Except Failure PyFloat := do
  let _ ← s.pythonCheck value
  let _ ← s.cppCheck (s.convert rnd32 value)
  return s.convert rnd32 value

/-! ### Integers -/

/-- The setters for integers that are modelled here. -/
inductive IntSetter where
  /-- `set_max_rules`, cython/stopping_criterion.pyx:31, stopping_criterion_size.cpp:64 -/
  | maxRules
  /-- `set_time_limit`, cython/stopping_criterion.pyx:56, stopping_criterion_time.cpp:82 -/
  | timeLimit
  /-- `set_random_state`, cython/rng.pyx:27, rng.cpp:41 -/
  | randomState
  /-- `set_num_iterations`, cython/post_optimization.pyx:29, post_optimization_sequential.cpp:173 -/
  | numIterations
  /-- `set_num_preferred_threads`, cython/multi_threading.pyx:31-32, multi_threading_manual.cpp:13 -/
  | numPreferredThreads
  /-- `set_peak_label`, cython/lift_function.pyx:29-30, lift_function_peak.cpp:123 -/
  | peakLabel
  deriving DecidableEq

/-- The check of the C++ API, translated into an exception of the Python API. -/
def cppAtLeastOne (n : Nat) : Except Failure Unit :=
  match Config.assertAtLeast n 1 with
  | .ok _ => .ok ()
  | .error _ => .error .valueError

/-- The setters of integers that must be positive, see `IntSetter`. -/
def setPositive (value : Int) : Except Failure Nat := do
  let _ ← assertAtLeast value 1
  let n ← uint32 value
  let _ ← cppAtLeastOne n
  return n

/-- A call of a setter of the Python API. Returns the value that is stored. -/
def IntSetter.set (s : IntSetter) (value : Int) : Except Failure Nat :=
  match s with
  | .maxRules => setPositive value
  | .timeLimit => setPositive value
  | .randomState => setPositive value
  | .numIterations => setPositive value
  | .numPreferredThreads => PythonRuleInduction.optionalAtLeast 1 value
  | .peakLabel => PythonRuleInduction.optionalAtLeast 1 value

end MLRL.PythonScalars
