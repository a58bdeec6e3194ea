import Verif.Model.PythonOptions
import Verif.Model.PythonSetters

/-!
# Configuration of pre-pruning and post-pruning via the options of a parameter

In the following, `pyx` refers to `python/subprojects/common/mlrl/common/cython/stopping_criterion.pyx`, `pxd` to `stopping_criterion.pxd` in the same directory and `config` to
`python/subprojects/common/mlrl/common/config.py`. The setters of the C++ API for pre-pruning are those in `Verif/Model/Config.lean`. Exceptions thrown by them are translated,
because `except +` is specified for all of them (pxd:47-102). The functions `int` and `float` are parameters.
-/

namespace MLRL.PythonPrePruning

open PythonOptions (Str Dict PyError getNumber getBool parseParam)
open PythonSetters (PyFloat Failure assertAtLeast toUint32)
open Config (PrePruningConfig PrePruningCall)
open Stopping (Aggregation)

/-- All errors that may occur when parsing options are of type `ValueError`. -/
def lift {α : Type} : Except PyError α → Except Failure α
  | .ok a => .ok a
  | .error _ => .error .valueError

/-- A call of a setter of the C++ API. -/
def callCpp (s : PrePruningConfig) (call : PrePruningCall) : Except Failure PrePruningConfig :=
  match call.apply s with
  | .ok s' => .ok s'
  | .error .exception => .error .valueError
  | .error _ => .error .undefined

/-- The conversion into the type `uint32`, as declared in pxd. -/
def uint32 (n : Int) : Except Failure Nat := toUint32 id id false n

/-- `set_min_rules`, pyx:158-168. -/
def setMinRules (s : PrePruningConfig) (minRules : Int) : Except Failure PrePruningConfig := do
  let _ ← assertAtLeast minRules 1
  let n ← uint32 minRules
  callCpp s (.setMinRules n)

/-- `set_update_interval`, pyx:178-188. -/
def setUpdateInterval (s : PrePruningConfig) (updateInterval : Int) : Except Failure PrePruningConfig := do
  let _ ← assertAtLeast updateInterval 1
  let n ← uint32 updateInterval
  callCpp s (.setUpdateInterval n)

/-- `assert_multiple`, validation.py:58-68. The operator `%` of Python and the one of Lean only differ if the second argument is negative, which is never the case. The
exception that is raised if it is zero is not distinguished from other exceptions. -/
def assertMultiple (value : Int) (other : Nat) : Except Failure Unit :=
  if other = 0 then .error .valueError else if value % other ≠ 0 then .error .valueError else .ok ()

/-- `set_stop_interval`, pyx:198-209. -/
def setStopInterval (s : PrePruningConfig) (stopInterval : Int) : Except Failure PrePruningConfig := do
  let _ ← assertMultiple stopInterval s.updateInterval
  let n ← uint32 stopInterval
  callCpp s (.setStopInterval n)

/-- `set_num_past`, pyx:219-228. -/
def setNumPast (s : PrePruningConfig) (numPast : Int) : Except Failure PrePruningConfig := do
  let _ ← assertAtLeast numPast 1
  let n ← uint32 numPast
  callCpp s (.setNumPast n)

/-- `set_num_current`, pyx:238-248. -/
def setNumCurrent (s : PrePruningConfig) (numCurrent : Int) : Except Failure PrePruningConfig := do
  let _ ← assertAtLeast numCurrent 1
  let n ← uint32 numCurrent
  callCpp s (.setNumCurrent n)

/-- `value > threshold`; comparisons with values that are not numbers are false. -/
def gt : PyFloat → ℚ → Bool
  | .nan, _ => false
  | .negInf, _ => false
  | .posInf, _ => true
  | .fin x, t => decide (t < x)

/-- `assert_less_or_equal`, validation.py:45-55. -/
def assertLessOrEqual (value : PyFloat) (threshold : ℚ) : Except Failure Unit := if gt value threshold then .error .valueError else .ok ()

/-- A value of type `float64`. -/
def toFloat64 : PyFloat → Except Failure (Option ℚ)
  | .nan => .ok none
  | .negInf => .error .infinite
  | .posInf => .error .infinite
  | .fin x => .ok (some x)

/-- `set_min_improvement`, pyx:258-269. -/
def setMinImprovement (s : PrePruningConfig) (minImprovement : PyFloat) : Except Failure PrePruningConfig := do
  let _ ← PythonSetters.assertGreaterOrEqual minImprovement 0
  let _ ← assertLessOrEqual minImprovement 1
  let x ← toFloat64 minImprovement
  callCpp s (.setMinImprovement x)

/-- `__create_aggregation_function`, config:574-583. -/
def createAggregationFunction (text : Str) : Except PyError Aggregation := do
  let value ← parseParam text ["min".toList, "max".toList, "avg".toList]
  if value = "min".toList then return .min
  if value = "max".toList then return .max
  return .mean

/-- The option that specifies the aggregation function, config:601-604. -/
def getAggregation (options : Dict) (default : Aggregation) : Except PyError Aggregation :=
  match options.lookup "aggregation".toList with
  | some text => createAggregationFunction text
  | none => .ok default

/-- The members of the class `PrePruningConfig` of the C++ API. -/
structure PrePruningState where
  useHoldoutSet : Bool
  removeUnusedRules : Bool
  aggregation : Aggregation
  checked : PrePruningConfig

/-- The default values, global_pruning_pre.cpp:194-196. -/
def PrePruningState.init : PrePruningState := ⟨true, true, .mean, PrePruningConfig.init⟩

/-- The value of a property that is a floating point number. -/
def ofFloat64 : Option ℚ → PyFloat
  | some x => .fin x
  | none => .nan

/-- `GlobalPruningParameter._configure` in case of pre-pruning, config:596-609. The function `use_global_pre_pruning` creates a new configuration. -/
def configurePrePruning (int : Str → Option Int) (float : Str → Option PyFloat) (options : Dict) : Except Failure PrePruningState := do
  let s := PrePruningState.init
  let useHoldoutSet ← lift (getBool options "use_holdout_set".toList s.useHoldoutSet)
  let removeUnusedRules ← lift (getBool options "remove_unused_rules".toList s.removeUnusedRules)
  let minRules ← lift (getNumber int options "min_rules".toList s.checked.minRules)
  let c ← setMinRules s.checked minRules
  let aggregation ← lift (getAggregation options s.aggregation)
  let updateInterval ← lift (getNumber int options "update_interval".toList c.updateInterval)
  let c ← setUpdateInterval c updateInterval
  let stopInterval ← lift (getNumber int options "stop_interval".toList c.stopInterval)
  let c ← setStopInterval c stopInterval
  let numPast ← lift (getNumber int options "num_past".toList c.numPast)
  let c ← setNumPast c numPast
  let numCurrent ← lift (getNumber int options "num_recent".toList c.numCurrent)
  let c ← setNumCurrent c numCurrent
  let minImprovement ← lift (getNumber float options "min_improvement".toList (ofFloat64 c.minImprovement))
  let c ← setMinImprovement c minImprovement
  return ⟨useHoldoutSet, removeUnusedRules, aggregation, c⟩

/-- The members of the class `PostPruningConfig` of the C++ API. -/
structure PostPruningState where
  useHoldoutSet : Bool
  removeUnusedRules : Bool
  minRules : Nat
  interval : Nat

/-- The default values, global_pruning_post.cpp:97. -/
def PostPruningState.init : PostPruningState := ⟨true, true, 100, 1⟩

/-- `set_min_rules`, pyx:330-339, and `set_interval`, pyx:349-360. The setters of the C++ API perform the same check, global_pruning_post.cpp:121-125,131-135. -/
def atLeastOne (value : Int) : Except Failure Nat := do
  let _ ← assertAtLeast value 1
  let n ← uint32 value
  match Config.assertAtLeast n 1 with
  | .ok _ => .ok n
  | .error _ => .error .valueError

/-- `GlobalPruningParameter._configure` in case of post-pruning, config:589-594. -/
def configurePostPruning (int : Str → Option Int) (options : Dict) : Except Failure PostPruningState := do
  let s := PostPruningState.init
  let useHoldoutSet ← lift (getBool options "use_holdout_set".toList s.useHoldoutSet)
  let removeUnusedRules ← lift (getBool options "remove_unused_rules".toList s.removeUnusedRules)
  let minRules ← lift (getNumber int options "min_rules".toList s.minRules)
  let minRules ← atLeastOne minRules
  let interval ← lift (getNumber int options "interval".toList s.interval)
  let interval ← atLeastOne interval
  return ⟨useHoldoutSet, removeUnusedRules, minRules, interval⟩

end MLRL.PythonPrePruning
