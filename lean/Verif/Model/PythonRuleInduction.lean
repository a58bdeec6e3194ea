import Verif.Model.PythonPrePruning

/-!
# Configuration of the induction of individual rules via the options of a parameter

In the following, `pyx` refers to `python/subprojects/common/mlrl/common/cython/rule_induction.pyx`, `greedy` to
`cpp/subprojects/common/src/mlrl/common/rule_induction/rule_induction_top_down_greedy.cpp`, `beam` to `rule_induction_top_down_beam_search.cpp` in the same directory and
`config` to `python/subprojects/common/mlrl/common/config.py`. Exceptions thrown by the C++ API are translated, because `except +` is specified for all setters
(rule_induction.pxd:12-63). The functions `int` and `float`, as well as `rnd32`, which rounds to the format binary32, are parameters. The machine epsilon is denoted by `ε`.
-/

namespace MLRL.PythonRuleInduction

open PythonOptions (Str Dict getNumber getBool)
open PythonSetters (PyFloat Failure assertAtLeast toFloat32)
open PythonPrePruning (lift uint32 ofFloat64)
open Config (CoverageConfig CoverageCall)

/-- A call of a setter of the C++ API. -/
def callCpp (ε : ℚ) (s : CoverageConfig) (call : CoverageCall) : Except Failure CoverageConfig :=
  match call.apply ε s with
  | .ok s' => .ok s'
  | .error .exception => .error .valueError
  | .error _ => .error .undefined

/-- `set_min_coverage`, pyx:20-31,181-192. -/
def setMinCoverage (ε : ℚ) (s : CoverageConfig) (minCoverage : Int) : Except Failure CoverageConfig := do
  let _ ← assertAtLeast minCoverage 1
  let n ← uint32 minCoverage
  callCpp ε s (.setMinCoverage n)

/-- `set_min_support`, pyx:41-54,202-215. -/
def setMinSupport (rnd32 : ℚ → ℚ) (ε : ℚ) (s : CoverageConfig) (minSupport : PyFloat) : Except Failure CoverageConfig := do
  let _ ← PythonSetters.RatioCheck.optional.run minSupport
  let x ← toFloat32 rnd32 minSupport
  callCpp ε s (.setMinSupport x)

/-- The check of values for which zero means that there is no restriction, e.g. pyx:74-75. -/
def assertOptional (value : Int) (lowest : Nat) : Except Failure Unit := if value ≠ 0 then assertAtLeast value lowest else .ok ()

/-- `set_max_conditions`, pyx:65-77,226-238, and `set_max_head_refinements`, pyx:89-102,250-263, where zero means that there is no restriction. The setters of the C++ API
perform the same checks, greedy:210-225, beam:489-504. -/
def optionalAtLeast (lowest : Nat) (value : Int) : Except Failure Nat := do
  let _ ← assertOptional value lowest
  let n ← uint32 value
  match (if n ≠ 0 then Config.assertAtLeast n lowest else .ok ()) with
  | .ok _ => .ok n
  | .error _ => .error .valueError

/-- `set_beam_width`, pyx:140-150. The setter of the C++ API performs the same check, beam:445-449. -/
def beamWidthOf (value : Int) : Except Failure Nat := do
  let _ ← assertAtLeast value 2
  let n ← uint32 value
  match Config.assertAtLeast n 2 with
  | .ok _ => .ok n
  | .error _ => .error .valueError

/-- The members of the class `GreedyTopDownRuleInductionConfig` of the C++ API that can be configured. -/
structure InductionState where
  coverage : CoverageConfig
  maxConditions : Nat
  maxHeadRefinements : Nat
  recalculatePredictions : Bool

/-- The default values, greedy:178-179, beam:436-437. -/
def InductionState.init : InductionState := ⟨CoverageConfig.init, 0, 1, true⟩

/-- The statements in config:337-343 and 346-352. The smallest number of conditions is one in case of a greedy search (pyx:75), and two in case of a beam search
(pyx:236). -/
def configureInduction (rnd32 : ℚ → ℚ) (ε : ℚ) (lowestConditions : Nat) (int : Str → Option Int) (float : Str → Option PyFloat) (options : Dict) :
    Except Failure InductionState := do
  let s := InductionState.init
  let minCoverage ← lift (getNumber int options "min_coverage".toList s.coverage.minCoverage)
  let c ← setMinCoverage ε s.coverage minCoverage
  let minSupport ← lift (getNumber float options "min_support".toList (ofFloat64 c.minSupport))
  let c ← setMinSupport rnd32 ε c minSupport
  let maxConditions ← lift (getNumber int options "max_conditions".toList s.maxConditions)
  let maxConditions ← optionalAtLeast lowestConditions maxConditions
  let maxHeadRefinements ← lift (getNumber int options "max_head_refinements".toList s.maxHeadRefinements)
  let maxHeadRefinements ← optionalAtLeast 1 maxHeadRefinements
  let recalculatePredictions ← lift (getBool options "recalculate_predictions".toList s.recalculatePredictions)
  return ⟨c, maxConditions, maxHeadRefinements, recalculatePredictions⟩

/-- `RuleInductionParameter._configure` in case of a greedy search, config:336-343. -/
def configureGreedy (rnd32 : ℚ → ℚ) (ε : ℚ) (int : Str → Option Int) (float : Str → Option PyFloat) (options : Dict) : Except Failure InductionState :=
  configureInduction rnd32 ε 1 int float options

/-- The members of the class `BeamSearchTopDownRuleInductionConfig` of the C++ API that can be configured. -/
structure BeamSearchState where
  induction : InductionState
  beamWidth : Nat
  resampleFeatures : Bool

/-- `RuleInductionParameter._configure` in case of a beam search, config:345-354. The default values of the last two properties are set in beam:436. -/
def configureBeamSearch (rnd32 : ℚ → ℚ) (ε : ℚ) (int : Str → Option Int) (float : Str → Option PyFloat) (options : Dict) : Except Failure BeamSearchState := do
  let induction ← configureInduction rnd32 ε 2 int float options
  let beamWidth ← lift (getNumber int options "beam_width".toList 4)
  let beamWidth ← beamWidthOf beamWidth
  let resampleFeatures ← lift (getBool options "resample_features".toList false)
  return ⟨induction, beamWidth, resampleFeatures⟩

end MLRL.PythonRuleInduction
