import Verif.Model.Predictor
import Mathlib.Algebra.Ring.Defs

/-!
# Model of how predictions are obtained via the Python API, and of the incremental evaluation of models

Sources: `/repo/python/subprojects/common/mlrl/common/rule_learners.py`, `/repo/python/subprojects/common/mlrl/common/mixins.py`,
`/repo/python/subprojects/common/mlrl/common/cython/prediction.pyx`, `/repo/python/subprojects/common/mlrl/common/cython/_arrays.pxd`,
`/repo/python/subprojects/testbed/mlrl/testbed/experiments.py`.
-/

namespace MLRL.PythonPrediction

open Predictor

/-! ### Incremental prediction without native support -/

/-- Attributes of `NonNativeIncrementalPredictor`, rule_learners.py:147-166. The predictor that is used for obtaining predictions is a parameter of the functions. -/
structure NonNative where
  numTotalRules : Nat
  numConsideredRules : Nat
  deriving DecidableEq, Repr

/-- `__init__`, rule_learners.py:152-166. -/
def NonNative.create (numUsedRules : Nat) (maxRules : Int) : Res NonNative :=
  if maxRules ≠ 0 ∧ maxRules < 1 then .error .exception
  else .ok { numTotalRules := if maxRules > 0 then min numUsedRules maxRules.toNat else numUsedRules, numConsideredRules := 0 }

/-- `get_num_next`, rule_learners.py:168-172. The number is never negative. -/
def NonNative.getNumNext (p : NonNative) : Nat := p.numTotalRules - p.numConsideredRules

/-- `apply_next`, rule_learners.py:174-180. `predict` is the method of the predictor, given the maximum number of rules. -/
def NonNative.applyNext {P : Type} (predict : Nat → Res P) (p : NonNative) (stepSize : Int) : Res (NonNative × P) := do
  if stepSize < 1 then throw .exception
  let numConsideredRules := min p.numTotalRules (p.numConsideredRules + stepSize.toNat)
  let predictions ← predict numConsideredRules
  return ({ p with numConsideredRules := numConsideredRules }, predictions)

/-- Several calls of `apply_next`. -/
def NonNative.applyAll {P : Type} (predict : Nat → Res P) : NonNative → List Int → Res (NonNative × List P)
  | p, [] => .ok (p, [])
  | p, stepSize :: stepSizes => do
    let (p, predictions) ← p.applyNext predict stepSize
    let (p, rest) ← NonNative.applyAll predict p stepSizes
    return (p, predictions :: rest)

/-! ### Incremental prediction with native support -/

/-- The arrays that are returned to users: `np.asarray` of a `cvarray` that owns its memory (`c_matrix_uint8`, `c_matrix_float64`, _arrays.pxd:37-49,67-79), or of
one that provides access to the memory of the prediction matrix of an incremental predictor (`c_view_uint8`, `c_view_float64`, _arrays.pxd:52-64,82-94). -/
inductive Matrix (S : Type) where
  | owned (content : S)
  | view

/-- An object of the class `IncrementalBinaryPredictor`, `IncrementalScorePredictor` or `IncrementalProbabilityPredictor`, prediction.pyx:16-52,194-229,275-312, which
owns the C++ predictor, including its prediction matrix (predictor_binary_common.hpp:29-107, predictor_score_common.hpp:165-189); `none`: the object has been deallocated
(together with the `unique_ptr`). As in the model of the C++ predictors, `S` is what is predicted for a single example. -/
abbrev Native (R S : Type) := Option (Incremental R S)

/-- `apply_next`, prediction.pyx:37-52,215-229,297-312. Simplification: step sizes are natural numbers; the check of the step size in prediction.pyx:46 is not modelled. -/
def Native.applyNext {R S : Type} (apply : R → S → Res S) : Native R S → Nat → Res (Native R S × Matrix S)
  | none, _ => .error .uninitialised
  | some p, stepSize => do
    let p ← p.applyNext apply stepSize
    return (some p, .view)

/-- Several calls of `apply_next`. -/
def Native.applyAll {R S : Type} (apply : R → S → Res S) : Native R S → List Nat → Res (Native R S × List (Matrix S))
  | p, [] => .ok (p, [])
  | p, stepSize :: stepSizes => do
    let (p, matrix) ← Native.applyNext apply p stepSize
    let (p, rest) ← Native.applyAll apply p stepSizes
    return (p, matrix :: rest)

/-- Access to the content of an array, given the current state of the predictor it has been obtained from. -/
def Matrix.read {R S : Type} (p : Native R S) : Matrix S → Res S
  | .owned content => .ok content
  | .view => match p with
    | some p => .ok p.row
    | none => .error .outOfBounds

/-! ### Probabilities -/

/-- `convert_into_sklearn_compatible_probabilities`, rule_learners.py:398-410, for a matrix with `numCols` columns, which is given by its rows. -/
def toSklearn {K : Type} [Ring K] (numCols : Nat) (rows : List (List K)) : List (List K) :=
  if numCols = 1 then rows.map (fun row => row.map (fun p => 1 - p) ++ row) else rows

/-! ### Unsupported kinds of predictions -/

/-- The kinds of predictions. -/
inductive Prediction where
  | binary
  | scores
  | probabilities
  deriving DecidableEq, Repr

/-- The methods `predict_incrementally` and `predict_proba_incrementally`, mixins.py:187-200,202-212, and what they call: the methods `_predict_binary_incrementally`,
`_predict_scores_incrementally` and `_predict_proba_incrementally`, rule_learners.py:571-597,244-269,492-519, of a `ClassificationRuleLearner`. If the kind of prediction is
supported, the predictor that is created is not part of the model. Otherwise, the implementation of the mixin is called, which raises a `RuntimeError`
(mixins.py:223,234), except that `_predict_proba_incrementally` calls `super().predict_proba_incrementally` (rule_learners.py:519), i.e., the method of the mixin that
calls `self._predict_proba_incrementally` (mixins.py:212). The first argument limits the depth of the recursion. -/
def predictIncrementally (supported : Prediction → Bool) : Nat → Prediction → Run Unit
  | 0, _ => Run.unfinished
  | depth + 1, prediction =>
    if supported prediction then Run.done ()
    else match prediction with
      | .binary | .scores => Run.lift (.error .exception)
      | .probabilities => predictIncrementally supported depth .probabilities

/-- The methods `predict` and `predict_proba`, mixins.py:97-150, and what they call, rule_learners.py:226-242,471-490,543-569. -/
def predict (supported : Prediction → Bool) (prediction : Prediction) : Res Unit := if supported prediction then .ok () else .error .exception

/-! ### Invocation of a learner by the command line API -/

/-- The keyword arguments of prediction functions. -/
structure Kwargs (K : Type) where
  predictScores : Option Bool := none
  sparseFeatureValue : Option K := none
  maxRules : Option Int := none

/-- `Evaluation._invoke_prediction_function`, experiments.py:44-79, for a `ClassifierMixin`. `predict` and `predictProba` are the methods of the learner (`predict` and
`predict_proba`, or `predict_incrementally` and `predict_proba_incrementally`); the keyword arguments do not include `predict_scores`. Simplification: `RuntimeError`s
are passed on instead of being reported. -/
def invokePredictionFunction {K P : Type} (predict predictProba : Kwargs K → Res P) (prediction : Prediction) (kwargs : Kwargs K) : Res P :=
  match prediction with
  | .scores => predict { kwargs with predictScores := some true }
  | .probabilities => predictProba {}
  | .binary => predict kwargs

/-- `float(kwargs.get(KWARG_SPARSE_FEATURE_VALUE, 0.0))`, rule_learners.py:299,325. -/
def Kwargs.sparseValue {K : Type} [Zero K] (kwargs : Kwargs K) : K :=
  match kwargs.sparseFeatureValue with
  | some v => v
  | none => 0

/-! ### Incremental evaluation -/

/-- What `IncrementalEvaluation` makes use of: the methods `get_num_next` and `apply_next` of an `IncrementalPredictor`, mixins.py:48-79. `St` is the type of states of the
predictor, `P` the type of predictions. -/
structure IncrementalPredictor (St P : Type) where
  getNumNext : St → Nat
  applyNext : St → Nat → Res (St × P)

/-- The loop in experiments.py:203-225. The result are the arguments of `_evaluate_predictions`: the number of ensemble members that is reported
(`IncrementalPrediction(current_size)`) and the predictions. -/
def evaluateLoop {St P : Type} (predictor : IncrementalPredictor St P) (stepSize totalSize : Nat) :
    (fuel : Nat) → (state : St) → (nextStepSize currentSize : Nat) → Run (List (Nat × P))
  | 0, _, _, _ => Run.unfinished
  | fuel + 1, state, nextStepSize, currentSize =>
    if predictor.getNumNext state > 0 then do
      let (state, predictions) ← Run.lift (predictor.applyNext state nextStepSize)
      let rest ← evaluateLoop predictor stepSize totalSize fuel state stepSize (min (currentSize + stepSize) totalSize)
      return (currentSize, predictions) :: rest
    else return []

/-- `IncrementalEvaluation.predict_and_evaluate`, experiments.py:181-225, given the predictor. -/
def evaluate {St P : Type} (predictor : IncrementalPredictor St P) (minSize maxSize stepSize fuel : Nat) (state : St) : Run (List (Nat × P)) :=
  let totalSize := predictor.getNumNext state
  let totalSize := if maxSize > 0 then min maxSize totalSize else totalSize
  let nextStepSize := if minSize > 0 then minSize else stepSize
  evaluateLoop predictor stepSize totalSize fuel state nextStepSize (min nextStepSize totalSize)

end MLRL.PythonPrediction
