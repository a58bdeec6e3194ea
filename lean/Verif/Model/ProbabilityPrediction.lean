import Verif.Model.Predictor
import Verif.Model.LabelVectors
import Verif.Model.Isotonic

/-!
# Model of the prediction of probabilities

Sources (cpp/subprojects): `boosting/include/mlrl/boosting/prediction/predictor_probability_common.hpp`,
`boosting/src/mlrl/boosting/prediction/predictor_probability_output_wise.cpp`, `predictor_probability_marginalized.cpp`,
`transformation_probability_output_wise.cpp`, `transformation_probability_marginalized.cpp`, `probability_function_logistic.cpp`,
`probability_function_chain_rule.cpp`, `discretization_function_probability.cpp` and
`common/src/mlrl/common/prediction/probability_calibration_isotonic.cpp`, `probability_calibration_no.cpp`.

The model refines `Verif/Model/LabelVectors.lean` in two respects. First, calibrating a probability may fail. Second, the matrix of scores and the matrix of
probabilities are the same unless predictions are obtained incrementally, such that scores are overwritten by probabilities.
-/

namespace MLRL.Probability

open Predictor LabelVectors Isotonic

variable {K : Type}

/-! ### Calibration and functions that provide probabilities -/

/-- The models for the calibration of marginal or joint probabilities: `NoProbabilityCalibrationModel` and `IsotonicProbabilityCalibrationModel`, which stores a
list of bins for each label or label vector. -/
inductive CalibrationModel (K : Type) where
  | no
  | isotonic (binLists : List (List (K × K)))

/-- `calibrateMarginalProbability` and `calibrateJointProbability`, probability_calibration_no.cpp:9-15 and probability_calibration_isotonic.cpp:148-156. -/
def CalibrationModel.calibrate [Field K] [LinearOrder K] : CalibrationModel K → Nat → K → Res K
  | .no, _, p => .ok p
  | .isotonic binLists, i, p => do
    let bins ← readAt binLists i
    calibrateProbability bins p

/-- `LogisticFunction::transformScoreIntoMarginalProbability`, probability_function_logistic.cpp:24-27. The logistic function is a parameter. -/
def transformScore [Field K] [LinearOrder K] (logistic : K → K) (model : CalibrationModel K) (i : Nat) (score : K) : Res K :=
  model.calibrate i (logistic score)

/-- `ProbabilityDiscretizationFunction::discretizeScore`, discretization_function_probability.cpp:25-29. -/
def discretizeScore [Field K] [LinearOrder K] (marginal : Nat → K → Res K) (i : Nat) (score : K) : Res Bool := do
  let p ← marginal i score
  return decide (p > 1 / 2)

/-- `transformScoresIntoJointProbability`, probability_function_chain_rule.cpp:34-56. -/
def transformScores [Field K] [LinearOrder K] (marginal : Nat → K → Res K) (model : CalibrationModel K) (scores : List K) (index : Nat) (labelVector : List Nat) :
    Res K := do
  let r ← loop scores.length (fun i (s : Iterators.BinarySparseForward × K) => do
    let score ← readAt scores i
    let marginalProbability ← marginal i score
    let marginalProbability := if !s.1.deref then 1 - marginalProbability else marginalProbability
    return (s.1.next, s.2 * marginalProbability)) (Iterators.BinarySparseForward.create labelVector 0, 1)
  model.calibrate index r.2

/-! ### Transformation of rows -/

/-- The rows of the matrices of scores and of probabilities that correspond to an example. If both matrices are the same, there is no second row. -/
structure Rows (K : Type) where
  scores : List K
  probabilities : Option (List K)
  deriving DecidableEq

/-- The row of the matrix of probabilities. -/
def Rows.result (r : Rows K) : List K := r.probabilities.getD r.scores

/-- Replaces the row of the matrix of probabilities. -/
def Rows.setResult (r : Rows K) (l : List K) : Rows K :=
  match r.probabilities with
  | none => ⟨l, none⟩
  | some _ => ⟨r.scores, some l⟩

/-- `probabilitiesBegin[i] = x`. -/
def Rows.write (r : Rows K) (i : Nat) (x : K) : Res (Rows K) := do
  let l ← writeAt r.result i x
  return r.setResult l

/-- `OutputWiseProbabilityTransformation::apply`, transformation_probability_output_wise.cpp:9-20. -/
def outputWise (marginal : Nat → K → Res K) (r : Rows K) : Res (Rows K) :=
  loop r.scores.length (fun i r => do
    let score ← readAt r.scores i
    let probability ← marginal i score
    r.write i probability) r

/-- `MarginalizedProbabilityTransformation::apply`, transformation_probability_marginalized.cpp:9-32. `array` is the previous content of the vector that is
allocated by `transformScoresIntoJointProbabilities`, probability_function_joint.hpp:67-94. -/
def marginalized [Field K] [LinearOrder K] (joint : List K → Nat → List Nat → Res K) (vectors : List (List Nat)) (array : List K) (r : Rows K) :
    Res (Rows K) := do
  let jointProbabilityVector ← jointProbabilities (joint r.scores) vectors array
  let r ← loop r.result.length (fun i r => r.write i 0) r
  loop vectors.length (fun i r => do
    let labelVector ← readAt vectors i
    let jointProbability ← readAt jointProbabilityVector i
    loop labelVector.length (fun j (r : Rows K) => do
      let labelIndex ← readAt labelVector j
      let x ← readAt r.result labelIndex
      r.write labelIndex (x + jointProbability)) r) r

/-- The transformation of the predictor that marginalizes joint probabilities, `createPredictor`, predictor_probability_marginalized.cpp:16-34: there is none if no
label vectors are known. -/
def createMarginalized [Field K] [LinearOrder K] (joint : List K → Nat → List Nat → Res K) (vectors : List (List Nat)) (array : List K) :
    Option (Rows K → Res (Rows K)) :=
  if vectors.length > 0 then some (marginalized joint vectors array) else none

/-! ### Prediction for several examples -/

/-- The matrix that provides the feature values of query examples: `CContiguousView` or `CsrView`. -/
inductive Features where
  | dense (rows : List (List FVal))
  | csr (numFeatures : Nat) (sparseValue : FVal) (rows : List SparseRow)

/-- The number of examples. -/
def Features.numRows : Features → Nat
  | .dense rows => rows.length
  | .csr _ _ rows => rows.length

/-- `ScorePredictionDelegate::predictForExample`, predictor_score_common.hpp:145-150. -/
def Features.applyRules [Add K] (features : Features) (rules : List (Rule K)) (e : Nat) (scores : List K) : Res (List K) :=
  match features with
  | .dense rows => do
    let row ← readAt rows e
    applyRulesDense row rules scores
  | .csr numFeatures sparseValue rows => do
    let row ← readAt rows e
    applyRulesSparse numFeatures row sparseValue rules scores

/-- The steps of `PredictionDelegate::predictForExample`, predictor_probability_common.hpp:47-58. -/
def predictForExample [Add K] (features : Features) (rules : List (Rule K)) (transformation : Rows K → Res (Rows K)) (e : Nat) :
    List (Rows K → Res (Rows K)) :=
  [fun r => do
    let scores ← features.applyRules rules e r.scores
    return { r with scores := scores }, transformation]

/-- The given steps are performed one after another, each of which modifies the rows of an example. -/
def execute {σ : Type} : List (Nat × (σ → Res σ)) → List σ → Res (List σ)
  | [], mem => .ok mem
  | (e, f) :: steps, mem => do
    let r ← readAt mem e
    let r ← f r
    let mem ← writeAt mem e r
    execute steps mem

/-- An execution of `PredictionDispatcher::predict`, predictor_common.hpp:68-88, by several threads, see `Predictor.IsExecution`: `trace` consists of pairs of a
thread and a step. -/
def IsExecution {σ : Type} (task : Nat → List (σ → Res σ)) (assignment : List (List Nat)) (trace : List (Nat × (Nat × (σ → Res σ)))) : Prop :=
  (∀ p ∈ trace, p.1 < assignment.length) ∧
  ∀ t examples, assignment[t]? = some examples →
    (trace.filter (fun p => decide (p.1 = t))).map Prod.snd = examples.flatMap (fun e => (task e).map (fun f => (e, f)))

/-- The order in which steps are performed whenever the function `predict` of a dispatcher is called, given the steps for each example. -/
abbrev Schedule (σ : Type) := (Nat → List (σ → Res σ)) → List (Nat × (σ → Res σ))

/-- The order is the one of an execution by several threads, which process `n` examples in total. Which threads process which examples and in which order the steps
of different threads are performed is decided by the OpenMP runtime. -/
def Schedule.Ok {σ : Type} (n : Nat) (schedule : Schedule σ) : Prop :=
  ∀ task, ∃ assignment trace, assignment.flatten.Perm (List.range n) ∧ IsExecution task assignment trace ∧ schedule task = trace.map Prod.snd

/-- `ProbabilityPredictor::predict`, predictor_probability_common.hpp:136-149. The result is the matrix of probabilities. Without a transformation, all
probabilities are zero. -/
def predict [Zero K] [Add K] (features : Features) (model : RuleList (Rule K)) (numLabels : Nat) (transformation : Option (Rows K → Res (Rows K)))
    (schedule : Schedule (Rows K)) (maxRules : Nat) : Res (List (List K)) :=
  let mem := List.replicate features.numRows (Rows.mk (List.replicate numLabels 0) none)
  match transformation with
  | none => .ok (mem.map Rows.result)
  | some transformation => do
    let rules ← model.usedToList maxRules
    let mem ← execute (schedule (predictForExample features rules transformation)) mem
    return mem.map Rows.result

/-- `IncrementalPredictor`, predictor_probability_common.hpp:61-98, and `AbstractIncrementalPredictor`, predictor_common.hpp:187-249. -/
structure Incremental (K : Type) where
  current : RuleList.ConstIterator (Rule K)
  end_ : RuleList.ConstIterator (Rule K)
  mem : List (Rows K)

/-- Constructor, predictor_probability_common.hpp:89-97. The matrix of scores is initialised with zeros if there is a transformation, the matrix of probabilities
otherwise; `scores` and `probabilities` are the contents of a matrix that is not initialised. -/
def Incremental.create [Zero K] (model : RuleList (Rule K)) (maxRules : Nat) (numRows numLabels : Nat) (hasTransformation : Bool)
    (scores probabilities : Nat → List K) : Incremental K where
  current := model.usedCbegin maxRules
  end_ := model.usedCend maxRules
  mem := (List.range numRows).map (fun e =>
    if hasTransformation then ⟨List.replicate numLabels 0, some (probabilities e)⟩ else ⟨scores e, some (List.replicate numLabels 0)⟩)

/-- `getNumNext`, predictor_common.hpp:235-237. -/
def Incremental.getNumNext (p : Incremental K) : Nat := p.end_.index - p.current.index

/-- `applyNext(stepSize)`, predictor_common.hpp:239-245 and predictor_probability_common.hpp:73-85. -/
def Incremental.applyNext [Add K] (features : Features) (transformation : Option (Rows K → Res (Rows K))) (p : Incremental K) (stepSize : Nat)
    (schedule : Schedule (Rows K)) : Res (Incremental K) :=
  let next := p.current.add (min stepSize p.getNumNext)
  match transformation with
  | none => .ok { p with current := next }
  | some transformation => do
    let rules ← RuleList.iterate p.current next
    let mem ← execute (schedule (predictForExample features rules transformation)) p.mem
    return { p with current := next, mem := mem }

/-- Several calls to `applyNext`. -/
def Incremental.applyAll [Add K] (features : Features) (transformation : Option (Rows K → Res (Rows K))) :
    List (Nat × Schedule (Rows K)) → Incremental K → Res (Incremental K)
  | [], p => .ok p
  | (stepSize, schedule) :: calls, p => do
    let p ← p.applyNext features transformation stepSize schedule
    Incremental.applyAll features transformation calls p

/-- The matrix of probabilities that is returned by `applyNext`. -/
def Incremental.result (p : Incremental K) : List (List K) := p.mem.map Rows.result

end MLRL.Probability
