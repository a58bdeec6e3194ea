import Verif.Model.Training
import Verif.Model.Search
import Verif.Model.RuleEval
import Mathlib.Data.List.Sort

/-!
# Model of the parts of a boosting algorithm that depend on decomposable statistics

Sources (cpp/subprojects): `boosting/include/mlrl/boosting/rule_evaluation/rule_compare_function.hpp`,
`boosting/src/mlrl/boosting/post_processing/shrinkage_constant.cpp`, `common/src/mlrl/common/rule_refinement/score_processor.cpp`,
`common/src/mlrl/common/rule_refinement/rule_refinement_statistics_based.cpp`,
`common/src/mlrl/common/rule_induction/rule_induction_common.hpp`.

The parts that have been modelled separately are put together: the search for refinements by individual features
(`Verif/Model/Search.lean`), the rule evaluation (`Verif/Model/RuleEval.lean`) and the induction of rules (`Verif/Model/Induction.lean`).
Sums of gradients and Hessians are functions from outputs to pairs (see `Verif/Model/StatisticsSubset.lean` for the vectors).
-/

namespace MLRL.Boosting

open Predictor Induction Refinement RuleEval

variable {σ K : Type}

/-- `Condition`, condition.hpp:33-81: the index of a feature, a comparator, a threshold, the interval of the feature vector it corresponds to
and the number of examples it covers. -/
structure Condition where
  feature : Nat
  comparator : Search.Comparator
  threshold : Rat
  interval : FeatureSpace.Interval
  numCovered : Nat
  deriving DecidableEq, Repr

/-- The condition of a candidate; its fields are set by the searches, e.g., feature_based_search_numerical.hpp:62-73. -/
def conditionOf {M : Type} (feature : Nat) (c : Search.Candidate M) : Condition :=
  ⟨feature, c.comparator, c.threshold, c.interval, c.numCovered⟩

/-- Does an example satisfy a condition, given the values of all features (`none` if a value is missing)? -/
def Condition.holds (value : Nat → Nat → Option Rat) (c : Condition) (e : Nat) : Bool :=
  match value c.feature e with
  | some x => c.comparator.holds c.threshold x
  | none => false

section
variable [Field K] [LinearOrder K]

/-- `compareBoostedRuleQuality`, boosting rule_compare_function.hpp:18-20. The minimum quality is zero (line 27). -/
def better (a b : K) : Bool := decide (a < b)

/-- `ConstantShrinkage::postProcess`, shrinkage_constant.cpp:25-31, for the values of a head. Without shrinkage, the values are not
changed, which is the case `shrinkage = 1`. -/
def shrink (shrinkage : K) : Head K → Head K
  | .complete values => .complete (values.map (· * shrinkage))
  | .partial_ entries => .partial_ (entries.map (fun e => (e.1, e.2 * shrinkage)))

/-- The weighted gradients and Hessians of an example; the weights are those that are used by `addToSubset`. Only examples that exist are
added to a subset. -/
def weightedStat (weight : Nat → K) (cells : List (Update.Cell (List K) (List (Stat K)))) (e : Nat) : Nat → K × K := fun j =>
  match cells[e]? with
  | none => (0, 0)
  | some c => match c.statistics[j]? with
    | none => (0, 0)
    | some t => (weight e * t.gradient, weight e * t.hessian)

/-- The statistics for the given outputs, as they are passed to a rule evaluation. There are `n` outputs. -/
def outputStats (n : Nat) (outputs : List Nat) (sums : Nat → K × K) : Res (List (Stat K)) :=
  outputs.mapM (fun j => if j < n then .ok ⟨(sums j).1, (sums j).2⟩ else .error .outOfBounds)

/-- `sort`, prediction_partial.cpp:58-85, on the entries of a head (see `Verif/Model/PartialPrediction.lean`); complete heads are not
changed (prediction_complete.cpp). -/
def sortHead : Head K → Head K
  | .complete values => .complete values
  | .partial_ entries => .partial_ (entries.insertionSort (fun a b => a.1 ≤ b.1))

/-- `ScoreProcessor::processScores`, score_processor.cpp:46-52: a vector that stores scores for all available outputs results in a complete
head, any other one in a partial head. -/
def headOf (isComplete : Bool) (scores : ScoreVector K) : Head K :=
  if isComplete then .complete scores.values else .partial_ (scores.indices.zip scores.values)

/-- A factory of rule evaluations and the method `calculateScores` of the objects it creates: given outputs and their statistics, scores and a quality are
calculated. The argument `all` tells if the outputs are given by a `CompleteIndexVector` or by a `PartialIndexVector`, for which different objects are created,
e.g., rule_evaluation_decomposable_partial_fixed.cpp:84-100. -/
structure Evaluation (K : Type) where
  /-- Are all outputs predicted? -/
  complete : Bool
  calculateScores : (all : Bool) → List Nat → List (Stat K) → Res (ScoreVector K)

/-- The outputs a search considers: all outputs, those that have been sampled or, if the search is restricted, those of the given head
(rule_induction_top_down_greedy.cpp:93-98). The flag tells if these are all outputs. -/
def searchOutputs (n : Nat) (sampled : Option (List Nat)) : Option (Head K) → List Nat × Bool
  | some (.complete _) => (List.range n, true)
  | some (.partial_ entries) => (entries.map Prod.fst, false)
  | none => match sampled with
    | none => (List.range n, true)
    | some outputs => (outputs, false)

/-- `calculateScores` and `pushRefinement` for a candidate, e.g., feature_based_search_numerical.hpp:62-73. -/
def scoreCandidate (evaluation : Evaluation K) (n : Nat) (outputs : List Nat × Bool) (feature : Nat) (c : Search.Candidate (Nat → K × K)) :
    Res (Scored (Found Condition (Head K)) K) := do
  let stats ← outputStats n outputs.1 c.stats
  let scores ← evaluation.calculateScores outputs.2 outputs.1 stats
  return ⟨⟨conditionOf feature c, c.numCovered, headOf (evaluation.complete && outputs.2) scores⟩, scores.quality⟩

/-- All candidates for a feature. `searchFeature` is the search for refinements by this feature. -/
def scoreFeature (evaluation : Evaluation K) (n : Nat) (outputs : List Nat × Bool)
    (searchFeature : Nat → σ → (Nat → Nat → K × K) → Res (List (Search.Candidate (Nat → K × K)))) (stat : Nat → Nat → K × K) (s : σ)
    (feature : Nat) : Res (List (Scored (Found Condition (Head K)) K)) := do
  let candidates ← searchFeature feature s stat
  candidates.mapM (scoreCandidate evaluation n outputs feature)

/-- The search for refinements: the candidates for all sampled features (rule_refinement_statistics_based.cpp:16-72), given the number of conditions so far, the subspace and the head the search is restricted to. -/
def candidates (evaluation : Evaluation K) (n : Nat) (sampledOutputs : Option (List Nat)) (features : Nat → List Nat)
    (searchFeature : Nat → σ → (Nat → Nat → K × K) → Res (List (Search.Candidate (Nat → K × K)))) (weight : Nat → K)
    (cells : List (Update.Cell (List K) (List (Stat K)))) (k : Nat) (s : σ) (restricted : Option (Head K)) :
    Res (List (List (Scored (Found Condition (Head K)) K))) :=
  (features k).mapM (scoreFeature evaluation n (searchOutputs n sampledOutputs restricted) searchFeature (weightedStat weight cells) s)

/-- The loop in lines 84-86 of `induceDefaultRule`: the sum of the statistics of all examples, each of which has weight one. -/
def totalStat (cells : List (Update.Cell (List K) (List (Stat K)))) (numExamples : Nat) : Nat → K × K :=
  ((List.range numExamples).map (weightedStat (fun _ => 1) cells)).sum

/-- Lines 78-91 of `induceDefaultRule`, rule_induction_common.hpp:77-101: the head of the default rule. -/
def defaultHead (evaluation : Evaluation K) (n numExamples : Nat) (cells : List (Update.Cell (List K) (List (Stat K)))) : Res (Head K) := do
  let stats ← outputStats n (List.range n) (totalStat cells numExamples)
  let scores ← evaluation.calculateScores true (List.range n) stats
  return headOf evaluation.complete scores

/-- `DecomposableCompleteRuleEvaluationFactory`, rule_evaluation_decomposable_complete.cpp. An object is created for each vector of outputs; `scratch` is the content
of its array of scores. -/
def completeEvaluation (l1 l2 : K) (scratch : List Nat → List K) : Evaluation K :=
  ⟨true, fun _ outputs => RuleEval.complete l1 l2 outputs (scratch outputs)⟩

/-- `DecomposableSingleOutputRuleEvaluationFactory`, rule_evaluation_decomposable_single.cpp:74-108. -/
def singleEvaluation (l1 l2 : K) : Evaluation K := ⟨false, fun _ => RuleEval.single l1 l2⟩

/-- `DecomposableFixedPartialRuleEvaluationFactory`, rule_evaluation_decomposable_partial_fixed.cpp:78-118: if some outputs are given, all of them are predicted. See
`RuleEval.fixed` for the parameters; `scratch'` is the array of scores for some outputs. -/
def fixedEvaluation (partialSort : Nat → List (Nat × K) → List (Nat × K)) (l1 l2 : K) (tmp : List Nat → List (Nat × K))
    (indices : List Nat → List Nat) (scratch scratch' : List Nat → List K) : Evaluation K :=
  ⟨false, fun all outputs =>
    if all then RuleEval.fixed partialSort l1 l2 outputs (tmp outputs) (indices outputs) (scratch outputs)
    else RuleEval.complete l1 l2 outputs (scratch' outputs)⟩

/-- `DecomposableDynamicPartialRuleEvaluationFactory`, rule_evaluation_decomposable_partial_dynamic.cpp:89-124: if some outputs are given, all of them are predicted. See
`RuleEval.dynamic` for the parameters. -/
def dynamicEvaluation (pow : K → K) (threshold l1 l2 : K) (indices : List Nat → List Nat) (scratch : List Nat → List K) : Evaluation K :=
  ⟨false, fun all outputs =>
    if all then RuleEval.dynamic pow threshold l1 l2 outputs (indices outputs) (scratch outputs)
    else RuleEval.complete l1 l2 outputs (scratch outputs)⟩

/-- What a boosting algorithm without pruning consists of. The fields `features`, `sampledOutputs`, `searchSchedule` and `applySchedule`
provide the features and outputs that are sampled and the orders in which threads work, given the number of rules so far. -/
structure Config (σ K : Type) where
  subspaces : SubspaceOps σ Condition
  updates : Update.Ops K (List K) (List (Stat K))
  grow : GrowConfig
  shrinkage : K
  numExamples : Nat
  numOutputs : Nat
  weight : Nat → K
  hasZeroWeights : Bool
  useDefaultRule : Bool
  defaultEvaluation : Evaluation K
  evaluation : Evaluation K
  searchFeature : Nat → σ → (Nat → Nat → K × K) → Res (List (Search.Candidate (Nat → K × K)))
  features : Nat → Nat → List Nat
  sampledOutputs : Nat → Option (List Nat)
  searchSchedule : Nat → Nat → List (List (Scored (Found Condition (Head K)) K)) → List (Nat × Scored (Found Condition (Head K)) K)
  applySchedule : Nat → Update.Call K →
    List (Nat × (Update.Cell (List K) (List (Stat K)) → Res (Update.Cell (List K) (List (Stat K)))))
  stopping : Training.StoppingConfig K
  environment : Training.Environment K (List K)

/-- The rule induction, without pruning and without recalculating predictions. -/
def Config.learner (cfg : Config σ K) : Learner σ Condition K K (List K) (List (Stat K)) where
  subspaces := cfg.subspaces
  updates := cfg.updates
  better := better
  minQuality := 0
  sortHead := sortHead
  config := cfg.grow
  pruning := none
  recalculate := none
  postProcess := shrink cfg.shrinkage

/-- What differs between calls to `induceRule`. -/
def Config.round (cfg : Config σ K) (k : Nat) : Round σ Condition K K (List K) (List (Stat K)) where
  search := fun cells =>
    ⟨candidates cfg.evaluation cfg.numOutputs (cfg.sampledOutputs k) (cfg.features k) cfg.searchFeature cfg.weight cells, cfg.searchSchedule k⟩
  hasZeroWeights := cfg.hasZeroWeights
  applySchedule := cfg.applySchedule k

/-- The boosting algorithm. -/
def Config.setup (cfg : Config σ K) : Training.Setup σ Condition K K (List K) (List (Stat K)) where
  learner := cfg.learner
  numExamples := cfg.numExamples
  useDefaultRule := cfg.useDefaultRule
  defaultHead := defaultHead cfg.defaultEvaluation cfg.numOutputs cfg.numExamples
  rounds := cfg.round
  stopping := cfg.stopping
  environment := cfg.environment

end

end MLRL.Boosting
