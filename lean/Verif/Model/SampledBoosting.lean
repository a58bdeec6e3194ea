import Verif.Model.Boosting

/-!
# Model of boosting algorithms that sample examples and recalculate predictions

Sources (cpp/subprojects/common): `src/mlrl/common/rule_refinement/feature_space_tabular.cpp`,
`src/mlrl/common/rule_refinement/prediction_complete.cpp`, `src/mlrl/common/rule_refinement/prediction_partial.cpp`,
`src/mlrl/common/rule_evaluation/score_vector_dense.cpp`, `src/mlrl/common/rule_induction/rule_induction_common.hpp`,
`src/mlrl/common/rule_model_assemblage/rule_model_assemblage_sequential.cpp`.

In contrast to `Verif/Model/Boosting.lean`, the weights of the examples, and thus the subspaces and the searches for refinements, differ between
rules. The result of `sample` (rule_model_assemblage_sequential.cpp:61) is a parameter (see `Verif/Model/Sampling.lean`).
-/

namespace MLRL.Boosting

open Predictor Induction RuleEval

variable {σ K : Type}

section
variable [Field K]

/-- The body of the loop in lines 34-40 of `recalculatePredictionInternally`, feature_space_tabular.cpp:27-44: examples that are covered are added
to a subset. All examples have weight one (line 31). -/
def addCovered (cells : List (Update.Cell (List K) (List (Stat K)))) (mask : Nat → Bool) (sums : Nat → K × K) (e : Nat) : Res (Nat → K × K) :=
  if mask e then
    if e < cells.length then .ok (sums + weightedStat (fun _ => 1) cells e) else .error .outOfBounds
  else .ok sums

/-- `set`, prediction_complete.cpp:45-47, prediction_partial.cpp:91-93, which is called by `updatePrediction`, score_vector_dense.cpp:59-61: as
many scores are copied as there are elements in the prediction. -/
def copyScores (numElements : Nat) (values : List K) : Res (List K) :=
  (List.range numElements).mapM (readAt values)

/-- `recalculatePredictionInternally`, feature_space_tabular.cpp:27-44. The subset is created for the outputs of the prediction
(prediction_complete.cpp:66-69, prediction_partial.cpp:112-115). -/
def recalculatePrediction (evaluation : Evaluation K) (numOutputs : Nat) (examples : List Nat)
    (cells : List (Update.Cell (List K) (List (Stat K)))) (mask : Nat → Bool) : Head K → Res (Head K)
  | .complete values => do
    let sums ← examples.foldlM (addCovered cells mask) 0
    let stats ← outputStats numOutputs (List.range values.length) sums
    let scores ← evaluation.calculateScores true (List.range values.length) stats
    let values' ← copyScores values.length scores.values
    return .complete values'
  | .partial_ entries => do
    let sums ← examples.foldlM (addCovered cells mask) 0
    let stats ← outputStats numOutputs (entries.map Prod.fst) sums
    let scores ← evaluation.calculateScores false (entries.map Prod.fst) stats
    let values ← copyScores entries.length scores.values
    return .partial_ ((entries.map Prod.fst).zip values)

end

section
variable [Field K] [LinearOrder K]

/-- The rule induction, where predictions are recalculated by the given function. -/
def Config.recalculating (cfg : Config σ K) (f : Option (List (Update.Cell (List K) (List (Stat K))) → (Nat → Bool) → Head K → Res (Head K))) :
    Learner σ Condition K K (List K) (List (Stat K)) :=
  { cfg.learner with recalculate := f }

/-- A boosting algorithm whose weights differ between rules. The fields `weights`, `hasZeroWeights`, `subspaces` and `searchFeature` take the place
of those of `base`; they are given the number of rules so far. The training examples are those in `examples`, i.e., all examples
(feature_space_tabular.cpp:258-263) or the first ones of a partition into two sets (feature_space_tabular.cpp:265-270). Predictions are
recalculated if `recalculate` is set. -/
structure Sampled (σ K : Type) where
  base : Config σ K
  subspaces : Nat → SubspaceOps σ Condition
  searchFeature : Nat → Nat → σ → (Nat → Nat → K × K) → Res (List (Search.Candidate (Nat → K × K)))
  weights : Nat → Nat → K
  hasZeroWeights : Nat → Bool
  examples : List Nat
  recalculate : Bool

/-- The boosting algorithm, as far as the rule is concerned that is learned after `k` rules. -/
def Sampled.at (cfg : Sampled σ K) (k : Nat) : Config σ K :=
  { cfg.base with
    subspaces := cfg.subspaces k
    searchFeature := cfg.searchFeature k
    weight := cfg.weights k
    hasZeroWeights := cfg.hasZeroWeights k }

/-- The function that recalculates predictions, if any. It uses the same rule evaluation as searches (rule_induction_common.hpp:119). -/
def Sampled.recalculation (cfg : Sampled σ K) : Option (List (Update.Cell (List K) (List (Stat K))) → (Nat → Bool) → Head K → Res (Head K)) :=
  if cfg.recalculate then
    some (recalculatePrediction cfg.base.evaluation cfg.base.numOutputs cfg.examples)
  else none

/-- `induceRule`, rule_induction_common.hpp:103-143. -/
def Sampled.induceRule (cfg : Sampled σ K) (fuel k : Nat) (cells : List (Update.Cell (List K) (List (Stat K)))) :
    Run (Option (List (Update.Cell (List K) (List (Stat K))) × Rule Condition K)) :=
  ((cfg.at k).recalculating cfg.recalculation).induceRule ((cfg.at k).round k) fuel cells

/-- `SequentialRuleModelAssemblage::induceRules`, rule_model_assemblage_sequential.cpp:32-75. The default rule does not depend on the weights. -/
def Sampled.induceRules (cfg : Sampled σ K) (fuel : Nat) (cells : List (Update.Cell (List K) (List (Stat K)))) :
    Run (Training.State Condition K (List K) (List (Stat K))) :=
  cfg.base.setup.induceRulesWith (cfg.induceRule fuel) fuel cells

end

end MLRL.Boosting
