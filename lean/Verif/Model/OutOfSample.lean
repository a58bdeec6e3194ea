import Verif.Model.SampledBoosting

/-!
# Model of the evaluation of rules on examples with zero weight

Sources (cpp/subprojects/common): `src/mlrl/common/rule_refinement/feature_space_tabular.cpp`,
`src/mlrl/common/sampling/weight_vector_out_of_sample.cpp`, `src/mlrl/common/rule_induction/rule_induction_common.hpp`,
`src/mlrl/common/rule_pruning/rule_pruning_irep.cpp`.
-/

namespace MLRL.Boosting

open Predictor Induction RuleEval

variable {σ K : Type} [Field K] [LinearOrder K]

/-- `OutOfSampleWeightVector::operator[]`, weight_vector_out_of_sample.cpp:15-18: zero weights become one, all others become zero. -/
def outOfSampleWeight (weights : Nat → K) (e : Nat) : K := if weights e = 0 then 1 else 0

/-- The body of the loop in lines 16-22 of `evaluateOutOfSampleInternally`, feature_space_tabular.cpp:8-25: covered examples are added to a subset
if their weight is not zero (statistics_common.hpp:17-20, 29-35 of the boosting algorithm). -/
def addOutOfSample (weights : Nat → K) (cells : List (Update.Cell (List K) (List (Stat K)))) (mask : Nat → Bool) (sums : Nat → K × K) (e : Nat) :
    Res (Nat → K × K) :=
  if outOfSampleWeight weights e ≠ 0 ∧ mask e = true then
    if e < cells.length then .ok (sums + weightedStat (outOfSampleWeight weights) cells e) else .error .outOfBounds
  else .ok sums

/-- `evaluateOutOfSampleInternally`, feature_space_tabular.cpp:8-25. The result is the quality of the scores that are calculated for the outputs of
the prediction (line 24); the scores of the prediction are not used. -/
def evaluateOutOfSample (evaluation : Evaluation K) (numOutputs : Nat) (examples : List Nat) (weights : Nat → K)
    (cells : List (Update.Cell (List K) (List (Stat K)))) : Head K → (Nat → Bool) → Res K
  | .complete values, mask => do
    let sums ← examples.foldlM (addOutOfSample weights cells mask) 0
    let stats ← outputStats numOutputs (List.range values.length) sums
    let scores ← evaluation.calculateScores true (List.range values.length) stats
    return scores.quality
  | .partial_ entries, mask => do
    let sums ← examples.foldlM (addOutOfSample weights cells mask) 0
    let stats ← outputStats numOutputs (entries.map Prod.fst) sums
    let scores ← evaluation.calculateScores false (entries.map Prod.fst) stats
    return scores.quality

/-- The rule induction, where rules are pruned by IREP, using the given evaluation, and predictions are recalculated by the given function. -/
def Config.pruning (cfg : Config σ K) (evaluate : List (Update.Cell (List K) (List (Stat K))) → Head K → (Nat → Bool) → Res K)
    (f : Option (List (Update.Cell (List K) (List (Stat K))) → (Nat → Bool) → Head K → Res (Head K))) :
    Learner σ Condition K K (List K) (List (Stat K)) :=
  { cfg.recalculating f with pruning := some evaluate }

/-- The evaluation on the examples with zero weight. The given evaluation is the one `switchToPruningRuleEvaluation` switches to
(rule_induction_common.hpp:116). -/
def Sampled.outOfSample (cfg : Sampled σ K) (evaluation : Evaluation K) (k : Nat) :
    List (Update.Cell (List K) (List (Stat K))) → Head K → (Nat → Bool) → Res K :=
  evaluateOutOfSample evaluation cfg.base.numOutputs cfg.examples (cfg.weights k)

/-- `SequentialRuleModelAssemblage::induceRules`, rule_model_assemblage_sequential.cpp:32-75, where rules are pruned. -/
def Sampled.induceRulesPruning (cfg : Sampled σ K) (evaluation : Evaluation K) (fuel : Nat)
    (cells : List (Update.Cell (List K) (List (Stat K)))) : Run (Training.State Condition K (List K) (List (Stat K))) :=
  cfg.base.setup.induceRulesWith
    (fun k cells => ((cfg.at k).pruning (cfg.outOfSample evaluation k) cfg.recalculation).induceRule ((cfg.at k).round k) fuel cells) fuel cells

end MLRL.Boosting
