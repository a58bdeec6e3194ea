import Verif.Model.SecoTraining
import Verif.Model.SampledBoosting

/-!
# Model of separate-and-conquer algorithms that prune rules and recalculate their predictions

Sources (cpp/subprojects): `common/src/mlrl/common/rule_induction/rule_induction_common.hpp` (lines 103-143),
`common/src/mlrl/common/rule_refinement/feature_space_tabular.cpp` (lines 8-44), `common/src/mlrl/common/rule_pruning/rule_pruning_irep.cpp`,
`seco/src/mlrl/seco/statistics/statistics_common.hpp` (lines 112-247 and 556-568), `seco/src/mlrl/seco/learner_seco_classifier.cpp`.

Training is the one of `Verif.Model.SecoTraining`, except that each rule is pruned and its prediction is recalculated before it is added to the model.
The partition consists of training examples only (`SinglePartition`), i.e., all examples are training examples. Post-processing does not change
predictions (`NoPostProcessor`, which is the only post-processor of the library).
-/

namespace MLRL.SecoTraining

open Predictor Induction Refinement Seco Statistics Stopping

variable {K : Type}

section
variable [Field K] [LinearOrder K]

/-- `hasZeroWeights`: false for `EqualWeightVector` (weight_vector_equal.cpp:20-22), for other vectors it is tested if there are less non-zero weights than
elements (weight_vector_dense.cpp:20-23, weight_vector_bit.cpp:20-22). The number of non-zero weights that is stored is assumed to be correct. -/
def hasZeroWeights : Weights K → Bool
  | .equal _ => false
  | .vector l => l.any (fun w => decide (w = 0))

/-- `OutOfSampleWeightVector`, weight_vector_out_of_sample.cpp:10-18: examples with zero weight have weight 1, others have weight 0. -/
def outOfSampleWeights : Weights K → Weights K
  | .equal n => .vector (List.replicate n 0)
  | .vector l => .vector (l.map (fun w => if w = 0 then 1 else 0))

/-- The labels for which subsets are created: all of them or those of a partial prediction (prediction_complete.cpp:66-69,
prediction_partial.cpp:112-115), and whether these are all labels. -/
def headOutputs : Predictor.Head K → List Nat × Bool
  | .complete values => (List.range values.length, true)
  | .partial_ entries => (entries.map Prod.fst, false)

/-- The indices a subset is created for. -/
def headIndices : Predictor.Head K → IndexVec
  | .complete values => .complete values.length
  | .partial_ entries => .select (entries.map Prod.fst)

/-- `createSubset`, statistics_common.hpp:556-568, to which the given examples are added (lines 137-155), and `calculateScores`. -/
def subsetScores (evaluation : Evaluation K) (majority : List Nat) (labels : LabelMatrix) (n c : Nat) (cells : List Nat) (weights : Weights K)
    (head : Predictor.Head K) (examples : List Nat) : Res (Seco.Head K (Option K)) := do
  let total ← subsetTotal majority labels n c cells weights
  let covered ← subsetSum majority labels n c cells weights (headIndices head) examples
  evaluation.calculateScores (headOutputs head).2 majority (headOutputs head).1 total covered

/-- `evaluateOutOfSampleInternally`, feature_space_tabular.cpp:8-25. `weights` are those the rule has been grown with. -/
def evaluateOutOfSample (evaluation : Evaluation K) (majority : List Nat) (labels : LabelMatrix) (n c : Nat) (cells : List Nat) (weights : Weights K)
    (head : Predictor.Head K) (mask : Nat → Bool) : Res (Option K) := do
  let r ← subsetScores evaluation majority labels n c cells (outOfSampleWeights weights) head
    ((List.range n).filter (fun e => decide (weightAt (outOfSampleWeights weights) e ≠ 0) && mask e))
  return r.quality

/-- The scores of a head are replaced (`updatePrediction`, score_vector_dense.cpp:58-61, prediction_partial.cpp:91-93): as many scores
are copied as there are elements in the prediction. -/
def replaceScores (head : Predictor.Head K) (scores : List K) : Res (Predictor.Head K) :=
  match head with
  | .complete values => do
    let values ← Boosting.copyScores values.length scores
    return .complete values
  | .partial_ entries => do
    let values ← Boosting.copyScores entries.length scores
    return .partial_ ((entries.map Prod.fst).zip values)

/-- `recalculatePredictionInternally`, feature_space_tabular.cpp:27-44. -/
def recalculatePrediction (evaluation : Evaluation K) (majority : List Nat) (labels : LabelMatrix) (n c : Nat) (cells : List Nat)
    (mask : Nat → Bool) (head : Predictor.Head K) : Res (Predictor.Head K) := do
  let r ← subsetScores evaluation majority labels n c cells (.equal n) head ((List.range n).filter mask)
  replaceScores head r.values

/-- How rules are treated after they have been grown: `pruning` is the rule evaluation that is used by IREP (`none` in the case of `NoRulePruning`),
`recalculate` is `recalculatePredictions_`. -/
structure Finishing (K : Type) where
  pruning : Option (Evaluation K)
  recalculate : Bool

/-- Lines 114-119 of `induceRule`, rule_induction_common.hpp. -/
def Config.pruneRule (cfg : Config K) (pruning : Option (Evaluation K)) (majority : List Nat) (k : Nat) (m : CoverageMatrix K)
    (grown : Grown (FeatureSpace.Subspace Unit) Boosting.Condition (Predictor.Head K)) (head : Predictor.Head K) :
    Res (Pruned (FeatureSpace.Subspace Unit) Boosting.Condition) :=
  match pruning with
  | some evaluation => prune (Tabular.subspaces (cfg.rounds k).env) better
      (evaluateOutOfSample evaluation majority cfg.labels cfg.numExamples cfg.numOutputs m.cells (cfg.rounds k).weights head)
      grown.conditions grown.subspace
  | none => .ok ⟨grown.conditions, none, grown.subspace⟩

/-- Lines 121-126 of `induceRule`, rule_induction_common.hpp. -/
def Config.recalculateHead (cfg : Config K) (recalculate : Bool) (majority : List Nat) (m : CoverageMatrix K)
    (pruned : Pruned (FeatureSpace.Subspace Unit) Boosting.Condition) (head : Predictor.Head K) : Res (Predictor.Head K) :=
  match recalculate with
  | true => recalculatePrediction cfg.evaluation majority cfg.labels cfg.numExamples cfg.numOutputs m.cells
      (pruned.mask.getD (Tabular.covers pruned.subspace)) head
  | false => .ok head

/-- Lines 113-127 of `induceRule`, rule_induction_common.hpp: the conditions and the head of the rule, as well as the subspace that is used for updating
the statistics. -/
def Config.finishRule (cfg : Config K) (fin : Finishing K) (majority : List Nat) (k : Nat) (m : CoverageMatrix K)
    (grown : Grown (FeatureSpace.Subspace Unit) Boosting.Condition (Predictor.Head K)) (head : Predictor.Head K) :
    Res (Induction.Rule Boosting.Condition K × FeatureSpace.Subspace Unit) :=
  match hasZeroWeights (cfg.rounds k).weights with
  | true => do
    let pruned ← cfg.pruneRule fin.pruning majority k m grown head
    let head ← cfg.recalculateHead fin.recalculate majority m pruned head
    return (⟨pruned.conditions, head⟩, pruned.subspace)
  | false => .ok (⟨grown.conditions, head⟩, grown.subspace)

/-- `induceRule`, rule_induction_common.hpp:103-143. Returns `none` if no rule has been found. -/
def Config.induceRuleWith (cfg : Config K) (fin : Finishing K) (majority : List Nat) (k fuel : Nat) (m : CoverageMatrix K) :
    Run (Option (CoverageMatrix K × Induction.Rule Boosting.Condition K)) := do
  let grown ← cfg.growNext majority k fuel m
  match grown.head with
  | none => Run.done none
  | some head => do
    let (rule, subspace) ← Run.lift (cfg.finishRule fin majority k m grown head)
    let m ← Run.lift (execCall majority cfg.numExamples ⟨Tabular.covers subspace, rule.head, false⟩ m)
    Run.done (some (m, rule))

/-- The loop of `SequentialRuleModelAssemblage::induceRules`, rule_model_assemblage_sequential.cpp:49-74. -/
def Config.assembleWith (cfg : Config K) (fin : Finishing K) (majority : List Nat) (growFuel : Nat) : (fuel : Nat) →
    List (Criterion (CriterionState K) (CoverageMatrix K)) → (numRules : Nat) → State K → Run (State K)
  | 0, _, _, _ => Run.unfinished
  | fuel + 1, criteria, numRules, st => do
    let (result, criteria) ← Run.lift (listTest criteria st.matrix numRules)
    match result.stop with
    | true => Run.done st
    | false => do
      match ← cfg.induceRuleWith fin majority numRules growFuel st.matrix with
      | none => Run.done st
      | some (m, rule) => cfg.assembleWith fin majority growFuel fuel criteria (numRules + 1) (st.addRule m rule)

/-- `SequentialRuleModelAssemblage::induceRules`, rule_model_assemblage_sequential.cpp:32-75. -/
def Config.induceRulesWith (cfg : Config K) (fin : Finishing K) (fuel : Nat) (majority : List Nat) (m : CoverageMatrix K) : Run (State K) := do
  let st ← Run.lift (cfg.start majority m)
  cfg.assembleWith fin majority fuel fuel cfg.criteria (if cfg.useDefaultRule then 1 else 0) st

/-- `fit`, learner_classification_common.hpp:31-123. -/
def Config.fitWith (cfg : Config K) (fin : Finishing K) (memory : List Nat) (fuel : Nat) : Run (Fitted K) := do
  let (majority, m) ← Run.lift (cfg.createStatistics memory)
  let st ← cfg.induceRulesWith fin fuel majority m
  Run.done ⟨st.builder.buildModel false, majority, st.matrix⟩

/-- What happens after rules have been grown according to the defaults of the learner: IREP (learner_seco_classifier.cpp:27) and recalculation
(rule_induction_top_down_greedy.cpp:179). -/
def Finishing.default (pruning : Evaluation K) : Finishing K := ⟨some pruning, true⟩

end

end MLRL.SecoTraining
