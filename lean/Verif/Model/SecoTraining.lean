import Verif.Model.Tabular
import Verif.Model.SecoEval
import Verif.Model.DecisionList
import Verif.Spec.Confusion

/-!
# Model of training by separate-and-conquer algorithms

Sources (cpp/subprojects): `seco/src/mlrl/seco/learner_seco_classifier.cpp`, `seco/include/mlrl/seco/learner_common.hpp`,
`seco/src/mlrl/seco/statistics/statistics_common.hpp`, `seco/include/mlrl/seco/rule_evaluation/rule_compare_function.hpp`,
`common/src/mlrl/common/rule_induction/rule_induction_common.hpp`, `common/src/mlrl/common/rule_refinement/score_processor.cpp`,
`common/src/mlrl/common/rule_model_assemblage/rule_model_assemblage_sequential.cpp`.

The parts that have been modelled separately are put together: the coverage matrix (`Verif.Model.Coverage`), confusion matrices
(`Verif.Model.Confusion`), the rule evaluation (`Verif.Model.SecoEval`), tabular feature spaces and searches (`Verif.Model.Tabular`), growing
(`Verif.Model.Induction`), stopping criteria (`Verif.Model.Stopping`) and the model builder (`Verif.Model.RuleList`). Simplifications:

* Rules are not pruned and their predictions are not recalculated. There is no post-optimisation.
* Predictions are applied by a single thread (with several threads, the sum of the weights of uncovered labels is subject to a race, see C43).
* The confusion matrices of covered examples are functions from labels to confusion matrices; that the vectors of the code hold the same
  values is shown separately (C49).
-/

namespace MLRL.SecoTraining

open Predictor Induction Refinement Seco Statistics Stopping

variable {K : Type}

/-- A rule evaluation of the separate-and-conquer library. The flag tells if it is created for all labels (`CompleteIndexVector`) or for some of
them (`PartialIndexVector`). -/
structure Evaluation (K : Type) where
  calculateScores : (complete : Bool) → (majority indices : List Nat) → (total covered : List (Confusion K)) → Res (Seco.Head K (Option K))

section
variable [Field K] [LinearOrder K]

/-- `DecomposableSingleOutputRuleEvaluation`, which is used for all kinds of index vectors, rule_evaluation_decomposable_single.cpp:81-89. The
quality is always a number. -/
def singleEvaluation (h : Heuristic K) : Evaluation K :=
  ⟨fun _ majority indices total covered => do
    let r ← singleScores h majority indices total covered
    return ⟨some r.quality, r.indices, r.values⟩⟩

/-- `DecomposablePartialRuleEvaluationFactory`, rule_evaluation_decomposable_partial.cpp:193-207: if there are indices of some labels, all of them
are predicted for. -/
def partialEvaluation (h : Heuristic K) (f : LiftFunction K) (sort : List (SortedEntry K) → List (SortedEntry K)) : Evaluation K :=
  ⟨fun complete majority indices total covered =>
    if complete then partialScores h f sort majority indices total covered else completeScores h f majority indices total covered⟩

/-- What an example contributes to the sum of confusion matrices: for each label that has not been covered, the confusion matrix of a single
example, multiplied by its weight (statistics_common.hpp:24-43 and vector_confusion_matrix_dense.cpp:9-31). -/
def exampleConfusion (majority : List Nat) (labels : LabelMatrix) (n c : Nat) (weights : Weights K) (cells : List Nat) (e : Nat) :
    ConfusionMatrices K :=
  stat (Row.value majority c) (seCoData labels n c cells weights) e

/-- The confusion matrices of the given labels, as they are passed to a rule evaluation. There are `c` labels. -/
def outputConfusions (c : Nat) (outputs : List Nat) (sums : ConfusionMatrices K) : Res (List (Confusion K)) :=
  outputs.mapM (fun j => if j < c then .ok (sums j) else .error .outOfBounds)

/-- `ScoreProcessor::processScores`, score_processor.cpp:46-52: all rule evaluations that are used for growing rules return vectors that store
scores for some labels. -/
def headOf (r : Seco.Head K (Option K)) : Predictor.Head K := .partial_ (r.indices.zip r.values)

/-- `calculateScores`, statistics_common.hpp:152-155 and 361-384, and `pushRefinement` for a candidate. -/
def scoreCandidate (evaluation : Evaluation K) (majority : List Nat) (c : Nat) (total : List (Confusion K)) (outputs : List Nat × Bool)
    (feature : Nat) (x : Search.Candidate (ConfusionMatrices K)) :
    Res (Scored (Found Boosting.Condition (Predictor.Head K)) (Option K)) := do
  let covered ← outputConfusions c outputs.1 x.stats
  let r ← evaluation.calculateScores outputs.2 majority outputs.1 total covered
  return ⟨⟨Boosting.conditionOf feature x, x.numCovered, headOf r⟩, r.quality⟩

/-- All candidates for a feature. -/
def scoreFeature {σ : Type} (evaluation : Evaluation K) (majority : List Nat) (c : Nat) (total : List (Confusion K)) (outputs : List Nat × Bool)
    (searchFeature : Nat → σ → (Nat → ConfusionMatrices K) → Res (List (Search.Candidate (ConfusionMatrices K))))
    (stat : Nat → ConfusionMatrices K) (s : σ) (feature : Nat) :
    Res (List (Scored (Found Boosting.Condition (Predictor.Head K)) (Option K))) := do
  let candidates ← searchFeature feature s stat
  candidates.mapM (scoreCandidate evaluation majority c total outputs feature)

/-- What differs between calls to `induceRule`: the weights of examples, which have been sampled, the feature space (which knows the examples with
non-zero weight), the sampled features and labels, as well as the order in which threads consider candidates. -/
structure Round (K : Type) where
  env : Tabular.Env
  weights : Weights K
  features : Nat → List Nat
  sampledOutputs : Option (List Nat)
  searchSchedule : Nat → List (List (Scored (Found Boosting.Condition (Predictor.Head K)) (Option K))) →
    List (Nat × Scored (Found Boosting.Condition (Predictor.Head K)) (Option K))

/-- The search for refinements, rule_refinement_statistics_based.cpp:16-72. It is restricted to the labels of the given head, to those that have
been sampled or not at all (`Boosting.searchOutputs`). -/
def Round.search {σ : Type} (round : Round K) (evaluation : Evaluation K) (majority : List Nat) (c : Nat) (total : List (Confusion K))
    (searchFeature : Nat → σ → (Nat → ConfusionMatrices K) → Res (List (Search.Candidate (ConfusionMatrices K))))
    (stat : Nat → ConfusionMatrices K) : Induction.Search σ Boosting.Condition (Predictor.Head K) (Option K) where
  candidates k s restricted := (round.features k).mapM
    (scoreFeature evaluation majority c total (Boosting.searchOutputs c round.sampledOutputs restricted) searchFeature stat s)
  schedule := round.searchSchedule

/-- What a separate-and-conquer algorithm depends on. Criteria that are not used are `none`. `clock` provides the readings of the clock. -/
structure Config (K : Type) where
  numExamples : Nat
  numOutputs : Nat
  labels : LabelMatrix
  grow : GrowConfig
  evaluation : Evaluation K
  useDefaultRule : Bool
  rounds : Nat → Round K
  maxRules : Option Nat
  timeLimit : Option Nat
  threshold : Option K
  clock : Nat → Nat

/-! ### Stopping criteria -/

/-- The states of the stopping criteria. -/
inductive CriterionState (K : Type) where
  | size (maxRules : Nat)
  | time (timeLimit : Nat) (numReadings : Nat) (timer : TimeState)
  | coverage (threshold : K)

/-- `test` of the individual criteria. -/
def testCriterion (clock : Nat → Nat) (state : CriterionState K) (m : CoverageMatrix K) (numRules : Nat) : Res (Result × CriterionState K) :=
  match state with
  | .size maxRules => .ok (sizeTest maxRules numRules, .size maxRules)
  | .time timeLimit n timer =>
    .ok ((timeTest timeLimit timer (clock n)).1, .time timeLimit (n + 1) (timeTest timeLimit timer (clock n)).2)
  | .coverage threshold => .ok ({ stop := testCoverage threshold m }, .coverage threshold)

/-- `createStoppingCriterionFactories`, seco/learner_common.hpp:40-48 and common/learner_common.hpp:325-344: the criteria in the order in which they
are tested. -/
def Config.criteria (cfg : Config K) : List (Criterion (CriterionState K) (CoverageMatrix K)) :=
  (cfg.maxRules.toList.map CriterionState.size ++ cfg.timeLimit.toList.map (fun t => CriterionState.time t 0 ⟨0, false⟩) ++
    cfg.threshold.toList.map CriterionState.coverage).map (fun state => ⟨state, testCriterion cfg.clock⟩)

/-! ### Inducing rules -/

/-- `compareSeCoRuleQuality`, seco rule_compare_function.hpp:16-18. The minimum quality is zero (line 25). -/
def better (a b : Option K) : Bool := Seco.greater a b

/-- The coverage matrix and the model builder. -/
structure State (K : Type) where
  matrix : CoverageMatrix K
  builder : IntermediateModelBuilder (Induction.Rule Boosting.Condition K)

/-- `growRule` for the statistics that have been created from the weights, statistics_common.hpp:391-404. -/
def Config.growNext (cfg : Config K) (majority : List Nat) (k fuel : Nat) (m : CoverageMatrix K) :
    Run (Grown (FeatureSpace.Subspace Unit) Boosting.Condition (Predictor.Head K)) := do
  let total ← Run.lift (totalSum (confusionOps majority) (seCoData cfg.labels cfg.numExamples cfg.numOutputs m.cells (cfg.rounds k).weights))
  growRule (Tabular.subspaces (cfg.rounds k).env) better Boosting.sortHead cfg.grow
    ((cfg.rounds k).search cfg.evaluation majority cfg.numOutputs total (Tabular.searchFeature (cfg.rounds k).env)
      (exampleConfusion majority cfg.labels cfg.numExamples cfg.numOutputs (cfg.rounds k).weights m.cells)) (some 0) fuel

/-- `induceRule`, rule_induction_common.hpp:103-143. Returns `none` if no rule has been found. -/
def Config.induceRule (cfg : Config K) (majority : List Nat) (k fuel : Nat) (m : CoverageMatrix K) :
    Run (Option (CoverageMatrix K × Induction.Rule Boosting.Condition K)) := do
  let grown ← cfg.growNext majority k fuel m
  match grown.head with
  | none => Run.done none
  | some head => do
    let m ← Run.lift (execCall majority cfg.numExamples ⟨Tabular.covers grown.subspace, head, false⟩ m)
    Run.done (some (m, ⟨grown.conditions, head⟩))

/-- The head of the default rule, rule_induction_common.hpp:77-91: a subset of the statistics is created and all examples are added to it, see
`Verif.Model.Confusion`. As `DecomposableMajorityRuleEvaluation` stores scores for all labels, the head is a complete one. -/
def Config.defaultHead (cfg : Config K) (majority : List Nat) (m : CoverageMatrix K) : Res (Predictor.Head K) := do
  let _ ← subsetTotal majority cfg.labels cfg.numExamples cfg.numOutputs m.cells (.equal cfg.numExamples : Weights K)
  let _ ← subsetSum majority cfg.labels cfg.numExamples cfg.numOutputs m.cells (.equal cfg.numExamples : Weights K)
    (.complete cfg.numOutputs) (List.range cfg.numExamples)
  let r : Seco.Head K K ← majorityScores majority (List.range cfg.numOutputs)
  return .complete r.values

/-- `induceDefaultRule`, rule_induction_common.hpp:77-101. -/
def Config.induceDefaultRule (cfg : Config K) (majority : List Nat) (m : CoverageMatrix K) : Res (State K) := do
  let head ← cfg.defaultHead majority m
  let m ← execCall majority cfg.numExamples ⟨fun _ => true, head, false⟩ m
  return ⟨m, ⟨some ⟨[], head⟩, [], 0⟩⟩

/-- Lines 35-41 of `induceRules`, rule_model_assemblage_sequential.cpp. -/
def Config.start (cfg : Config K) (majority : List Nat) (m : CoverageMatrix K) : Res (State K) :=
  match cfg.useDefaultRule with
  | true => cfg.induceDefaultRule majority m
  | false => .ok ⟨m, ⟨none, [], 0⟩⟩

/-- `addRule` of the model builder, model_builder_intermediate.cpp:18-21. -/
def State.addRule (st : State K) (m : CoverageMatrix K) (rule : Induction.Rule Boosting.Condition K) : State K :=
  ⟨m, { st.builder with rules := st.builder.rules ++ [rule] }⟩

/-- The loop of `SequentialRuleModelAssemblage::induceRules`, rule_model_assemblage_sequential.cpp:49-74. None of the criteria of a
separate-and-conquer algorithm provides a number of used rules (`numUsedRules` remains 0, lines 53-55 and 73). -/
def Config.assemble (cfg : Config K) (majority : List Nat) (growFuel : Nat) : (fuel : Nat) →
    List (Criterion (CriterionState K) (CoverageMatrix K)) → (numRules : Nat) → State K → Run (State K)
  | 0, _, _, _ => Run.unfinished
  | fuel + 1, criteria, numRules, st => do
    let (result, criteria) ← Run.lift (listTest criteria st.matrix numRules)
    match result.stop with
    | true => Run.done st
    | false => do
      match ← cfg.induceRule majority numRules growFuel st.matrix with
      | none => Run.done st
      | some (m, rule) => cfg.assemble majority growFuel fuel criteria (numRules + 1) (st.addRule m rule)

/-- `SequentialRuleModelAssemblage::induceRules`, rule_model_assemblage_sequential.cpp:32-75. -/
def Config.induceRules (cfg : Config K) (fuel : Nat) (majority : List Nat) (m : CoverageMatrix K) : Run (State K) := do
  let st ← Run.lift (cfg.start majority m)
  cfg.assemble majority fuel fuel cfg.criteria (if cfg.useDefaultRule then 1 else 0) st

/-- The rows of a dense label matrix, as `Verif.Model.Coverage` represents them: 1 stands for relevant labels (`true`), 0 for irrelevant ones. -/
def LabelMatrix.rowsOf (array : List Bool) (n c : Nat) : List (List Nat) :=
  (List.range n).map (fun i => ((array.drop (i * c)).take c).map (fun b => if b then 1 else 0))

/-- `createStatistics`, statistics_provider_decomposable_dense.cpp:40-119, depending on the format of the label matrix. `memory` is the content of
the vector that is allocated in line 45. -/
def Config.createStatistics (cfg : Config K) (memory : List Nat) : Res (List Nat × CoverageMatrix K) :=
  match cfg.labels with
  | .dense array => createStatisticsDense (LabelMatrix.rowsOf array cfg.numExamples cfg.numOutputs) cfg.numOutputs memory
  | .csr rows => createStatisticsCsr rows cfg.numOutputs

/-- What training results in. -/
structure Fitted (K : Type) where
  model : RuleList (Induction.Rule Boosting.Condition K)
  majority : List Nat
  matrix : CoverageMatrix K

/-- `fit`, learner_classification_common.hpp:31-123, for separate-and-conquer algorithms: the default rule comes last (decision_list_builder.cpp). -/
def Config.fit (cfg : Config K) (memory : List Nat) (fuel : Nat) : Run (Fitted K) := do
  let (majority, m) ← Run.lift (cfg.createStatistics memory)
  let st ← cfg.induceRules fuel majority m
  Run.done ⟨st.builder.buildModel false, majority, st.matrix⟩

/-- The rules of a model: their bodies are created from conditions when they are added, decision_list_builder.cpp:32-35. The default rule has an empty
body (lines 47-50 and rule_list.cpp:118-120), see `Tabular.createBody`. -/
def createModel (model : RuleList (Induction.Rule Boosting.Condition K)) : Res (RuleList (Predictor.Rule K)) := do
  let rules ← model.rules.mapM Tabular.createRule
  match model.defaultRule with
  | none => return ⟨model.defaultRuleTakesPrecedence, none, rules, model.numUsedRules⟩
  | some rule => do
    let rule ← Tabular.createRule rule
    return ⟨model.defaultRuleTakesPrecedence, some rule, rules, model.numUsedRules⟩

end

end MLRL.SecoTraining
