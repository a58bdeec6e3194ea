import Verif.Model.Induction
import Verif.Model.Stopping

/-!
# Model of training: stopping criteria, the assemblage of a model, post-optimisation

Sources: `common/include/mlrl/common/learner_common.hpp`, `learner_classification_common.hpp`, `learner_regression_common.hpp`,
`common/src/mlrl/common/rule_model_assemblage/rule_model_assemblage_sequential.cpp`, `rule_induction/rule_induction_common.hpp`,
`stopping/global_pruning_common.hpp`, `post_optimization/post_optimization_phase_list.cpp`.

Here, the parts that have been modelled separately are put together: the induction of rules (`Verif/Model/Induction.lean`), the stopping
criteria (`Verif/Model/Stopping.lean`), the builder of a model and rule lists (`Verif/Model/RuleList.lean`). Switching between different
kinds of rule evaluation is modelled in `Verif/Model/StatisticsProvider.lean` and omitted here.
-/

namespace MLRL.Training

open Predictor Induction Stopping

variable {σ Cond K Q R S : Type}

/-! ### Stopping criteria -/

/-- The body of the loops in `evaluate`, global_pruning_common.hpp:28-32 and 63-67. `measure` is `evaluatePrediction`. -/
def evaluateStep [Field K] (indices : List Nat) (measure : Nat → R → Res K) (cells : List (Update.Cell R S)) (i : Nat) (mean : K) : Res K := do
  let exampleIndex ← readAt indices i
  let cell ← readAt cells exampleIndex
  let score ← measure exampleIndex cell.scores
  return iterativeArithmeticMean (i + 1) score mean

/-- `evaluate`, global_pruning_common.hpp:23-70. `indices` are the elements of a single partition, those of the first partition or those of
the second one (if a holdout set is used). -/
def evaluate [Field K] (indices : List Nat) (measure : Nat → R → Res K) (cells : List (Update.Cell R S)) : Res K :=
  loop indices.length (evaluateStep indices measure cells) 0

/-- The states of the stopping criteria that may be used by a boosting algorithm. -/
inductive CriterionState (K : Type) where
  | size (maxRules : Nat)
  | time (timeLimit : Nat) (numReadings : Nat) (timer : TimeState)
  | pre (p : PrePruning K)
  | post (p : PostPruning K)

/-- What the stopping criteria depend on: the readings of the clock, the examples that are used for evaluating a model and the measure. -/
structure Environment (K R : Type) where
  clock : Nat → Nat
  indices : List Nat
  measure : Nat → R → Res K

/-- `test` of the individual criteria, see `Verif/Model/Stopping.lean`. The score is calculated even if it is not needed, which makes no
difference unless the calculation fails. -/
def Environment.test [Field K] [LinearOrder K] (env : Environment K R) (state : CriterionState K) (cells : List (Update.Cell R S))
    (numRules : Nat) : Res (Result × CriterionState K) :=
  match state with
  | .size maxRules => .ok (sizeTest maxRules numRules, .size maxRules)
  | .time timeLimit n timer =>
    .ok ((timeTest timeLimit timer (env.clock n)).1, .time timeLimit (n + 1) (timeTest timeLimit timer (env.clock n)).2)
  | .pre p => do
    let score ← evaluate env.indices env.measure cells
    let (result, p) ← p.test numRules score
    return (result, .pre p)
  | .post p => do
    let score ← evaluate env.indices env.measure cells
    let (result, p) ← p.test numRules score
    return (result, .post p)

/-- The configuration of the stopping criteria; `none` if a criterion is not used. -/
structure StoppingConfig (K : Type) where
  maxRules : Option Nat
  timeLimit : Option Nat
  globalPruning : Option (CriterionState K)

/-- `createStoppingCriterionFactories`, learner_common.hpp:325-344, together with `StoppingCriterionListFactory::create`: the criteria in
the order in which they are tested. -/
def StoppingConfig.create [Field K] [LinearOrder K] (cfg : StoppingConfig K) (env : Environment K R) :
    List (Criterion (CriterionState K) (List (Update.Cell R S))) :=
  (cfg.maxRules.toList.map CriterionState.size ++ cfg.timeLimit.toList.map (fun t => CriterionState.time t 0 ⟨0, false⟩) ++
    cfg.globalPruning.toList).map (fun state => ⟨state, env.test⟩)

/-! ### The assemblage of a model -/

/-- What `fit` depends on. `defaultHead` stands for the calculation of the default rule from the statistics of all examples
(rule_induction_common.hpp:78-91), `rounds` provides what differs between calls to `induceRule`, given the number of rules so far. -/
structure Setup (σ Cond K Q R S : Type) where
  learner : Learner σ Cond K Q R S
  numExamples : Nat
  useDefaultRule : Bool
  defaultHead : List (Update.Cell R S) → Res (Head K)
  rounds : Nat → Round σ Cond K Q R S
  stopping : StoppingConfig K
  environment : Environment K R

/-- The statistics and the model builder. -/
structure State (Cond K R S : Type) where
  cells : List (Update.Cell R S)
  builder : IntermediateModelBuilder (Rule Cond K)

/-- The steps of the loop that applies the default rule to all examples, rule_induction_common.hpp:96-98. -/
def defaultSteps (ops : Update.Ops K R S) (head : Head K) (numStatistics : Nat) :
    List (Nat × (Update.Cell R S → Res (Update.Cell R S))) :=
  (List.range numStatistics).flatMap (fun i => (Update.steps ops head false i).map (fun f => (i, f)))

/-- `induceDefaultRule`, rule_induction_common.hpp:77-101. The default rule is a rule without conditions. -/
def Setup.induceDefaultRule (t : Setup σ Cond K Q R S) (st : State Cond K R S) : Res (State Cond K R S) := do
  let head ← t.defaultHead st.cells
  let cells ← Update.exec (defaultSteps t.learner.updates head t.numExamples) st.cells
  return ⟨cells, { st.builder with defaultRule := some ⟨[], head⟩ }⟩

/-- `setNumUsedRules` of the model builder, model_builder_intermediate.cpp:41-43. -/
def State.setNumUsedRules (st : State Cond K R S) (n : Nat) : State Cond K R S :=
  { st with builder := { st.builder with numUsedRules := n } }

/-- `addRule` of the model builder, model_builder_intermediate.cpp:18-21, after the statistics have been updated. -/
def State.addRule (st : State Cond K R S) (cells : List (Update.Cell R S)) (rule : Rule Cond K) : State Cond K R S :=
  ⟨cells, { st.builder with rules := st.builder.rules ++ [rule] }⟩

/-- Lines 53-55 of `induceRules`. -/
def updateUsed (numUsedRules : Nat) (result : Result) : Nat :=
  if result.numUsedRules ≠ 0 then result.numUsedRules else numUsedRules

/-- The loop of `SequentialRuleModelAssemblage::induceRules` and the call that follows it,
rule_model_assemblage_sequential.cpp:49-74. -/
def Setup.assemble [Field K] [LinearOrder K] (t : Setup σ Cond K Q R S) (growFuel : Nat) : (fuel : Nat) →
    List (Criterion (CriterionState K) (List (Update.Cell R S))) → (numRules numUsedRules : Nat) → State Cond K R S → Run (State Cond K R S)
  | 0, _, _, _, _ => Run.unfinished
  | fuel + 1, criteria, numRules, numUsedRules, st => do
    let (result, criteria) ← Run.lift (listTest criteria st.cells numRules)
    match result.stop with
    | true => Run.done (st.setNumUsedRules (updateUsed numUsedRules result))
    | false => do
      match ← t.learner.induceRule (t.rounds numRules) growFuel st.cells with
      | none => Run.done (st.setNumUsedRules (updateUsed numUsedRules result))
      | some (cells, rule) => t.assemble growFuel fuel criteria (numRules + 1) (updateUsed numUsedRules result) (st.addRule cells rule)

/-- Lines 35-41 of `induceRules`. -/
def Setup.start (t : Setup σ Cond K Q R S) (cells : List (Update.Cell R S)) : Res (State Cond K R S) :=
  match t.useDefaultRule with
  | true => t.induceDefaultRule ⟨cells, ⟨none, [], 0⟩⟩
  | false => .ok ⟨cells, ⟨none, [], 0⟩⟩

/-- `SequentialRuleModelAssemblage::induceRules`, rule_model_assemblage_sequential.cpp:32-75, for a new model builder. -/
def Setup.induceRules [Field K] [LinearOrder K] (t : Setup σ Cond K Q R S) (fuel : Nat) (cells : List (Update.Cell R S)) :
    Run (State Cond K R S) := do
  let st ← Run.lift (t.start cells)
  t.assemble fuel fuel (t.stopping.create t.environment) (if t.useDefaultRule then 1 else 0) 0 st

/-- The loop of `SequentialRuleModelAssemblage::induceRules` and the call that follows it, rule_model_assemblage_sequential.cpp:49-74, where `induce` is
the function `induceRule` of an implementation of `IRuleInduction`, given the number of rules so far. -/
def assembleWith [Field K] [LinearOrder K] (induce : Nat → List (Update.Cell R S) → Run (Option (List (Update.Cell R S) × Rule Cond K))) : (fuel : Nat) →
    List (Criterion (CriterionState K) (List (Update.Cell R S))) → (numRules numUsedRules : Nat) → State Cond K R S → Run (State Cond K R S)
  | 0, _, _, _, _ => Run.unfinished
  | fuel + 1, criteria, numRules, numUsedRules, st => do
    let (result, criteria) ← Run.lift (listTest criteria st.cells numRules)
    match result.stop with
    | true => Run.done (st.setNumUsedRules (updateUsed numUsedRules result))
    | false => do
      match ← induce numRules st.cells with
      | none => Run.done (st.setNumUsedRules (updateUsed numUsedRules result))
      | some (cells, rule) => assembleWith induce fuel criteria (numRules + 1) (updateUsed numUsedRules result) (st.addRule cells rule)

/-- `SequentialRuleModelAssemblage::induceRules`, rule_model_assemblage_sequential.cpp:32-75, for a new model builder and an arbitrary implementation of
`IRuleInduction`. -/
def Setup.induceRulesWith [Field K] [LinearOrder K] (t : Setup σ Cond K Q R S)
    (induce : Nat → List (Update.Cell R S) → Run (Option (List (Update.Cell R S) × Rule Cond K))) (fuel : Nat) (cells : List (Update.Cell R S)) :
    Run (State Cond K R S) := do
  let st ← Run.lift (t.start cells)
  assembleWith induce fuel (t.stopping.create t.environment) (if t.useDefaultRule then 1 else 0) 0 st

/-! ### Post-optimisation and the result of training -/

/-- The configuration of the phases of post-optimisation: whether unused rules are removed and, if sequential post-optimisation is used,
the number of iterations, the order in which threads revert predictions and what differs between calls to `induceRule`. -/
structure PostConfig (σ Cond K Q R S : Type) where
  removeUnusedRules : Bool
  sequential : Option (Nat × (Nat → Update.Call K → List (Nat × (Update.Cell R S → Res (Update.Cell R S)))) × (Nat → Round σ Cond K Q R S))

/-- The phase that removes unused rules, post_optimization_unused_rule_removal.cpp:19-30. -/
def removePhase (remove : Bool) (fuel : Nat) (st : State Cond K R S) : Run (State Cond K R S) :=
  match remove with
  | false => Run.done st
  | true => match st.builder.removeUnusedRules fuel with
    | none => Run.unfinished
    | some (.error e) => Run.lift (.error e)
    | some (.ok b) => Run.done { st with builder := b }

/-- The phase of sequential post-optimisation, post_optimization_sequential.cpp:75-125. -/
def sequentialPhase (l : Learner σ Cond K Q R S) (cfg : PostConfig σ Cond K Q R S) (fuel : Nat) (st : State Cond K R S) :
    Run (State Cond K R S) :=
  match cfg.sequential with
  | none => Run.done st
  | some (numIterations, schedule, rounds) => do
    let st' ← l.optimizeModel fuel schedule rounds numIterations ⟨st.cells, st.builder.rules⟩
    Run.done ⟨st'.cells, { st.builder with rules := st'.rules }⟩

/-- `createPostOptimizationPhaseFactories`, learner_common.hpp:357-372, and `optimizeModel`, post_optimization_phase_list.cpp:39-46: unused
rules are removed before sequential post-optimisation. -/
def optimize (l : Learner σ Cond K Q R S) (cfg : PostConfig σ Cond K Q R S) (fuel : Nat) (st : State Cond K R S) : Run (State Cond K R S) := do
  let st ← removePhase cfg.removeUnusedRules fuel st
  sequentialPhase l cfg fuel st

/-- What training results in: a rule list and the scores of the training examples, from which probability calibration models are fitted
(learner_classification_common.hpp:102-118). -/
structure Fitted (Cond K R S : Type) where
  model : RuleList (Rule Cond K)
  cells : List (Update.Cell R S)

/-- `fit`, learner_classification_common.hpp:31-123 and learner_regression_common.hpp, for boosting algorithms, i.e., the default rule comes
first. `cells` are the initial statistics. If no phases are configured, the model is built without an intermediate builder
(post_optimization_phase_list.cpp:86-87), which makes no difference. -/
def Setup.fit [Field K] [LinearOrder K] (t : Setup σ Cond K Q R S) (post : PostConfig σ Cond K Q R S) (fuel : Nat)
    (cells : List (Update.Cell R S)) : Run (Fitted Cond K R S) := do
  let st ← t.induceRules fuel cells
  let st ← optimize t.learner post fuel st
  Run.done ⟨st.builder.buildModel true, st.cells⟩

end MLRL.Training
