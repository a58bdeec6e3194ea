import Verif.Model.Refinement
import Verif.Model.Update

/-!
# Model of the induction of rules, of IREP pruning and of sequential post-optimisation

Sources, in `/repo/cpp/subprojects/common/src/mlrl/common`: `rule_induction/rule_induction_top_down_greedy.cpp`,
`rule_induction/rule_induction_common.hpp`, `rule_pruning/rule_pruning_irep.cpp`, `post_optimization/post_optimization_sequential.cpp`.

Feature subspaces are abstract here: they provide the examples that are covered, can be reset and filtered by a condition (see
`Verif/Model/FeatureSpace.lean` for a model of their implementation).
-/

namespace MLRL.Induction

open Refinement Predictor

/-- What a `Refinement` consists of: a condition, the number of covered examples and the head. -/
structure Found (Cond H : Type) where
  condition : Cond
  numCovered : Nat
  head : H
  deriving DecidableEq

/-- The operations of feature subspaces. Subspaces are copied by the beam search only; unless stated otherwise, a copy is the same. -/
structure SubspaceOps (σ Cond : Type) where
  create : σ
  covers : σ → Nat → Bool
  reset : σ → σ
  filter : σ → Cond → Res σ
  copy : σ → σ := fun s => s

/-- The parameters of `GreedyTopDownRuleInduction`. -/
structure GrowConfig where
  minCoverage : Nat
  maxConditions : Nat
  maxHeadRefinements : Nat

/-- The search for refinements: the candidates that are considered for each sampled feature, given the number of conditions so far (for
each number of conditions, features are sampled once), the subspace and the head whose outputs the search is restricted to (`none` if it
is not restricted), as well as the order in which the threads consider them. -/
structure Search (σ Cond H Q : Type) where
  candidates : Nat → σ → Option H → Res (List (List (Scored (Found Cond H) Q)))
  schedule : Nat → List (List (Scored (Found Cond H) Q)) → List (Nat × Scored (Found Cond H) Q)

/-- The local variables of `growRule`. -/
structure GrowState (σ Cond H Q : Type) where
  conditions : List Cond
  subspace : σ
  outputs : Option H
  comparator : Single (Found Cond H) Q

section
variable {σ Cond H Q : Type} (ops : SubspaceOps σ Cond) (better : Q → Q → Bool) (sortHead : H → H)

/-- Lines 84-98 of `growRule`: the best refinement is added to the rule. Returns the new state and the number of examples that are covered
by the refinement. -/
def GrowState.addBest (cfg : GrowConfig) (st : GrowState σ Cond H Q) (comparator : Single (Found Cond H) Q) :
    Res (GrowState σ Cond H Q × Nat) := do
  let best ← useInit comparator.best
  let head := sortHead best.refinement.head
  let subspace ← ops.filter st.subspace best.refinement.condition
  let conditions := st.conditions ++ [best.refinement.condition]
  let outputs := if 0 < cfg.maxHeadRefinements ∧ cfg.maxHeadRefinements ≤ conditions.length then some head else st.outputs
  return (⟨conditions, subspace, outputs, { comparator with best := some { best with refinement := { best.refinement with head := head } } }⟩,
    best.refinement.numCovered)

/-- The loop of `growRule`, rule_induction_top_down_greedy.cpp:74-105. -/
def growLoop (cfg : GrowConfig) (search : Search σ Cond H Q) : (fuel : Nat) → GrowState σ Cond H Q → Run (GrowState σ Cond H Q)
  | 0, _ => Run.unfinished
  | fuel + 1, st =>
    if cfg.maxConditions = 0 ∨ st.conditions.length < cfg.maxConditions then do
      let candidates ← Run.lift (search.candidates st.conditions.length st.subspace st.outputs)
      let (comparator, found) ← Run.lift (findRefinement (singleOps better) candidates.length
        (search.schedule st.conditions.length candidates) st.comparator)
      if found then do
        let (st, numCovered) ← Run.lift (st.addBest ops sortHead cfg comparator)
        if numCovered ≤ cfg.minCoverage then Run.done st else growLoop cfg search fuel st
      else
        Run.done { st with comparator := comparator }
    else
      Run.done st

/-- The result of `growRule`. -/
structure Grown (σ Cond H : Type) where
  conditions : List Cond
  subspace : σ
  head : Option H
  deriving DecidableEq

/-- `growRule`, rule_induction_top_down_greedy.cpp:55-110. -/
def growRule (cfg : GrowConfig) (search : Search σ Cond H Q) (minQuality : Q) (fuel : Nat) : Run (Grown σ Cond H) := do
  let st ← growLoop ops better sortHead cfg search fuel ⟨[], ops.create, none, Single.new minQuality⟩
  return ⟨st.conditions, st.subspace, st.comparator.best.map (fun x => x.refinement.head)⟩

/-! ### Pruning -/

/-- The local variables of `prune`. -/
structure PruneState (σ Q : Type) where
  subspace : σ
  quality : Q
  mask : Nat → Bool
  numPruned : Nat

/-- The body of the loop in `prune`, rule_pruning_irep.cpp:43-62. `eval` is `evaluateOutOfSample` for the head of the rule, which depends
on the covered examples only. -/
def pruneStep (eval : (Nat → Bool) → Res Q) (conditions : List Cond) (n : Nat) (st : PruneState σ Q) : Res (PruneState σ Q) := do
  let condition ← readAt conditions (n - 1)
  let subspace ← ops.filter st.subspace condition
  let quality ← eval (ops.covers subspace)
  if better quality st.quality || (decide (st.numPruned = 0) && !better st.quality quality) then
    return ⟨subspace, quality, ops.covers subspace, conditions.length - n⟩
  else
    return { st with subspace := subspace }

/-- The result of `prune`: the remaining conditions, the mask it returns (if any) and the subspace. -/
structure Pruned (σ Cond : Type) where
  conditions : List Cond
  mask : Option (Nat → Bool)
  subspace : σ

/-- `prune`, rule_pruning_irep.cpp:20-72. -/
def prune (eval : (Nat → Bool) → Res Q) (conditions : List Cond) (subspace : σ) : Res (Pruned σ Cond) :=
  if 1 < conditions.length then do
    let quality ← eval (ops.covers subspace)
    let st ← loopFrom (pruneStep ops better eval conditions) 1 (conditions.length - 1)
      ⟨ops.reset subspace, quality, ops.covers subspace, 0⟩
    return ⟨conditions.take (conditions.length - st.numPruned), some st.mask, st.subspace⟩
  else
    return ⟨conditions, none, subspace⟩

end

/-! ### Inducing rules -/

section
variable {σ Cond K Q R S : Type}

/-- Everything that `induceRule` depends on. `pruning` is `none` if rules are not pruned (`NoRulePruning`) and otherwise provides
`evaluateOutOfSample` for the given statistics and head; `recalculate` is `none` if `recalculatePredictions_` is false. -/
structure Learner (σ Cond K Q R S : Type) where
  subspaces : SubspaceOps σ Cond
  updates : Update.Ops K R S
  better : Q → Q → Bool
  minQuality : Q
  sortHead : Head K → Head K
  config : GrowConfig
  pruning : Option (List (Update.Cell R S) → Head K → (Nat → Bool) → Res Q)
  recalculate : Option (List (Update.Cell R S) → (Nat → Bool) → Head K → Res (Head K))
  postProcess : Head K → Head K

/-- What differs between calls to `induceRule`: the search for refinements, given the current statistics, whether some examples have zero
weight, and the order in which the threads update the statistics. -/
structure Round (σ Cond K Q R S : Type) where
  search : List (Update.Cell R S) → Search σ Cond (Head K) Q
  hasZeroWeights : Bool
  applySchedule : Update.Call K → List (Nat × (Update.Cell R S → Res (Update.Cell R S)))

/-- A rule: its conditions and its head. -/
structure Rule (Cond K : Type) where
  conditions : List Cond
  head : Head K

/-- Lines 113-120 of `induceRule`: pruning. -/
def Learner.pruneRule (l : Learner σ Cond K Q R S) (round : Round σ Cond K Q R S) (cells : List (Update.Cell R S)) (conditions : List Cond)
    (head : Head K) (subspace : σ) : Res (Pruned σ Cond) :=
  match round.hasZeroWeights, l.pruning with
  | true, some eval => prune l.subspaces l.better (eval cells head) conditions subspace
  | _, _ => .ok ⟨conditions, none, subspace⟩

/-- Lines 121-126 of `induceRule`: the prediction is recalculated for the examples that are covered according to the mask returned by
the pruning or, if there is none, according to the subspace. -/
def Learner.recalculateHead (l : Learner σ Cond K Q R S) (round : Round σ Cond K Q R S) (cells : List (Update.Cell R S))
    (pruned : Pruned σ Cond) (head : Head K) : Res (Head K) :=
  match round.hasZeroWeights, l.recalculate with
  | true, some f => f cells (pruned.mask.getD (l.subspaces.covers pruned.subspace)) head
  | _, _ => .ok head

/-- Lines 113-136 of `induceRule`. Returns the updated statistics and the rule that is added to the model. -/
def Learner.finishRule (l : Learner σ Cond K Q R S) (round : Round σ Cond K Q R S) (cells : List (Update.Cell R S))
    (conditions : List Cond) (subspace : σ) (head : Head K) : Res (List (Update.Cell R S) × Rule Cond K) := do
  let pruned ← l.pruneRule round cells conditions head subspace
  let head ← l.recalculateHead round cells pruned head
  let head := l.postProcess head
  let cells ← Update.exec (round.applySchedule ⟨l.subspaces.covers pruned.subspace, head, false⟩) cells
  return (cells, ⟨pruned.conditions, head⟩)

/-- `induceRule`, rule_induction_common.hpp:103-143. Returns `none` if no rule has been found. -/
def Learner.induceRule (l : Learner σ Cond K Q R S) (round : Round σ Cond K Q R S) (fuel : Nat) (cells : List (Update.Cell R S)) :
    Run (Option (List (Update.Cell R S) × Rule Cond K)) := do
  let grown ← growRule l.subspaces l.better l.sortHead l.config (round.search cells) l.minQuality fuel
  match grown.head with
  | none => Run.done none
  | some head => do
    let r ← Run.lift (l.finishRule round cells grown.conditions grown.subspace head)
    Run.done (some r)

/-- The statistics and the rules that have been added to the model. -/
structure State (Cond K R S : Type) where
  cells : List (Update.Cell R S)
  rules : List (Rule Cond K)

/-- The loop in which rules are induced, rule_model_assemblage_sequential.cpp:49-71: it stops if no rule is found or if the stopping
criteria say so, i.e., after an arbitrary number of rounds. -/
def Learner.train (l : Learner σ Cond K Q R S) (fuel : Nat) : List (Round σ Cond K Q R S) → State Cond K R S → Run (State Cond K R S)
  | [], st => Run.done st
  | round :: rounds, st => do
    match ← l.induceRule round fuel st.cells with
    | none => Run.done st
    | some (cells, rule) => train l fuel rounds ⟨cells, st.rules ++ [rule]⟩

/-! ### Post-optimisation -/

/-- Lines 85-94 of `optimizeModel`: the prediction of the rule is reverted for the examples it covers. -/
def Learner.revertRule (l : Learner σ Cond K Q R S) (schedule : Update.Call K → List (Nat × (Update.Cell R S → Res (Update.Cell R S))))
    (rule : Rule Cond K) (cells : List (Update.Cell R S)) : Res (List (Update.Cell R S)) := do
  let subspace ← rule.conditions.foldlM l.subspaces.filter l.subspaces.create
  Update.exec (schedule ⟨l.subspaces.covers subspace, rule.head, true⟩) cells

/-- Lines 79-122 of `optimizeModel`: a rule is reverted and relearned. If no replacement is found, the rule is not changed. -/
def Learner.optimizeRule (l : Learner σ Cond K Q R S) (fuel : Nat)
    (schedule : Update.Call K → List (Nat × (Update.Cell R S → Res (Update.Cell R S))))
    (round : Round σ Cond K Q R S) (i : Nat) (st : State Cond K R S) : Run (State Cond K R S) := do
  let rule ← Run.lift (readAt st.rules i)
  let cells ← Run.lift (l.revertRule schedule rule st.cells)
  match ← l.induceRule round fuel cells with
  | none => Run.done { st with cells := cells }
  | some (cells, rule) => Run.done ⟨cells, st.rules.set i rule⟩

/-- `optimizeModel`, post_optimization_sequential.cpp:75-125: `numIterations` passes over all rules. Which features and outputs are
available to the induction is part of `rounds`. -/
def Learner.optimizeModel (l : Learner σ Cond K Q R S) (fuel : Nat)
    (schedule : Nat → Update.Call K → List (Nat × (Update.Cell R S → Res (Update.Cell R S))))
    (rounds : Nat → Round σ Cond K Q R S) (numIterations : Nat) (st : State Cond K R S) : Run (State Cond K R S) :=
  ((List.range numIterations).flatMap (fun _ => List.range st.rules.length)).zipIdx.foldlM
    (fun st p => l.optimizeRule fuel (schedule p.2) (rounds p.2) p.1 st) st

end

end MLRL.Induction
