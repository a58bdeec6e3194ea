import Verif.Spec.Induction
import Verif.Model.RuleEval
import Mathlib.Algebra.BigOperators.Group.Finset.Basic

/-!
# Specification of the training loss

The loss of scores for a weighted set of examples, and what a rule is expected to change according to the gradients and Hessians of the
examples it covers. Nothing here refers to how a rule is found.
-/

namespace MLRL.TrainingLoss

open RuleEval

variable {K T : Type} [Field K] [LinearOrder K]

/-- The loss `evaluate` never exceeds its quadratic approximation, which is given by the gradients and Hessians that are provided by
`update`, up to a factor. -/
structure Majorised (update : T → K → Stat K) (evaluate : T → K → K) (factor : K) : Prop where
  positive : 0 < factor
  hessian : ∀ y s, 0 ≤ (update y s).hessian
  bound : ∀ y s d, evaluate y (s + d) ≤ evaluate y s + factor * (d * (update y s).gradient + 1 / 2 * (d * d) * (update y s).hessian)

/-- The training data: the number of examples and outputs, the weights of the examples and the ground truth. -/
structure Data (K T : Type) where
  numExamples : Nat
  numOutputs : Nat
  weight : Nat → K
  truth : Nat → Nat → T

/-- The weighted sum of the losses of all examples and outputs. -/
def Data.loss (data : Data K T) (evaluate : T → K → K) (scores : Nat → Nat → K) : K :=
  ∑ i ∈ Finset.range data.numExamples, data.weight i * ∑ j ∈ Finset.range data.numOutputs, evaluate (data.truth i j) (scores i j)

/-- The weighted sum of the gradients of the covered examples for an output. -/
def Data.gradient (data : Data K T) (update : T → K → Stat K) (scores : Nat → Nat → K) (covered : Nat → Bool) (j : Nat) : K :=
  ∑ i ∈ Finset.range data.numExamples, if covered i then data.weight i * (update (data.truth i j) (scores i j)).gradient else 0

/-- The weighted sum of the Hessians of the covered examples for an output. -/
def Data.hessian (data : Data K T) (update : T → K → Stat K) (scores : Nat → Nat → K) (covered : Nat → Bool) (j : Nat) : K :=
  ∑ i ∈ Finset.range data.numExamples, if covered i then data.weight i * (update (data.truth i j) (scores i j)).hessian else 0

/-- The change that is expected if the scores `v` are predicted for all covered examples. -/
def Data.estimate (data : Data K T) (update : T → K → Stat K) (scores : Nat → Nat → K) (covered : Nat → Bool) (v : Nat → K) : K :=
  ∑ j ∈ Finset.range data.numOutputs,
    (v j * data.gradient update scores covered j + 1 / 2 * (v j * v j) * data.hessian update scores covered j)

/-- The scores of a model, i.e., the sums of the scores that are predicted by its rules. -/
def modelScores {Cond : Type} (holds : Cond → Nat → Bool) (rules : List (Induction.Rule Cond K)) (i j : Nat) : K :=
  (rules.map (fun rule => rule.contribution holds i j)).sum

section
variable {σ Cond R S : Type}

/-- The scores that are stored by the statistics. -/
def ScoresOf (n : Nat) (value : R → Nat → K) (cells : List (Update.Cell R S)) (scores : Nat → Nat → K) : Prop :=
  ∀ (i : Nat) c, cells[i]? = some c → ∀ j < n, value c.scores j = scores i j

/-- A head that predicts for each output at most once. -/
def Distinct (n : Nat) : Predictor.Head K → Prop
  | .complete values => values.length = n
  | .partial_ entries => (∀ e ∈ entries, e.1 < n) ∧ (entries.map Prod.fst).Nodup

/-- What is required of a search for refinements: heads predict for each output at most once, and the quality of a candidate is not less than the change that is expected if its head is
predicted for all examples that are covered by the refined rule, given the gradients and Hessians of the current scores. -/
def Evaluated (data : Data K T) (update : T → K → Stat K) (holds : Cond → Nat → Bool) (covers : σ → Nat → Bool)
    (sortHead : Predictor.Head K → Predictor.Head K) (Good : List (Update.Cell R S) → Prop) (value : R → Nat → K)
    (search : List (Update.Cell R S) → Induction.Search σ Cond (Predictor.Head K) K) : Prop :=
  ∀ cells scores, Good cells → ScoresOf data.numOutputs value cells scores →
    ∀ k s o candidates, (∀ h, o = some h → Distinct data.numOutputs h) → (search cells).candidates k s o = .ok candidates →
      ∀ x ∈ candidates.flatten, Distinct data.numOutputs (sortHead x.refinement.head) ∧
      data.estimate update scores (fun i => covers s i && holds x.refinement.condition i)
        (fun j => Predictor.Spec.contribution j (sortHead x.refinement.head)) ≤ x.quality

/-- What is required of the recalculation of predictions: if a head predicts for each output at most once and is suited, the recalculated one is expected not
to increase the loss of the examples in the given mask. -/
def Recalculated (data : Data K T) (update : T → K → Stat K) (Good : List (Update.Cell R S) → Prop) (value : R → Nat → K)
    (Suited : Predictor.Head K → Prop) (f : List (Update.Cell R S) → (Nat → Bool) → Predictor.Head K → Res (Predictor.Head K)) : Prop :=
  ∀ cells scores, Good cells → ScoresOf data.numOutputs value cells scores → ∀ mask head head',
    Distinct data.numOutputs head → Suited head → f cells mask head = .ok head' →
    data.estimate update scores mask (fun j => Predictor.Spec.contribution j head') ≤ 0

end

end MLRL.TrainingLoss
