import Verif.Spec.TrainingLoss

/-!
# Specification of the recalculation of predictions
-/

namespace MLRL.TrainingLoss

open RuleEval Predictor

variable {K T : Type} [Field K] [LinearOrder K]

/-- The training data with other weights. -/
def Data.weighted (data : Data K T) (weight : Nat → K) : Data K T := { data with weight := weight }

/-- The training data, where only the given examples count. -/
def Data.training (data : Data K T) (examples : List Nat) : Data K T := data.weighted (fun e => if e ∈ examples then 1 else 0)

/-- The outputs a head predicts for. -/
def outputsOf : Head K → List Nat
  | .complete values => List.range values.length
  | .partial_ entries => entries.map Prod.fst

/-- The sum of an objective with L2 regularisation over all outputs if the scores `v` are predicted for all covered examples. -/
def Data.objective (data : Data K T) (update : T → K → Stat K) (scores : Nat → Nat → K) (covered : Nat → Bool) (l2 : K) (v : Nat → K) : K :=
  data.estimate update scores covered v + ∑ j ∈ Finset.range data.numOutputs, l2 * (v j * v j) / 2

/-- A head `head'` predicts for the same outputs as `head`, the scores being those that correspond to the gradients and Hessians of the covered
examples. -/
structure Refits (data : Data K T) (update : T → K → Stat K) (scores : Nat → Nat → K) (covered : Nat → Bool) (l1 l2 : K)
    (head head' : Head K) : Prop where
  outputs : outputsOf head' = outputsOf head
  isComplete : (∃ values, head' = .complete values) ↔ ∃ values, head = .complete values
  scores : ∀ j ∈ outputsOf head, Spec.contribution j head' =
    outputScore (data.gradient update scores covered j) (data.hessian update scores covered j) l1 l2

end MLRL.TrainingLoss
