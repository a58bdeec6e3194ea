import Verif.Spec.SampledBoosting
import Verif.Model.Induction

/-!
# Specification of the evaluation of rules on a prune set
-/

namespace MLRL.TrainingLoss

open RuleEval Predictor

variable {K T : Type} [Field K] [LinearOrder K]

/-- The prune set consists of the training examples with zero weight. -/
def Data.pruneSet (data : Data K T) (examples : List Nat) (weights : Nat → K) : Data K T :=
  data.weighted (fun e => if e ∈ examples ∧ weights e = 0 then 1 else 0)

/-- `q` is the smallest objective that can be reached by predicting for the given outputs. -/
def SmallestObjective (data : Data K T) (update : T → K → Stat K) (scores : Nat → Nat → K) (covered : Nat → Bool) (l2 : K) (outputs : List Nat)
    (q : K) : Prop :=
  IsLeast {x | ∃ v : Nat → K, (∀ j, j ∉ outputs → v j = 0) ∧ x = data.objective update scores covered l2 v} q

/-- Among the non-empty prefixes of the conditions, the first `k` conditions have the smallest quality, and all shorter prefixes are worse. -/
structure BestPrefix (quality : Nat → K) (length k : Nat) : Prop where
  pos : 1 ≤ k
  le : k ≤ length
  best : ∀ j, 1 ≤ j → j ≤ length → quality k ≤ quality j
  shortest : ∀ j, 1 ≤ j → j < k → quality k < quality j

/-- The stored scores have been updated according to the rule `applied`, although `rule` has been added to the model: both predict the same scores, but
they may have different conditions if the rule that has originally been found had several ones. -/
structure AppliedAs {Cond : Type} (applied rule : Induction.Rule Cond K) : Prop where
  head : applied.head = rule.head
  conditions : applied.conditions = rule.conditions ∨
    ∃ found, 1 < found.length ∧ rule.conditions <+: found ∧ rule.conditions ≠ [] ∧ applied.conditions = found.dropLast

end MLRL.TrainingLoss
