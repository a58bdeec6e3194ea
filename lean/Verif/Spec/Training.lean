import Verif.Spec.Induction
import Verif.Model.Training
import Mathlib.Algebra.Field.Basic

/-! # Specification of training -/

namespace MLRL.Training

open Predictor Induction

variable {Cond K : Type}

/-- The scores a sequence of rules predicts for an example: for each output, the sum of what the rules that cover it contribute. -/
def predictedScores [AddCommMonoid K] (holds : Cond → Nat → Bool) (numOutputs : Nat) (rules : List (Rule Cond K)) (i : Nat) : List K :=
  (List.range numOutputs).map (fun j => (rules.map (fun rule => rule.contribution holds i j)).sum)

/-- The average loss of a sequence of rules for some examples. -/
def averageLoss [Field K] (loss : Nat → List K → K) (holds : Cond → Nat → Bool) (numOutputs : Nat) (examples : List Nat)
    (rules : List (Rule Cond K)) : K :=
  (examples.map (fun i => loss i (predictedScores holds numOutputs rules i))).sum / (examples.length : K)

/-- `k` is the smallest one among the candidates for which the loss is minimal. -/
def IsBest [LinearOrder K] (candidate : Nat → Prop) (lossOf : Nat → K) (k : Nat) : Prop :=
  candidate k ∧ ∀ m, candidate m → lossOf k ≤ lossOf m ∧ (m < k → lossOf k < lossOf m)

end MLRL.Training
