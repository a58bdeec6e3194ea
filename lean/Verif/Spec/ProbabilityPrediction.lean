import Verif.Model.ProbabilityPrediction
import Verif.Spec.Predictor
import Verif.Spec.Body
import Verif.Spec.Isotonic
import Verif.Spec.Loss

/-!
# Specification of the prediction of probabilities
-/

namespace MLRL.Probability

open Predictor

variable {K : Type}

/-- The feature values of an example, including those that are not stored. -/
def Features.row : Features → Nat → List FVal
  | .dense rows, e => (rows[e]?).getD []
  | .csr numFeatures sparseValue rows, e => Body.Spec.toDense numFeatures ((rows[e]?).getD []) sparseValue

/-- The indices in each row of a CSR matrix are distinct and less than the number of features. -/
def Features.Ok : Features → Prop
  | .dense _ => True
  | .csr numFeatures _ rows => ∀ row ∈ rows, (row.map Prod.fst).Nodup ∧ ∀ p ∈ row, p.1 < numFeatures

/-- The score of an example for output `j`: the sum of what the rules that cover the example contribute. -/
def score [AddCommMonoid K] (rules : List (Rule K)) (covered : Rule K → Bool) (j : Nat) : K :=
  ((rules.filter covered).map (fun r => Spec.contribution j r.head)).sum

/-- The scores of an example are transformed into the probabilities `t scores`. If the scores are stored separately, they are not changed. -/
structure Transforms (n : Nat) (transformation : Rows K → Res (Rows K)) (t : (Nat → K) → Nat → K) : Prop where
  inPlace : ∀ s, transformation ⟨Loss.row n s, none⟩ = .ok ⟨Loss.row n (t s), none⟩
  separately : ∀ s l, l.length = n → transformation ⟨Loss.row n s, some l⟩ = .ok ⟨Loss.row n s, some (Loss.row n (t s))⟩

/-- A calibration model that is not used, or that has been fitted for `n` labels or label vectors. -/
def CalibrationModel.Ok [Field K] [LinearOrder K] (n : Nat) : CalibrationModel K → Prop
  | .no => True
  | .isotonic binLists => n ≤ binLists.length ∧ ∀ bins ∈ binLists, Isotonic.Fitted bins

/-- There are no thresholds that are zero. -/
def CalibrationModel.Positive [Field K] [LinearOrder K] : CalibrationModel K → Prop
  | .no => True
  | .isotonic binLists => ∀ bins ∈ binLists, ∀ b ∈ bins, 0 < b.1

end MLRL.Probability
