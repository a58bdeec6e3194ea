import Verif.Model.Predictor
import Mathlib.Algebra.BigOperators.Group.List.Basic

/-!
# Specification of score predictions
-/

namespace MLRL.Predictor.Spec

variable {K : Type}

/-- What a rule that covers an example adds to the score for output `j`. -/
def contribution [AddCommMonoid K] (j : Nat) : Head K → K
  | .complete values => (values[j]?).getD 0
  | .partial_ entries => ((entries.filter (fun e => decide (e.1 = j))).map Prod.snd).sum

/-- A head only refers to the `n` outputs that exist. -/
def HeadFits (n : Nat) : Head K → Prop
  | .complete values => values.length ≤ n
  | .partial_ entries => ∀ e ∈ entries, e.1 < n

end MLRL.Predictor.Spec
