import Verif.Model.RuleEval
import Mathlib.Data.List.Perm.Basic

/-!
# Specification of rule evaluations for decomposable loss functions
-/

namespace MLRL.RuleEval

variable {K : Type} [Field K] [LinearOrder K]

/-- The quadratic approximation of the loss of predicting `x` for an output, plus the L1 and L2 penalties. -/
def objective (g h l1 l2 x : K) : K := (g * x + h * x ^ 2 / 2) + (l1 * |x| + l2 * x ^ 2 / 2)

/-- The minimiser of the objective for `h + l2 > 0`: the gradient is moved towards zero by `l1`. -/
def softThreshold (g h l1 l2 : K) : K :=
  if l1 < g then -(g - l1) / (h + l2) else if g < -l1 then -(g + l1) / (h + l2) else 0

/-- The result of partially sorting indexed scores by decreasing absolute values: a permutation whose first `k` elements are sorted and
whose remaining ones are not larger. -/
structure PartiallySorted (k : Nat) (before after : List (Nat × K)) : Prop where
  perm : after.Perm before
  sorted : (after.take k).Pairwise (fun a b => |b.2| ≤ |a.2|)
  rest : ∀ a ∈ after.take k, ∀ b ∈ after.drop k, |b.2| ≤ |a.2|

end MLRL.RuleEval
