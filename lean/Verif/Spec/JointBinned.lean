import Verif.Model.JointBinned
import Verif.Spec.JointEval
import Verif.Spec.LabelBinning

/-!
# Specification of rule evaluations for non-decomposable loss functions that assign labels to bins
-/

namespace MLRL.JointBinned

/-- The Hessian matrix without the entries that belong to different labels in the same bin. -/
def withoutPairs (H : Nat → Nat → Rat) (bin : Nat → Nat) (i j : Nat) : Rat := if i ≠ j ∧ bin i = bin j then 0 else H i j

/-- The members of a rule evaluation have the sizes they are created with, and the score for labels without bin is zero, lines 249-259. -/
structure Arrays.Valid (a : Arrays) (numLabels maxBins : Nat) : Prop where
  gradients : a.gradients.length = maxBins
  hessians : a.hessians.length = Statistics.triangularNumber maxBins
  binIndices : a.binIndices.length = maxBins
  numElementsPerBin : a.numElementsPerBin.length = maxBins
  labelBins : a.labelBins.length = numLabels
  binValues : a.binValues.length = maxBins + 1
  zero : a.binValues[maxBins]? = some 0
  coefficients : a.coefficients.length = maxBins * maxBins
  product : a.product.length = maxBins

/-- The routine `dsysv` overwrites the first `n` elements of the array of ordinates only. -/
def DsysvFrame (dsysv : List Rat → List Rat → Nat → Res (List Rat)) : Prop := ∀ a b n x, dsysv a b n = .ok x → ∀ i, n ≤ i → x[i]? = b[i]?

/-- The criteria that determine the bins of labels: the score of each label if only the diagonal of the Hessian matrix is taken into account. -/
def criteria (g h : List Rat) (l1 l2 : Rat) : List Rat :=
  (List.range g.length).map (fun i => RuleEval.Stat.score ⟨JointEval.vec g i, JointEval.matrix h i i⟩ l1 l2)

/-- The derivative of the L1 penalty, with the sign of the gradient, for a gradient that exceeds the weight. -/
def shrinkage (gradient l1 : Rat) : Rat := if gradient < -l1 then -l1 else if l1 < gradient then l1 else 0

end MLRL.JointBinned
