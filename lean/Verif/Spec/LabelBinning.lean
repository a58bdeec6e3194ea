import Verif.Spec.RuleEval
import Mathlib.Algebra.BigOperators.Group.Finset.Basic
import Mathlib.Data.Rat.Floor
import Mathlib.Algebra.Order.Ring.Rat

/-!
# Specification of label binning
-/

namespace MLRL.LabelBinning

open RuleEval

/-- Neither the negative nor the positive criteria are all equal, i.e., the bins for them have a positive width. -/
def Spread (criteria : List Rat) : Prop :=
  (∀ c ∈ criteria, c < 0 → ∃ c' ∈ criteria, c' < 0 ∧ c' ≠ c) ∧ (∀ c ∈ criteria, c > 0 → ∃ c' ∈ criteria, c' > 0 ∧ c' ≠ c)

/-- The bin with index `b` if the range from `m` to `M` is divided into `n` bins of equal width contains the value `c`. -/
def InBin (m M : Rat) (n b : Nat) (c : Rat) : Prop := b < n ∧ m + b * ((M - m) / n) ≤ c ∧ c ≤ m + (b + 1) * ((M - m) / n)

/-- The score of an output according to the indices and values of bins (`operator[]`, iterator_binned.hpp:67-81). -/
def prediction (binIndices : List Nat) (binValues : List Rat) (i : Nat) : Option Rat := do
  let b ← binIndices[i]?
  binValues[b]?

/-- The gradient and Hessian of an output. -/
def statAt (stats : List (Stat Rat)) (i : Nat) : Stat Rat := stats[i]?.getD ⟨0, 0⟩

/-- The value of the regularised quadratic approximation of the loss for a score per output. -/
def totalObjective (stats : List (Stat Rat)) (l1 l2 : Rat) (p : Nat → Rat) : Rat :=
  ∑ i ∈ Finset.range stats.length, objective (statAt stats i).gradient (statAt stats i).hessian l1 l2 (p i)

end MLRL.LabelBinning
