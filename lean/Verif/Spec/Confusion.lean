import Verif.Model.Confusion
import Verif.Spec.StatisticVector
import Mathlib.Algebra.BigOperators.Group.List.Basic

/-! # Specification of confusion matrices -/

namespace MLRL.Seco

open Statistics

variable {K : Type}

/-- Confusion matrices of labels. -/
abbrev ConfusionMatrices (K : Type) := Nat → Confusion K

/-- The confusion matrix of a single example of weight 1: a label counts as predicted negatively, if it is relevant to the majority. -/
def unitConfusion [Zero K] [One K] (trueLabel majorityLabel : Bool) : Confusion K :=
  (if !trueLabel && majorityLabel then 1 else 0, if !trueLabel && !majorityLabel then 1 else 0,
    if trueLabel && majorityLabel then 1 else 0, if trueLabel && !majorityLabel then 1 else 0)

/-- Whether a label is relevant. -/
def LabelRow.isRelevant : LabelRow → Nat → Bool
  | .dense array offset, j => decide (array[offset + j]? = some true)
  | .csr indices, j => decide (j ∈ indices)

/-- Whether a label of an example has not been covered. -/
def Row.isUncovered (r : Row) (j : Nat) : Bool := decide (r.coverage[r.offset + j]? = some 0)

/-- The confusion matrices of a single example: uncovered labels count. -/
def Row.value [Zero K] [One K] (majority : List Nat) (n : Nat) (r : Row) : ConfusionMatrices K := fun j =>
  if j < n ∧ r.isUncovered j = true then unitConfusion (r.labels.isRelevant j) (decide (j ∈ majority)) else 0

/-- Labels and coverages are available for `n` labels. -/
structure Row.Valid (n : Nat) (r : Row) : Prop where
  coverage : r.offset + n ≤ r.coverage.length
  dense : ∀ array offset, r.labels = .dense array offset → offset + n ≤ array.length
  csr : ∀ indices, r.labels = .csr indices → indices.Pairwise (· < ·)

/-- The confusion matrices of the labels with the given indices. -/
def selectConfusion [Zero K] (idx : IndexVec) (m : ConfusionMatrices K) : ConfusionMatrices K :=
  fun i => if i < idx.size then m (idx.index i) else 0

/-- Indices are valid and in increasing order. -/
def IndicesOk (n : Nat) (idx : IndexVec) : Prop := idx.Valid n ∧ idx.Sorted

/-- Sum of the elements of a confusion matrix. -/
def Confusion.total [Add K] (c : Confusion K) : K :=
  c.irrelevantNegative + c.irrelevantPositive + c.relevantNegative + c.relevantPositive

/-- The weight of an example. -/
def weightAt [Zero K] [One K] (weights : Weights K) (e : Nat) : K :=
  match weights with
  | .equal _ => 1
  | .vector l => element l e

end MLRL.Seco
