import Verif.Model.SparseData
import Verif.Spec.TabularData

/-!
# Specification of training on a sparse feature matrix and of predictions for the rows of a sparse feature matrix

The specification refers to the elements of a matrix, `matrix f e` is the value of feature `f` of example `e`.
-/

namespace MLRL.SparseData

open FeatureType TabularData

/-- The arrays of a sparse view are valid and its elements are given by a function: an element that is stored at a position that belongs to its column
(or row) has the value at this position, all other elements have the sparse value. -/
structure Denotes (v : SparseView) (element : Nat → Nat → FVal) : Prop where
  indptr : v.indptr.length = v.numMajor + 1
  lengths : v.values.length = v.indices.length
  ordered : ∀ (i a b : Nat), v.indptr[i]? = some a → v.indptr[i + 1]? = some b → a ≤ b ∧ b ≤ v.indices.length
  minor : ∀ j ∈ v.indices, j < v.numMinor
  distinct : ∀ (i a b : Nat), v.indptr[i]? = some a → v.indptr[i + 1]? = some b →
    ∀ p q, a ≤ p → p < q → q < b → v.indices[p]? ≠ v.indices[q]?
  stored : ∀ (i a b : Nat), v.indptr[i]? = some a → v.indptr[i + 1]? = some b →
    ∀ p j, a ≤ p → p < b → v.indices[p]? = some j → v.values[p]? = some (element i j)
  other : ∀ (i a b : Nat), v.indptr[i]? = some a → v.indptr[i + 1]? = some b →
    ∀ j < v.numMinor, (∀ p, a ≤ p → p < b → v.indices[p]? ≠ some j) → element i j = some v.sparseValue

/-- The number of elements that are stored for a column (or row). -/
def SparseView.count (v : SparseView) (i : Nat) : Option Nat := do
  let a ← v.indptr[i]?
  let b ← v.indptr[i + 1]?
  return b - a

/-- The elements of a matrix, by columns. -/
def columns (numFeatures numExamples : Nat) (matrix : Nat → Nat → FVal) : List (List FVal) :=
  (List.range numFeatures).map (fun f => (List.range numExamples).map (matrix f))

/-- A sparse matrix for which the code is correct: no values are missing; the values of numerical features are stored for all examples, in which
case they are all less than the sparse value or all greater or equal, or for none (see `sparse_training_fails`); the values of other features can be
converted into integers and those that are stored differ from the sparse value unless there is no example with the sparse value
(see `nominalCsc_uninitialised`); and no example has zero weight if a feature is ordinal (see `ordinal_first_unsound`). -/
structure SparseOk (kind : Nat → Kind) (nonZero : Nat → Bool) (csc : SparseView) (matrix : Nat → Nat → FVal) : Prop where
  denotes : Denotes csc matrix
  size : csc.numMinor < 2 ^ 32
  present : ∀ f < csc.numMajor, ∀ e < csc.numMinor, matrix f e ≠ none
  numerical : ∀ f < csc.numMajor, kind f = .numerical → csc.count f = some 0 ∨ csc.count f = some csc.numMinor ∧
    ((∀ e < csc.numMinor, ∀ x, matrix f e = some x → x < csc.sparseValue) ∨ (∀ e < csc.numMinor, ∀ x, matrix f e = some x → csc.sparseValue ≤ x))
  range : ∀ f < csc.numMajor, kind f ≠ .numerical → ∀ e < csc.numMinor, ∀ x, matrix f e = some x → -2 ^ 31 ≤ category x ∧ category x < 2 ^ 31
  sparseRange : ∀ f < csc.numMajor, kind f ≠ .numerical → -2 ^ 31 ≤ category csc.sparseValue ∧ category csc.sparseValue < 2 ^ 31
  distinct : ∀ f < csc.numMajor, kind f ≠ .numerical → csc.count f ≠ some csc.numMinor →
    ∀ (a b : Nat), csc.indptr[f]? = some a → csc.indptr[f + 1]? = some b → ∀ p, a ≤ p → p < b →
      ∀ x, csc.values[p]? = some (some x) → category x ≠ category csc.sparseValue
  ordinal : ∀ f < csc.numMajor, kind f = .ordinal → ∀ e < csc.numMinor, nonZero e = true

end MLRL.SparseData
