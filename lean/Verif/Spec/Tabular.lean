import Verif.Model.Tabular
import Verif.Spec.Search
import Verif.Spec.Body

/-!
# Specification of the training data of a tabular feature space

The specification refers to the values of features, `value e = none` if the value of example `e` is missing.
-/

namespace MLRL.Tabular

open FeatureSpace Search

/-- The original vector of a feature represents its values and is such that all refinements found by the search are sound, as far as the code is
correct: no values are missing, the values of a numerical feature are all less than the sparse value or all greater or equal (see
`numerical_dense_unsound`) and stored in a dense vector, and no example has zero weight if a feature is ordinal (see `ordinal_first_unsound`). A
feature that is excluded from the search may have any values. -/
inductive ColumnOk (n : Nat) (nonZero : Nat → Bool) (value : Nat → Option Rat) : FeatureVector → Prop where
  | equal : ColumnOk n nonZero value .equal
  | numerical {entries : List (Nat × Rat)} {sv : Rat} (nonempty : entries ≠ []) (sorted : SortedEntries entries)
      (nodup : (entries.map Prod.fst).Nodup) (covered : ∀ e, e ∈ entries.map Prod.fst ↔ e < n)
      (values : ∀ p ∈ entries, value p.1 = some p.2) (sign : (∀ p ∈ entries, p.2 < sv) ∨ (∀ p ∈ entries, sv ≤ p.2)) :
      ColumnOk n nonZero value (.numerical entries sv false [])
  | nominal {kind : NominalKind} {bins : List (Int × List Nat)} {mv : Int} (nonempty : bins ≠ []) (bin : ∀ b ∈ bins, b.2 ≠ [])
      (distinct : (mv :: bins.map Prod.fst).Nodup) (nodup : (bins.flatMap Prod.snd).Nodup)
      (values : ∀ b ∈ bins, ∀ e ∈ b.2, e < n ∧ value e = some (b.1 : Rat))
      (majority : ∀ e < n, e ∉ bins.flatMap Prod.snd → value e = some (mv : Rat))
      (binary : kind = .binary → bins.length = 1)
      (ordinal : kind = .ordinal → bins.Pairwise (fun a b => a.1 < b.1) ∧ ∀ e < n, nonZero e = true) :
      ColumnOk n nonZero value (.nominal kind bins mv [])

/-- The training data: `values f e` is the value of feature `f` of example `e`. -/
structure Env.Ok (env : Env) (n : Nat) (values : Nat → Nat → Option Rat) : Prop where
  numExamples : env.space.numExamples = n
  size : n < 2 ^ 32
  numNonZero : env.space.numNonZero = ((List.range n).filter env.nonZero).length
  isEqual : ∀ x, env.space.isEqual x x = true
  column : ∀ f, ColumnOk n env.nonZero (values f) (env.space.column f)

/-- Whether a comparator belongs to numerical features. -/
def NumericalComparator (k : Search.Comparator) : Prop := k = .numericalLeq ∨ k = .numericalGr

/-- The comparator and the threshold of a condition suit the type of the feature. -/
def Typed (env : Env) (c : Boosting.Condition) : Prop :=
  match env.space.column c.feature with
  | .equal => False
  | .numerical _ _ _ _ => NumericalComparator c.comparator
  | .nominal _ _ _ _ => ¬ NumericalComparator c.comparator ∧ ∃ z : Int, c.threshold = (z : Rat)

/-- The rows of a feature matrix contain the values the training data has been created from. The values of features that are not numerical are
converted to integers when training data is created (see C69). -/
def RowsOk (env : Env) (n : Nat) (values : Nat → Nat → Option Rat) (rows : Nat → List FVal) : Prop :=
  ∀ e < n, ∀ f, match env.space.column f with
    | .equal => True
    | .numerical _ _ _ _ => ∃ x, (rows e)[f]? = some (some x) ∧ values f e = some x
    | .nominal _ _ _ _ => ∃ x, (rows e)[f]? = some (some x) ∧ values f e = some (Body.Spec.truncate x : Rat) ∧
        -2 ^ 31 ≤ Body.Spec.truncate x ∧ Body.Spec.truncate x < 2 ^ 31

end MLRL.Tabular
