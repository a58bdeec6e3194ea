import Verif.Model.TabularData
import Verif.Spec.Tabular
import Verif.Spec.FeatureType

/-!
# Specification of training on a dense feature matrix
-/

namespace MLRL.TabularData

open FeatureType

/-- The kind of a feature after features have been declared to be of certain kinds: the last declaration counts. Features are numerical by default. -/
def declared (calls : List (Nat × Kind)) (f : Nat) : Kind :=
  match calls.reverse.find? (fun c => c.1 = f) with
  | some c => c.2
  | none => .numerical

/-- The value of a feature during training: the value in the matrix if the feature is numerical, otherwise decimal places are dropped. -/
def value (kind : Nat → Kind) (matrix : List (List FVal)) (f e : Nat) : Option Rat :=
  match matrix[f]? with
  | none => none
  | some column =>
    match column[e]? with
    | some (some x) => if kind f = .numerical then some x else some (category x : Rat)
    | _ => none

/-- A matrix for which the code is correct: no values are missing, the values of a numerical feature are all less than zero or all greater or equal (see
`numerical_training_fails`), the values of other features can be converted into integers, and no example has zero weight if a feature is ordinal
(see `ordinal_first_unsound`). -/
structure MatrixOk (kind : Nat → Kind) (n : Nat) (nonZero : Nat → Bool) (matrix : List (List FVal)) : Prop where
  size : n < 2 ^ 32
  length : ∀ (f : Nat) (column : List FVal), matrix[f]? = some column → column.length = n
  present : ∀ (f : Nat) (column : List FVal), matrix[f]? = some column → none ∉ column
  numerical : ∀ (f : Nat) (column : List FVal), matrix[f]? = some column → kind f = .numerical →
    (∀ x, some x ∈ column → x < 0) ∨ (∀ x, some x ∈ column → 0 ≤ x)
  range : ∀ (f : Nat) (column : List FVal), matrix[f]? = some column → kind f ≠ .numerical →
    ∀ x, some x ∈ column → -2 ^ 31 ≤ category x ∧ category x < 2 ^ 31
  ordinal : ∀ f, f < matrix.length → kind f = .ordinal → ∀ e < n, nonZero e = true

/-- What is guaranteed by the C++ standard. Each float is considered to be equal to itself. -/
structure Library.Ok (lib : Library) : Prop where
  order : IsOrder lib.order
  sort : IsSort lib.sort
  sortValues : IsValueSort lib.sortValues
  isEqual : ∀ x, lib.isEqual x x = true

end MLRL.TabularData
