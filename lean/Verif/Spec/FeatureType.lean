import Verif.Model.FeatureType
import Verif.Spec.Search

/-!
# Specification of the creation of feature vectors from feature matrices
-/

namespace MLRL.FeatureType

open FeatureSpace (FeatureVector NominalKind)
open Search (nominalExamples numericalExamples)

/-- The nominal or ordinal value that belongs to a feature value: decimal places are dropped. -/
def category (x : Rat) : Int := if 0 ≤ x then x.floor else x.ceil

/-- All values can be converted into integers. -/
def InRange (column : List Entry) : Prop := ∀ e ∈ column, ∀ x, e.2 = some x → -2 ^ 31 ≤ category x ∧ category x < 2 ^ 31

/-- The examples of which the value is not missing, together with their values. -/
def present (column : List Entry) : List (Nat × Rat) := column.filterMap (fun e => e.2.map (fun x => (e.1, x)))

/-- The examples of which the value is missing. -/
def absent (column : List Entry) : List Nat := (column.filter (fun e => e.2.isNone)).map Prod.fst

/-- The examples of which the value is not missing, together with their nominal values. -/
def categories (column : List Entry) : List (Nat × Rat) := (present column).map (fun e => (e.1, (category e.2 : Rat)))

/-- The column of a sparse matrix: rows without an entry have the sparse value. -/
def cscColumn (entries : List Entry) (numRows : Nat) (sparseValue : FVal) : List Entry :=
  (List.range numRows).map (fun i => (i, (entries.lookup i).getD sparseValue))

/-- The entries of a column of a sparse matrix: there is at most one for each row. -/
structure ValidCsc (entries : List Entry) (numRows : Nat) : Prop where
  nodup : (entries.map Prod.fst).Nodup
  lt : ∀ e ∈ entries, e.1 < numRows

/-- Bins, a majority value and missing values represent a column: each example is in the bin with its value, or it has the majority value, or its value is
missing. -/
structure Represents (column : List Entry) (bins : List (Int × List Nat)) (majorityValue : Int) (missing : List Nat) : Prop where
  examples : ∃ remaining, (nominalExamples bins majorityValue remaining).Perm (categories column)
  missing : missing.Perm (absent column)
  values : (majorityValue :: bins.map Prod.fst).Nodup
  nonempty : ∀ b ∈ bins, b.2 ≠ []

/-- A feature vector represents a column. If it is an `EqualFeatureVector`, all values that are not missing are the same. -/
def Created.Correct (kind : NominalKind) (column : List Entry) (c : Created) : Prop :=
  ∃ v, c.decode = .ok v ∧
    match v with
    | .equal => ∀ a ∈ categories column, ∀ b ∈ categories column, a.2 = b.2
    | .nominal k bins majorityValue missing => Represents column bins majorityValue missing ∧ (k = .binary ∧ bins.length = 1 ∨ k = kind ∧ bins.length ≥ 2) ∧
      (k = .ordinal → (bins.map Prod.fst).Pairwise (· < ·))
    | .numerical _ _ _ _ => False

/-- No value of the column is more frequent than the majority value. -/
def MostFrequent (column : List Entry) (majorityValue : Int) : Prop :=
  ∀ k : Rat, ((categories column).map Prod.snd).count k ≤ ((categories column).map Prod.snd).count (majorityValue : Rat)

/-- The majority value of a created feature vector is a most frequent one. -/
def Created.Frequent (column : List Entry) (c : Created) : Prop :=
  ∀ kind bins mv missing, c.decode = .ok (.nominal kind bins mv missing) → MostFrequent column mv

/-- None of the values that are stored in a column of a sparse matrix has the same nominal value as those that are not stored. -/
def Distinct (entries : List Entry) (sparseValue : Rat) : Prop := ∀ i x, (i, some x) ∈ entries → category x ≠ category sparseValue

/-- A numerical feature vector represents a column: it stores examples in increasing order of their values, the values of the remaining examples are the sparse
value. If it is an `EqualFeatureVector`, the smallest and the largest value are considered to be equal, or there are at most missing values and the sparse value.
Vectors of a dense matrix or with values for all examples are not created if the values are considered to be equal. -/
def NumericalCorrect (isEqual : Rat → Rat → Bool) (column : List Entry) (sparseValue : Rat) : FeatureVector → Prop
  | .equal => (∀ e ∈ present column, e.2 = sparseValue) ∨
      ∃ a ∈ present column, ∃ b ∈ present column, isEqual a.2 b.2 = true ∧ ∀ e ∈ present column, a.2 ≤ e.2 ∧ e.2 ≤ b.2
  | .numerical entries sv sparse missing => entries ≠ [] ∧ Search.SortedEntries entries ∧ missing.Perm (absent column) ∧ sv = sparseValue ∧
      ∃ remaining, (numericalExamples entries sv remaining).Perm (present column) ∧
        (sparse = false → remaining = [] ∧ ∃ a ∈ present column, ∃ b ∈ present column, isEqual a.2 b.2 = false)
  | .nominal _ _ _ _ => False

/-- A permutation of keys. -/
def IsOrder (order : List Int → List Int) : Prop := ∀ l, (order l).Perm l

/-- What `std::sort` guarantees for integers. -/
def IsSort (sort : List Int → List Int) : Prop := ∀ l, (sort l).Perm l ∧ (sort l).Pairwise (· ≤ ·)

/-- What `std::sort` guarantees for indices and values that are sorted by their values. -/
def IsValueSort (sort : List (Nat × Rat) → List (Nat × Rat)) : Prop := ∀ l, (sort l).Perm l ∧ (sort l).Pairwise (fun a b => a.2 ≤ b.2)

end MLRL.FeatureType
