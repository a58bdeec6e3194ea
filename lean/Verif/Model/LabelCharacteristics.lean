import Verif.Model.PythonOptions
import Mathlib.Algebra.Field.Rat

/-!
# Unique label vectors and characteristics of output matrices

Model of `python/subprojects/testbed/mlrl/testbed/label_vectors.py` and
`python/subprojects/testbed/mlrl/testbed/characteristics.py`. Quotients are computed exactly. How values are formatted
is not modelled.
-/

namespace MLRL.LabelCharacteristics

open MLRL.PythonOptions (Str PyError split)

/-! ## Unique label vectors -/

/-- `str(n)` for a non-negative integer. -/
def str (n : Nat) : Str := Nat.toDigits 10 n

/-- `int(text)`. Texts that contain other characters than digits are treated as invalid, although Python accepts signs,
underscores and surrounding whitespace. Such texts do not occur. -/
def int (text : Str) : Except PyError Nat :=
  if text = [] then .error .valueError
  else if text.all Char.isDigit then .ok (Nat.ofDigitChars 10 text 0)
  else .error .valueError

/-- `separator.join(texts)`. -/
def join (sep : Char) : List Str → Str
  | [] => []
  | [t] => t
  | t :: ts => t ++ sep :: join sep ts

/-- `setdefault` and the subsequent assignment, label_vectors.py:59-60. -/
def increment (dict : List (Str × Nat)) (key : Str) : List (Str × Nat) :=
  match dict with
  | [] => [(key, 0 + 1)]
  | (k, frequency) :: rest => if k = key then (k, frequency + 1) :: rest else (k, frequency) :: increment rest key

/-- The first loop in the constructor of `LabelVectors`, label_vectors.py:57-60. A row is given by the indices of the
relevant labels. -/
def countStrings (dict : List (Str × Nat)) : List (List Nat) → List (Str × Nat)
  | [] => dict
  | labelVector :: rows => countStrings (increment dict (join ',' (labelVector.map str))) rows

/-- `[int(label_index) for label_index in ...]`, label_vectors.py:66. -/
def ints : List Str → Except PyError (List Nat)
  | [] => .ok []
  | t :: ts =>
    match int t with
    | .error e => .error e
    | .ok i =>
      match ints ts with
      | .error e => .error e
      | .ok is => .ok (i :: is)

/-- The second loop in the constructor of `LabelVectors`, label_vectors.py:64-67. -/
def parseStrings : List (Str × Nat) → Except PyError (List (List Nat × Nat))
  | [] => .ok []
  | (text, frequency) :: rest =>
    match ints (split ',' text) with
    | .error e => .error e
    | .ok labelVector =>
      match parseStrings rest with
      | .error e => .error e
      | .ok vs => .ok ((labelVector, frequency) :: vs)

/-- The constructor of `LabelVectors`, label_vectors.py:44-71, given the rows of a `lil_array`. -/
def labelVectors (rows : List (List Nat)) : Except PyError (List (List Nat × Nat)) :=
  parseStrings (countStrings [] rows)

/-- `dense_label_vector[i] = 1` for the given indices, label_vectors.py:77-78. -/
def setRelevant (v : List Nat) : List Nat → List Nat
  | [] => v
  | i :: is => setRelevant (v.set i 1) is

/-- `__format_label_vector`, label_vectors.py:73-79: The vector that is shown, unless the sparse format is used. Indices
that are out of bounds (these do not occur) are ignored, rather than causing an exception. -/
def denseVector (numLabels : Nat) (labelVector : List Nat) : List Nat :=
  setRelevant (List.replicate numLabels 0) labelVector

/-! ## Characteristics of matrices -/

/-- A matrix in a dense format or in a sparse format that stores the indices and values of certain elements per row. -/
inductive Mat (V : Type)
  | dense (cols : Nat) (rows : List (List V))
  | sparse (cols : Nat) (rows : List (List (Nat × V)))

variable {V : Type} [Zero V] [DecidableEq V]

/-- `matrix.shape[0]` -/
def Mat.numRows : Mat V → Nat
  | .dense _ rows => rows.length
  | .sparse _ rows => rows.length

/-- `matrix.shape[1]` -/
def Mat.numCols : Mat V → Nat
  | .dense cols _ => cols
  | .sparse cols _ => cols

/-- `np.count_nonzero(y, axis=1)` or the differences of `indptr` in the CSR format, characteristics.py:57-61. -/
def Mat.perRow : Mat V → List Nat
  | .dense _ rows => rows.map fun r => r.countP fun v => decide (v ≠ 0)
  | .sparse _ rows => rows.map fun r => r.length

/-- Whether the element in a certain column is non-zero. -/
def nonZeroAt (j : Nat) (r : List V) : Bool :=
  match r[j]? with
  | none => false
  | some v => decide (v ≠ 0)

/-- `np.count_nonzero(y, axis=0)` or the differences of `indptr` in the CSC format, characteristics.py:89-93. -/
def Mat.perCol : Mat V → List Nat
  | .dense cols rows => (List.range cols).map fun j => rows.countP (nonZeroAt j)
  | .sparse cols rows => (List.range cols).map fun j => (rows.map fun r => r.countP fun e => decide (e.1 = j)).sum

/-- `np.count_nonzero(matrix)` or `matrix.nnz`, characteristics.py:41-44. -/
def Mat.numElements (m : Mat V) : Nat := m.perRow.sum

/-- `density`, characteristics.py:31-46. -/
def density (m : Mat V) : ℚ :=
  let n := m.numRows * m.numCols
  if n > 0 then (m.numElements : ℚ) / n else 0

/-- `OutputCharacteristics.output_sparsity`, characteristics.py:126-131. -/
def sparsity (m : Mat V) : ℚ := 1 - density m

/-- `np.average`, which does not result in a number if there are no values. -/
def average (vs : List ℚ) : Option ℚ := if vs = [] then none else some (vs.sum / vs.length)

/-- `label_cardinality`, characteristics.py:49-63. -/
def labelCardinality (m : Mat V) : Option ℚ := average (m.perRow.map fun (n : Nat) => (n : ℚ))

/-- `np.max` of a list that is not empty. -/
def maximum (l : List Nat) : Nat := l.foldl max 0

/-- `label_imbalance_ratio`, characteristics.py:81-100. -/
def labelImbalanceRatio (m : Mat V) : Option ℚ :=
  let ns := m.perCol.filter fun n => decide (n ≠ 0)
  if ns.length > 0 then average (ns.map fun (n : Nat) => (maximum ns : ℚ) / (n : ℚ)) else some 0

/-- `np.unique(a).shape[0]`: The elements are sorted and the first one, as well as those that differ from their
predecessor, are counted. -/
def countChanges {α : Type} [DecidableEq α] : List α → Nat
  | [] => 0
  | [_] => 1
  | a :: b :: l => (if a ≠ b then 1 else 0) + countChanges (b :: l)

/-- `np.unique(a).shape[0]`. The order (`le`) is the lexicographical one. -/
def numUnique {α : Type} [DecidableEq α] (le : α → α → Bool) (l : List α) : Nat := countChanges (l.mergeSort le)

/-- `distinct_label_vectors`, characteristics.py:66-78. The rows of a sparse matrix (`y.rows`) are lists of indices. -/
def distinctLabelVectors (leDense : List V → List V → Bool) (leSparse : List Nat → List Nat → Bool) : Mat V → Nat
  | .dense _ rows => numUnique leDense rows
  | .sparse _ rows => numUnique leSparse (rows.map fun r => r.map fun e => e.1)

end MLRL.LabelCharacteristics
