import Verif.Base
import Mathlib.Algebra.Group.Defs

/-!
# Model of the conversion of the matrices that are given to the Python API

Sources: `python/subprojects/common/mlrl/common/arrays.py` ("arrays"),
`python/subprojects/common/mlrl/common/rule_learners.py` ("learners"),
`python/subprojects/common/mlrl/common/cython/feature_matrix.pyx` ("features"),
`python/subprojects/common/mlrl/common/cython/label_matrix.pyx` ("labels"),
`python/subprojects/common/mlrl/common/cython/regression_matrix.pyx` ("regression").

`K` is the type of values; conversions between data types and values that are not finite are not modelled. The arrays
`data`, `indices` and `indptr` of a matrix in the CSR format are represented by the list of stored elements (index of the column
and value) of each row, and likewise for columns in case of the CSC format. Conversions between sparse formats, which are done
by SciPy, retain the stored elements, including those that are zero. Exceptions are reported as `Fault.exception`.
-/

namespace MLRL.PythonInput

variable {K : Type}

/-- The formats that are distinguished, arrays:17-25; `other` is any format that is not listed, e.g. BSR. -/
inductive Format where
  | lil | coo | dok | csc | csr | other
  deriving DecidableEq

/-- The arguments `x` and `y`: a two-dimensional array, a one-dimensional array or a sparse matrix, given by the stored elements
of its rows. -/
inductive Input (K : Type) where
  | array (numRows numCols : Nat) (rows : List (List K))
  | vector (values : List K)
  | sparse (format : Format) (numRows numCols : Nat) (rows : List (List (Nat × K)))

/-- `SparsePolicy`, learners:38-45. -/
inductive Policy where
  | auto | forceSparse | forceDense
  deriving DecidableEq

/-- `array.nnz`: the number of stored elements. -/
def numStored (rows : List (List (Nat × K))) : Nat := (rows.map List.length).sum

/-- `is_sparse_and_memory_efficient` for the formats CSR and CSC, arrays:120-130; `numPointers` is the number of rows or columns,
`sizeData` the number of bytes of a value. -/
def isSparseAndMemoryEfficient (csc : Bool) (sizeData : Nat) (sparseValues : Bool) : Input K → Bool
  | .array _ _ _ => false
  | .vector _ => false
  | .sparse _ numRows numCols rows =>
    let numPointers := if csc then numCols else numRows
    let sizeInt := 4
    let sizeSparseData := if sparseValues then sizeData else 0
    let numDenseElements := numStored rows
    let sizeSparse := numDenseElements * sizeSparseData + numDenseElements * sizeInt + numPointers * sizeInt
    let sizeDense := (numRows * numCols) * sizeData
    decide (sizeSparse < sizeDense)

/-- `should_enforce_sparse`, learners:67-107. -/
def shouldEnforceSparse (policy : Policy) (csc : Bool) (sizeData : Nat) (sparseValues : Bool) (input : Input K) : Res Bool :=
  match input with
  | .array _ _ _ => .ok false
  | .vector _ => .ok false
  | .sparse format _ _ _ =>
    if format ≠ .other then
      if policy = .auto then .ok (isSparseAndMemoryEfficient csc sizeData sparseValues input)
      else .ok (decide (policy = .forceSparse))
    else .error .exception

/-- The stored element of a row at a given position. -/
def stored (row : List (Nat × K)) (index : Nat) : Option K := (row.find? (fun e => e.1 = index)).map Prod.snd

/-- `array.toarray()` of SciPy: elements that are not stored are zero. -/
def toArray [Zero K] (numCols : Nat) (rows : List (List (Nat × K))) : List (List K) :=
  rows.map (fun row => (List.range numCols).map (fun c => (stored row c).getD 0))

/-- Whether a position is contained in `array.nonzero()` of SciPy: a stored element that is not zero. -/
def isNonzero [Zero K] [DecidableEq K] (row : List (Nat × K)) (index : Nat) : Bool :=
  match stored row index with
  | some v => decide (v ≠ 0)
  | none => false

/-- `np.full(...)` and `dense_array[array.nonzero()] = 0`, arrays:146-147. -/
def fillSparse [Zero K] [DecidableEq K] (numCols : Nat) (sparseValue : K) (rows : List (List (Nat × K))) : List (List K) :=
  rows.map (fun row => (List.range numCols).map (fun c => if isNonzero row c then 0 else sparseValue))

/-- `enforce_dense` and `enforce_2d`, arrays:133-163. The memory layout does not matter, because matrices are lists of rows. -/
def enforceDense [Zero K] [Add K] [DecidableEq K] (sparseValue : K) : Input K → List (List K)
  | .array _ _ rows => rows
  | .vector values => values.map (fun v => [v])
  | .sparse _ _ numCols rows =>
    if sparseValue ≠ 0 then
      List.zipWith (List.zipWith (· + ·)) (fillSparse numCols sparseValue rows) (toArray numCols rows)
    else toArray numCols rows

/-- The shape of a matrix after `enforce_2d`. -/
def shape : Input K → Nat × Nat
  | .array numRows numCols _ => (numRows, numCols)
  | .vector values => (values.length, 1)
  | .sparse _ numRows numCols _ => (numRows, numCols)

/-- `check_array` and `_validate_data` of scikit-learn: at least one row and one column are required. -/
def validate (input : Input K) : Res Unit :=
  if (shape input).1 > 0 ∧ (shape input).2 > 0 then .ok () else .error .exception

/-- `&array[0]`: Cython raises an `IndexError` if there is no such element. -/
def addressOfFirst (numElements : Nat) : Res Unit := if numElements > 0 then .ok () else .error .exception

/-! ### Feature matrices -/

/-- `CContiguousFeatureMatrix` or `CsrFeatureMatrix` (`lines` are rows), `FortranContiguousFeatureMatrix` or `CscFeatureMatrix`
(`lines` are columns). -/
inductive FeatureMatrix (K : Type) where
  | dense (lines : List (List K))
  | sparse (lines : List (List (Nat × K))) (sparseValue : K)

/-- `_create_row_wise_feature_matrix`, learners:321-352; `sizeData = 4` because of `dtype=Float32`. -/
def createRowWiseFeatureMatrix [Zero K] [Add K] [DecidableEq K] (policy : Policy) (sparseValue : K) (x : Input K) :
    Res (FeatureMatrix K) := do
  let enforceSparse ← shouldEnforceSparse policy false 4 true x
  validate x
  match x, enforceSparse with
  | .sparse _ _ _ rows, true => do
    addressOfFirst (numStored rows)
    return .sparse rows sparseValue
  | _, _ => return .dense (enforceDense sparseValue x)

/-- `array.tocsc()` of SciPy: the stored elements of each column. -/
def toColumns (numCols : Nat) (rows : List (List (Nat × K))) : List (List (Nat × K)) :=
  (List.range numCols).map (fun c => rows.zipIdx.filterMap (fun r => (stored r.1 c).map (fun v => (r.2, v))))

/-- The columns of an array. -/
def columns (numCols : Nat) (rows : List (List K)) : List (List K) :=
  (List.range numCols).map (fun c => rows.filterMap (fun row => row[c]?))

/-- `_create_column_wise_feature_matrix`, learners:291-319. -/
def createColumnWiseFeatureMatrix [Zero K] [Add K] [DecidableEq K] (policy : Policy) (sparseValue : K) (x : Input K) :
    Res (FeatureMatrix K) := do
  let enforceSparse ← shouldEnforceSparse policy true 4 true x
  validate x
  match x, enforceSparse with
  | .sparse _ _ numCols rows, true => do
    addressOfFirst (numStored rows)
    return .sparse (toColumns numCols rows) sparseValue
  | _, _ => return .dense (columns (shape x).2 (enforceDense sparseValue x))

/-- The value the rule learner sees at a position of a line: the element of the array, or the stored element, or the sparse
value. -/
def FeatureMatrix.get : FeatureMatrix K → (line position : Nat) → Res K
  | .dense lines, line, position => do
    let l ← readAt lines line
    readAt l position
  | .sparse lines sparseValue, line, position => do
    let l ← readAt lines line
    return (stored l position).getD sparseValue

/-! ### Ground truth -/

/-- `CContiguousLabelMatrix` or `CsrLabelMatrix`, which only consists of indices. -/
inductive LabelMatrix (K : Type) where
  | dense (rows : List (List K))
  | sparse (rows : List (List Nat))

/-- `__create_row_wise_output_matrix` and `_create_row_wise_output_matrix` for classification problems, learners:369-374 and 435-447;
`sizeData = 1` because of `dtype=Uint8`. -/
def createLabelMatrix [Zero K] [Add K] [DecidableEq K] (policy : Policy) (y : Input K) : Res (LabelMatrix K) := do
  let enforceSparse ← shouldEnforceSparse policy false 1 false y
  validate y
  match y, enforceSparse with
  | .sparse _ _ _ rows, true => do
    addressOfFirst (numStored rows)
    return .sparse (rows.map (fun row => row.map Prod.fst))
  | _, _ => return .dense (enforceDense 0 y)

/-- Whether a label is relevant: the value is converted into a Boolean (label_matrix_c_contiguous.cpp:46-50), or the index is stored
(label_matrix_csr.cpp:43-65). -/
def LabelMatrix.isRelevant [Zero K] [DecidableEq K] : LabelMatrix K → (row col : Nat) → Res Bool
  | .dense rows, row, col => do
    let r ← readAt rows row
    let v ← readAt r col
    return decide (v ≠ 0)
  | .sparse rows, row, col => do
    let r ← readAt rows row
    return decide (col ∈ r)

/-- `CContiguousRegressionMatrix` or `CsrRegressionMatrix`. -/
inductive RegressionMatrix (K : Type) where
  | dense (rows : List (List K))
  | sparse (rows : List (List (Nat × K)))

/-- `__create_row_wise_output_matrix` and `_create_row_wise_output_matrix` for regression problems, learners:369-374 and 605-618. The
memory consumption is estimated in the same way as for classification problems. -/
def createRegressionMatrix [Zero K] [Add K] [DecidableEq K] (policy : Policy) (y : Input K) : Res (RegressionMatrix K) := do
  let enforceSparse ← shouldEnforceSparse policy false 1 false y
  validate y
  match y, enforceSparse with
  | .sparse _ _ _ rows, true => do
    addressOfFirst (numStored rows)
    return .sparse rows
  | _, _ => return .dense (enforceDense 0 y)

/-- The score the rule learner sees. -/
def RegressionMatrix.get [Zero K] : RegressionMatrix K → (row col : Nat) → Res K
  | .dense rows, row, col => do
    let r ← readAt rows row
    readAt r col
  | .sparse rows, row, col => do
    let r ← readAt rows row
    return (stored r col).getD 0

end MLRL.PythonInput
