import Verif.Model.FeatureVector

/-!
# Model of dense matrices

Sources (below `/repo/cpp/subprojects/common/include/mlrl/common`):
* `data/view_matrix_dense.hpp`, `data/view_matrix_c_contiguous.hpp`, `data/view_matrix_fortran_contiguous.hpp`
* `util/memory.hpp`, `util/view_functions.hpp`

All indices and sizes are unsigned 32 bit integers, products of them are taken modulo `2 ^ 32`.
-/

namespace MLRL.DenseMatrix

open FeatureSpace (readRange)

variable {T : Type}

/-- `DenseMatrix`, view_matrix_dense.hpp:16-57: the elements that exist in memory, the number of rows and columns. -/
structure Dense (T : Type) where
  array : List T
  numRows : Nat
  numCols : Nat
  deriving DecidableEq, Repr

/-- How the elements are laid out: `CContiguousView` or `FortranContiguousView`. -/
inductive Layout where
  | c
  | fortran
  deriving DecidableEq, Repr

/-- `DenseMatrixAllocator`, view_matrix_dense.hpp:73-74, `allocateMemory`, memory.hpp:21-27. The content of memory that is not
initialised is arbitrary. -/
def allocate (content : Nat → T) (numRows numCols : Nat) : Dense T :=
  ⟨(List.range (numRows * numCols % 2 ^ 32)).map content, numRows, numCols⟩

/-- The number of rows (C) or columns (Fortran). -/
def Dense.numLines (m : Dense T) : Layout → Nat
  | .c => m.numRows
  | .fortran => m.numCols

/-- The length of a row (C) or column (Fortran). -/
def Dense.lineLength (m : Dense T) : Layout → Nat
  | .c => m.numCols
  | .fortran => m.numRows

/-- `values_begin` and `values_cbegin`, view_matrix_c_contiguous.hpp:76-78, 96-98, view_matrix_fortran_contiguous.hpp:76-78, 96-98. -/
def Dense.valuesBegin (m : Dense T) (layout : Layout) (line : Nat) : Nat := line * m.lineLength layout % 2 ^ 32

/-- `values_end` and `values_cend`, view_matrix_c_contiguous.hpp:86-88, 106-108, view_matrix_fortran_contiguous.hpp:86-88, 106-108. -/
def Dense.valuesEnd (m : Dense T) (layout : Layout) (line : Nat) : Nat := (line + 1) % 2 ^ 32 * m.lineLength layout % 2 ^ 32

/-- `values_cbegin(line)[i]`. -/
def Dense.read (m : Dense T) (layout : Layout) (line i : Nat) : Res T := readAt m.array (m.valuesBegin layout line + i)

/-- `values_begin(line)[i] = value`. -/
def Dense.write (m : Dense T) (layout : Layout) (line i : Nat) (value : T) : Res (Dense T) := do
  let array ← writeAt m.array (m.valuesBegin layout line + i) value
  return { m with array := array }

/-- Iterating from `values_cbegin(line)` to `values_cend(line)`. -/
def Dense.iterate (m : Dense T) (layout : Layout) (line : Nat) : Res (List T) :=
  readRange m.array (m.valuesBegin layout line) (m.valuesEnd layout line)

/-- `clear`, view_matrix_dense.hpp:54-56, `setViewToZeros`, view_functions.hpp:20-23. -/
def Dense.clear [Zero T] (m : Dense T) : Res (Dense T) := do
  let array ← (List.range (m.numRows * m.numCols % 2 ^ 32)).foldlM (fun a i => writeAt a i 0) m.array
  return { m with array := array }

end MLRL.DenseMatrix
