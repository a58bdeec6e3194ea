import Verif.Model.DenseMatrix

/-!
# Specification of dense matrices

A matrix is a function of rows and columns.
-/

namespace MLRL.DenseMatrix

variable {T : Type}

/-- Lines and positions within lines, as rows and columns. -/
def Layout.row : Layout → Nat → Nat → Nat
  | .c, line, _ => line
  | .fortran, _, i => i

def Layout.col : Layout → Nat → Nat → Nat
  | .c, _, i => i
  | .fortran, line, _ => line

/-- The matrix `m` holds the elements `f row col`. -/
structure Holds (m : Dense T) (layout : Layout) (f : Nat → Nat → T) : Prop where
  /-- there are as many elements as a matrix of that size has, which are less than `2 ^ 32` -/
  length : m.array.length = m.numRows * m.numCols
  small : m.numRows * m.numCols < 2 ^ 32
  elements : ∀ line i, line < m.numLines layout → i < m.lineLength layout →
    m.array[line * m.lineLength layout + i]? = some (f (layout.row line i) (layout.col line i))

/-- A function that is changed for one row and column. -/
def set (f : Nat → Nat → T) (row col : Nat) (value : T) : Nat → Nat → T :=
  fun r c => if r = row ∧ c = col then value else f r c

/-- The positions of different elements are different, and all of them exist. -/
def Sound (m : Dense T) (layout : Layout) : Prop :=
  (∀ line i, line < m.numLines layout → i < m.lineLength layout → m.valuesBegin layout line + i < m.array.length) ∧
  ∀ line i line' i', line < m.numLines layout → i < m.lineLength layout → line' < m.numLines layout → i' < m.lineLength layout →
    m.valuesBegin layout line + i = m.valuesBegin layout line' + i' → line = line' ∧ i = i'

end MLRL.DenseMatrix
