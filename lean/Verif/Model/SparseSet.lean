import Verif.Base

/-!
# Model of rows of sparse-set matrices

Sources: `common/include/mlrl/common/data/view_vector_sparse_set.hpp`,
`boosting/src/mlrl/boosting/data/matrix_sparse_set_numeric.cpp`.
-/

namespace MLRL

/-- Fields of `SparseSetVector`, view_vector_sparse_set.hpp:34-50: the dense entries (index and value) and, for each column,
the position of its entry or `MAX_INDEX`. -/
structure SparseSet (T : Type) where
  values : List (Nat × T)
  indices : List Nat

namespace SparseSet

variable {T : Type}

/-- `std::numeric_limits<uint32>::max()`, view_vector_sparse_set.hpp:34. -/
def maxIndex : Nat := 2 ^ 32 - 1

/-- An empty row with `numCols` columns; the indices are initialised with `MAX_INDEX` (view_matrix_sparse_set.hpp:41-47). -/
def init (numCols : Nat) : SparseSet T := { values := [], indices := List.replicate numCols maxIndex }

/-- `operator[]`, view_vector_sparse_set.hpp:133-148; `none` is the null pointer. -/
def get (s : SparseSet T) (index : Nat) : Res (Option (Nat × T)) := do
  let i ← readAt s.indices index
  if i = maxIndex then return none
  else
    let e ← readAt s.values i
    return some e

/-- `emplace`, view_vector_sparse_set.hpp:157-187, returns the position of the entry. The conversion of the size to `uint32` is
the remainder modulo `2^32`. -/
def emplace (s : SparseSet T) (index : Nat) (defaultValue : T) : Res (SparseSet T × Nat) := do
  let i ← readAt s.indices index
  if i = maxIndex then
    let indices ← writeAt s.indices index (s.values.length % 2 ^ 32)
    return ({ values := s.values ++ [(index, defaultValue)], indices := indices }, s.values.length)
  else return (s, i)

/-- `IndexedValue<T>& entry = row.emplace(index, defaultValue); entry.value = f(entry.value);` as in
matrix_sparse_set_numeric.cpp:10-12 (`f` adds a value) and 21-23 (`f` subtracts a value). -/
def modify (s : SparseSet T) (index : Nat) (defaultValue : T) (f : T → T) : Res (SparseSet T) := do
  let (s, i) ← s.emplace index defaultValue
  let e ← readAt s.values i
  let values ← writeAt s.values i (e.1, f e.2)
  return { s with values := values }

/-- The first part of `erase`, view_vector_sparse_set.hpp:201-204. -/
def moveLast (s : SparseSet T) (index i : Nat) (last : Nat × T) : Res (SparseSet T) :=
  if last.1 ≠ index then do
    let values ← writeAt s.values i last
    let indices ← writeAt s.indices last.1 i
    return { values := values, indices := indices }
  else return s

/-- `erase`, view_vector_sparse_set.hpp:194-209. -/
def erase (s : SparseSet T) (index : Nat) : Res (SparseSet T) := do
  let i ← readAt s.indices index
  if i = maxIndex then return s
  else
    match s.values.getLast? with
    | none => .error .outOfBounds
    | some last => do
      let s ← s.moveLast index i last
      let indices ← writeAt s.indices index maxIndex
      return { values := s.values.dropLast, indices := indices }

/-- The loop of `clear`, view_vector_sparse_set.hpp:214-220, from the last entry to the first one. -/
def clearLoop : List (Nat × T) → List Nat → Res (List Nat)
  | [], indices => .ok indices
  | e :: es, indices => do
    let indices ← writeAt indices e.1 maxIndex
    clearLoop es indices

/-- `clear`, view_vector_sparse_set.hpp:214-220. -/
def clear (s : SparseSet T) : Res (SparseSet T) := do
  let indices ← clearLoop s.values.reverse s.indices
  return { values := [], indices := indices }

/-- The operations on a row. -/
inductive Op (T : Type) where
  | modify (index : Nat) (defaultValue : T) (f : T → T)
  | erase (index : Nat)
  | clear

/-- Effect of an operation. -/
def apply (s : SparseSet T) : Op T → Res (SparseSet T)
  | .modify index d f => s.modify index d f
  | .erase index => s.erase index
  | .clear => s.clear

/-- `addToRowFromSubsetInternally`, matrix_sparse_set_numeric.cpp:5-14; `entries` are pairs of an index and a value. -/
def addToRow [Add T] [Zero T] : List (Nat × T) → SparseSet T → Res (SparseSet T)
  | [], s => .ok s
  | (index, v) :: es, s => do
    let s ← s.modify index 0 (fun x => x + v)
    addToRow es s

/-- `removeFromRowFromSubsetInternally`, matrix_sparse_set_numeric.cpp:16-25. -/
def removeFromRow [Sub T] [Zero T] : List (Nat × T) → SparseSet T → Res (SparseSet T)
  | [], s => .ok s
  | (index, v) :: es, s => do
    let s ← s.modify index 0 (fun x => x - v)
    removeFromRow es s

end SparseSet

end MLRL
