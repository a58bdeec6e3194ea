import Verif.Base

/-!
# Model of forward iterators

Sources: `common/include/mlrl/common/iterator/iterator_forward_sparse.hpp`,
`common/include/mlrl/common/iterator/iterator_forward_sparse_binary.hpp`,
`common/include/mlrl/common/iterator/iterator_forward_non_zero_index.hpp`,
`common/src/mlrl/common/iterator/iterator_index.cpp`.

Iterators over arrays are represented by the list of the elements that are left.
-/

namespace MLRL.Iterators

/-- Fields of `SparseForwardIterator`, iterator_forward_sparse.hpp:24-36. The iterators over indices and values always advance
together, so that they are represented by a single list of pairs. -/
structure SparseForward (T : Type) where
  rest : List (Nat × T)
  index : Nat
  iteratorIndex : Nat
  sparseValue : T

/-- Constructor, iterator_forward_sparse.hpp:52-57. -/
def SparseForward.create {T : Type} (row : List (Nat × T)) (startIndex : Nat) (sparseValue : T) : SparseForward T :=
  { rest := row, index := startIndex,
    iteratorIndex := match row with
      | e :: _ => e.1
      | [] => 0,
    sparseValue := sparseValue }

/-- `operator*`, iterator_forward_sparse.hpp:89-95. -/
def SparseForward.deref {T : Type} (it : SparseForward T) : T :=
  match it.rest with
  | e :: _ => if it.iteratorIndex = it.index then e.2 else it.sparseValue
  | [] => it.sparseValue

/-- `operator++`, iterator_forward_sparse.hpp:102-115. -/
def SparseForward.next {T : Type} (it : SparseForward T) : SparseForward T :=
  match it.rest with
  | _ :: rest =>
    if it.iteratorIndex < it.index + 1 then
      { it with
        rest := rest, index := it.index + 1,
        iteratorIndex := match rest with
          | e :: _ => e.1
          | [] => it.iteratorIndex }
    else { it with index := it.index + 1 }
  | [] => { it with index := it.index + 1 }

/-- Fields of `BinarySparseForwardIterator`, iterator_forward_sparse_binary.hpp:22-28. -/
structure BinarySparseForward where
  rest : List Nat
  index : Nat
  iteratorIndex : Nat

/-- Constructor, iterator_forward_sparse_binary.hpp:39-41. -/
def BinarySparseForward.create (row : List Nat) (startIndex : Nat) : BinarySparseForward :=
  { rest := row, index := startIndex,
    iteratorIndex := match row with
      | i :: _ => i
      | [] => 0 }

/-- `operator*`, iterator_forward_sparse_binary.hpp:73-75. -/
def BinarySparseForward.deref (it : BinarySparseForward) : Bool :=
  match it.rest with
  | _ :: _ => decide (it.iteratorIndex = it.index)
  | [] => false

/-- `operator++`, iterator_forward_sparse_binary.hpp:82-94. -/
def BinarySparseForward.next (it : BinarySparseForward) : BinarySparseForward :=
  match it.rest with
  | _ :: rest =>
    if it.iteratorIndex < it.index + 1 then
      { it with
        rest := rest, index := it.index + 1,
        iteratorIndex := match rest with
          | i :: _ => i
          | [] => it.iteratorIndex }
    else { it with index := it.index + 1 }
  | [] => { it with index := it.index + 1 }

/-- Fields of `NonZeroIndexForwardIterator`, iterator_forward_non_zero_index.hpp:21-25. -/
structure NonZeroIndex (T : Type) where
  rest : List T
  index : Nat

/-- The loop that skips zeros, iterator_forward_non_zero_index.hpp:34-42 and 88-96; `isZero` is `isEqualToZero`. -/
def NonZeroIndex.skip {T : Type} (isZero : T → Bool) : List T → Nat → NonZeroIndex T
  | [], index => { rest := [], index := index }
  | v :: rest, index => if !isZero v then { rest := v :: rest, index := index } else NonZeroIndex.skip isZero rest (index + 1)

/-- Constructor, iterator_forward_non_zero_index.hpp:33-43. -/
def NonZeroIndex.create {T : Type} (isZero : T → Bool) (row : List T) : NonZeroIndex T := NonZeroIndex.skip isZero row 0

/-- `operator++`, iterator_forward_non_zero_index.hpp:84-99; incrementing an iterator that has reached the end is undefined. -/
def NonZeroIndex.next {T : Type} (isZero : T → Bool) (it : NonZeroIndex T) : Res (NonZeroIndex T) :=
  match it.rest with
  | [] => .error .outOfBounds
  | _ :: rest => .ok (NonZeroIndex.skip isZero rest (it.index + 1))

/-- `for (; it != end; it++) visit(*it)`; the end iterator has no elements left. The number of steps is bounded by `fuel`
(`none`: not finished). -/
def NonZeroIndex.collect {T : Type} (isZero : T → Bool) : (fuel : Nat) → NonZeroIndex T → Option (Res (List Nat))
  | 0, _ => none
  | fuel + 1, it =>
    match it.rest with
    | [] => some (.ok [])
    | _ :: _ =>
      match it.next isZero with
      | .error e => some (.error e)
      | .ok it' => (NonZeroIndex.collect isZero fuel it').map (fun r => r.map (fun l => it.index :: l))

/-- `IndexIterator`, iterator_index.cpp:3-33: the index. -/
structure IndexIterator where
  index : Nat

/-- `operator[]`, iterator_index.cpp:7-9: does not take the current position into account. -/
def IndexIterator.get (_it : IndexIterator) (i : Nat) : Nat := i

/-- `operator*`, iterator_index.cpp:11-13. -/
def IndexIterator.deref (it : IndexIterator) : Nat := it.index

/-- `operator++`, iterator_index.cpp:15-23. -/
def IndexIterator.next (it : IndexIterator) : IndexIterator := { index := it.index + 1 }

/-- `operator--()`, iterator_index.cpp:25-28. -/
def IndexIterator.prev (it : IndexIterator) : IndexIterator := { index := it.index - 1 }

/-- `operator--(int)`, iterator_index.cpp:30-33: increments the index. -/
def IndexIterator.prevPostfix (it : IndexIterator) : IndexIterator := { index := it.index + 1 }

end MLRL.Iterators
