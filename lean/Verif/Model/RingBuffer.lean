import Verif.Base

/-!
# Model of `RingBuffer`

Source: `/repo/cpp/subprojects/common/include/mlrl/common/data/ring_buffer.hpp`.
-/

namespace MLRL

/-- State of a ring buffer (ring_buffer.hpp:18-20). A cell is `none` as long as it has not been written: the constructor
allocates the array without initialising it. -/
structure RingBuffer (α : Type _) where
  array : List (Option α)
  pos : Nat
  full : Bool

namespace RingBuffer

variable {α : Type _}

/-- Constructor, ring_buffer.hpp:27-28. -/
def init (capacity : Nat) : RingBuffer α :=
  { array := List.replicate capacity none, pos := 0, full := capacity == 0 }

/-- `getCapacity`, ring_buffer.hpp:61-63. -/
def capacity (b : RingBuffer α) : Nat := b.array.length

/-- `getNumElements`, ring_buffer.hpp:70-72. -/
def numElements (b : RingBuffer α) : Nat := if b.full then b.capacity else b.pos

/-- `isFull`, ring_buffer.hpp:79-81. -/
def isFull (b : RingBuffer α) : Bool := b.full

/-- The cells between `cbegin` and `cend` in storage order, ring_buffer.hpp:42-53. -/
def cells (b : RingBuffer α) : List (Option α) :=
  b.array.take (if b.full then b.capacity else b.pos)

/-- `push`, ring_buffer.hpp:93-107. The pair is `(overwritten, old content of the cell)`. `pos_++` cannot overflow since
`pos_ < capacity ≤ 2^32 - 1`. -/
def push (b : RingBuffer α) (value : α) : Res (RingBuffer α × (Bool × Option α)) := do
  let old ← readAt b.array b.pos
  let array ← writeAt b.array b.pos (some value)
  let result := (b.full, old)
  let pos := b.pos + 1
  if pos ≥ array.length then
    return ({ array := array, pos := 0, full := true }, result)
  else
    return ({ array := array, pos := pos, full := b.full }, result)

/-- A sequence of pushes; returns the final state and the results in order. -/
def pushAll (b : RingBuffer α) : List α → Res (RingBuffer α × List (Bool × Option α))
  | [] => .ok (b, [])
  | x :: xs => do
    let (b', r) ← b.push x
    let (b'', rs) ← b'.pushAll xs
    return (b'', r :: rs)

end RingBuffer
end MLRL
