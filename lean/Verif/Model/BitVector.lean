import Verif.Base

/-!
# Model of bit vectors

Source: `common/src/mlrl/common/data/vector_bit.cpp`.
-/

namespace MLRL

/-- Fields of `BitVector`: an array of `uint32` (`none`: not initialised) and the number of elements. -/
structure BitVector where
  words : List (Option Nat)
  numElements : Nat

namespace BitVector

/-- `UINT32_SIZE`, vector_bit.cpp:5. -/
def wordSize : Nat := 32

/-- `size`, vector_bit.cpp:7-9. -/
def size (numElements : Nat) : Nat := numElements / wordSize + (if numElements % wordSize ≠ 0 then 1 else 0)

/-- `index`, vector_bit.cpp:11-13. -/
def index (pos : Nat) : Nat := pos / wordSize

/-- `mask`, vector_bit.cpp:15-17: `1U << (pos % UINT32_SIZE)`. -/
def mask (pos : Nat) : Nat := 2 ^ (pos % wordSize)

/-- `~x` for a `uint32`. -/
def complement (x : Nat) : Nat := 2 ^ 32 - (x + 1)

/-- Constructor, vector_bit.cpp:19-22: the array is only initialised (with zeros) if `init` is true. -/
def create (numElements : Nat) (init : Bool) : BitVector :=
  { words := List.replicate (size numElements) (if init then some 0 else none), numElements := numElements }

/-- `operator[]`, vector_bit.cpp:24-26. -/
def get (v : BitVector) (pos : Nat) : Res Bool := do
  let w ← readAt v.words (index pos)
  let w ← useInit w
  return decide (w &&& mask pos ≠ 0)

/-- `set`, vector_bit.cpp:28-34. -/
def set (v : BitVector) (pos : Nat) (value : Bool) : Res BitVector := do
  let w ← readAt v.words (index pos)
  let w ← useInit w
  let words ← writeAt v.words (index pos) (some (if value then w ||| mask pos else w &&& complement (mask pos)))
  return { v with words := words }

/-- `clear` (`ClearableViewDecorator`), sets all words to zero. -/
def clear (v : BitVector) : BitVector := { v with words := v.words.map (fun _ => some 0) }

/-- Operations on a bit vector. -/
inductive Op where
  | set (pos : Nat) (value : Bool)
  | clear

/-- Effect of an operation. -/
def apply (v : BitVector) : Op → Res BitVector
  | .set pos value => v.set pos value
  | .clear => .ok v.clear

end BitVector

end MLRL
