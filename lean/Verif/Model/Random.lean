import Verif.Base

/-!
# Model of the random number generator

Source: `common/src/mlrl/common/random/rng.cpp`. The state is a `uint32`.
-/

namespace MLRL

/-- A random number generator with states of type `S`: `randomInt min max` returns a number and the new state. -/
structure Rng (S : Type) where
  randomInt : Nat → Nat → S → Res (Nat × S)

namespace XorShift

/-- `MAX_RANDOM`, rng.cpp:5. -/
def maxRandom : Nat := 0x7FFFFFFF

/-- rng.cpp:12-14. -/
def fixZero (s : Nat) : Nat := if s = 0 then 1 else s

/-- `s ^= static_cast<uint32>(s << k)`, rng.cpp:16 and 18. -/
def xorShiftLeft (k s : Nat) : Nat := s ^^^ ((s <<< k) % 2 ^ 32)

/-- `s ^= static_cast<uint32>(s >> k)`, rng.cpp:17. -/
def xorShiftRight (k s : Nat) : Nat := s ^^^ (s >>> k)

/-- The new state, rng.cpp:12-18. -/
def next (s : Nat) : Nat := xorShiftLeft 5 (xorShiftRight 17 (xorShiftLeft 13 (fixZero s)))

/-- `RNG::randomInt`, rng.cpp:9-22. Arithmetic is modulo `2^32`; the remainder by `0` is undefined. -/
def randomInt (min max s : Nat) : Res (Nat × Nat) := do
  let s := next s
  let randomNumber := s % (maxRandom + 1)
  let r ← modAt randomNumber ((max + 2 ^ 32 - min) % 2 ^ 32)
  return ((min + r) % 2 ^ 32, s)

/-- `RNG::randomBool`, rng.cpp:24-26. -/
def randomBool (s : Nat) : Res (Bool × Nat) := do
  let (r, s) ← randomInt 0 2 s
  return (decide (r ≠ 0), s)

/-- The generator that is used by the library. -/
def rng : Rng Nat := { randomInt := randomInt }

end XorShift

end MLRL
