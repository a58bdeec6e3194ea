import Mathlib.Data.Int.Log
import Mathlib.Algebra.Order.Round
import Mathlib.Data.Rat.Floor

/-!
# Model of functions that depend on the rounding of floating point numbers

Sources (cpp/subprojects/common): `include/mlrl/common/util/math.hpp` (`arithmeticMean`, `calculateBoundedFraction`) and `include/mlrl/common/data/types.hpp` (`isEqual`).

In other modules, numbers are exact. Here, the results of floating point operations are rounded. The functions `rnd32` and `rnd64`, which round to the formats binary32 and
binary64 of IEEE 754, are parameters. Positive and negative zero are not distinguished.
-/

namespace MLRL.FloatingPoint

/-- The greatest finite number of type `float32`. -/
def maxFloat32 : ℚ := (2 ^ 24 - 1) * 2 ^ 104

/-- The result of an operation, if it is finite, or `none`, if it is infinite. -/
def finite32 (x : ℚ) : Option ℚ := if |x| ≤ maxFloat32 then some x else none

/-- `isEqual` for values of type `float32`, types.hpp:37-40. `epsilon` is `2^-23`. As the first argument of `std::fmax` is an integer, the right hand side is of type `float64`
and exact. -/
def isEqual (rnd32 : ℚ → ℚ) (a b : ℚ) : Bool := decide (|rnd32 (a - b)| ≤ (1 / 2 ^ 23) * max 1 (max |a| |b|))

/-- `arithmeticMean` for values of type `float32`, math.hpp:34-37. As `0.5` is of type `float64`, the difference is converted into this type before it is multiplied and the sum is
converted back in the end. The result is `none` if a value is infinite. -/
def arithmeticMean (rnd32 rnd64 : ℚ → ℚ) (small large : ℚ) : Option ℚ := do
  let difference ← finite32 (rnd32 (large - small))
  finite32 (rnd32 (rnd64 (small + rnd64 (difference * (1 / 2)))))

/-- The conversion of `fraction * n`, where `n` is of type `uint32`, into an integer in math.hpp:68 (`calculateBoundedFraction`). -/
def ceilFraction (rnd32 : ℚ → ℚ) (fraction : ℚ) (n : Nat) : Nat := ⌈rnd32 (fraction * rnd32 n)⌉₊

/-- The conversion of `fraction * n` in common/src/mlrl/common/sampling/partition_sampling_bi_random.cpp:52, which truncates the result. -/
def truncFraction (rnd32 : ℚ → ℚ) (fraction : ℚ) (n : Nat) : Nat := ⌊rnd32 (fraction * rnd32 n)⌋₊

/-- `calculateBoundedFraction`, math.hpp:66-84. -/
def calculateBoundedFraction (rnd32 : ℚ → ℚ) (n : Nat) (fraction : ℚ) (minimum maximum : Nat) : Nat :=
  let result := ceilFraction rnd32 fraction n
  let min := if minimum > n then n else minimum
  if result < min then min
  else if maximum ≥ minimum ∧ result > maximum then maximum
  else result

end MLRL.FloatingPoint
