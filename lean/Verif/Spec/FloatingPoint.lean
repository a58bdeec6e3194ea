import Mathlib.Data.Int.Log
import Mathlib.Algebra.Order.Round
import Mathlib.Data.Rat.Floor

/-!
# Floating point formats and rounding (specification)

Independent of the code: IEEE 754 requires that the result of an operation is a number of the format that is as close to the exact result as possible.
-/

namespace MLRL.FloatingPoint

/-- The numbers of a binary format with `p` digits and least exponent `emin`, including subnormal numbers. There is no greatest exponent, overflows are treated separately. -/
def IsFloat (p : ℕ) (emin : ℤ) (x : ℚ) : Prop := ∃ m e : ℤ, |m| ≤ 2 ^ p ∧ emin ≤ e ∧ x = m * 2 ^ e

/-- Numbers of type `float32` (binary32). -/
abbrev IsFloat32 : ℚ → Prop := IsFloat 24 (-149)

/-- Numbers of type `float64` (binary64). -/
abbrev IsFloat64 : ℚ → Prop := IsFloat 53 (-1074)

/-- `rnd` rounds to a nearest number of a format. Nothing is required if two numbers are equally close. -/
structure Nearest (isFloat : ℚ → Prop) (rnd : ℚ → ℚ) : Prop where
  mem : ∀ x, isFloat (rnd x)
  nearest : ∀ x y, isFloat y → |x - rnd x| ≤ |x - y|

/-- Rounds to a nearest integer, to an even one if two integers are equally close. -/
def roundInt (q : ℚ) : ℤ :=
  if q - ⌊q⌋ < 1 / 2 then ⌊q⌋ else if 1 / 2 < q - ⌊q⌋ then ⌊q⌋ + 1 else if ⌊q⌋ % 2 = 0 then ⌊q⌋ else ⌊q⌋ + 1

/-- The exponent of the last digit of `x`. -/
def exponent (p : ℕ) (emin : ℤ) (x : ℚ) : ℤ := max (Int.log 2 |x| + 1 - p) emin

/-- The default rounding of IEEE 754, to nearest and ties to even. -/
def roundEven (p : ℕ) (emin : ℤ) (x : ℚ) : ℚ := roundInt (x / 2 ^ exponent p emin x) * 2 ^ exponent p emin x

end MLRL.FloatingPoint
