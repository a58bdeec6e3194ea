import Mathlib.Data.Rat.Floor

/-!
# What the textual representation of a duration should tell
-/

namespace MLRL.Duration

/-- The number of complete milliseconds contained in a duration given in seconds. -/
def milliseconds (duration : ℚ) : ℕ := ⌊1000 * duration⌋.toNat

/-- A quantity in decimal notation, together with its unit in the singular or plural. -/
def quantity (n : ℕ) (unit : String) : List Char :=
  Nat.toDigits 10 n ++ ' ' :: (if n = 1 then unit.toList else unit.toList ++ ['s'])

/-- The quantities a number of milliseconds consists of, omitting those that are zero. -/
def quantities (t : ℕ) : List (List Char) :=
  if t = 0 then [quantity 0 "millisecond"] else
    [(t / 86400000, "day"), (t / 3600000 % 24, "hour"), (t / 60000 % 60, "minute"), (t / 1000 % 60, "second"),
      (t % 1000, "millisecond")].filterMap fun (n, unit) => if n = 0 then none else some (quantity n unit)

/-- An enumeration: commas are used between all but the last two elements, which are separated by "and". -/
def enumeration : List (List Char) → List Char
  | [] => []
  | [x] => x
  | [x, y] => x ++ " and ".toList ++ y
  | x :: y :: z :: l => x ++ ", ".toList ++ enumeration (y :: z :: l)

/-- What somebody who reads a text from left to right knows: the number of milliseconds read so far, and the number whose
unit has not been read yet. -/
def read : ℕ × Option ℕ → Char → ℕ × Option ℕ
  | (t, n), c =>
    if c.isDigit then (t, some (10 * n.getD 0 + (c.toNat - '0'.toNat)))
    else match n with
      | none => (t, none)
      | some k =>
        if c = 'd' then (t + 86400000 * k, none)
        else if c = 'h' then (t + 3600000 * k, none)
        else if c = 's' then (t + 1000 * k, none)
        -- "minute" and "millisecond" are distinguished by their third character
        else if c = 'n' then (t + 60000 * k, none)
        else if c = 'l' then (t + k, none)
        else (t, some k)

/-- The number of milliseconds according to a text. -/
def reading (text : List Char) : ℕ := (text.foldl read (0, none)).1

end MLRL.Duration
