import Mathlib.Data.Rat.Floor
import Verif.Model.ParameterFiles

/-!
# Textual representations of durations

The durations are those reported by `train_time` and `predict_time`.  Floating-point numbers are modelled as rational
numbers, strings as lists of characters.
-/

namespace MLRL.Duration

open ParameterFiles (str)

/-- Python's `divmod` for numbers `a` and `b > 0`. -/
def divmod (a b : ℚ) : ℤ × ℚ := (⌊a / b⌋, a - b * ⌊a / b⌋)

/-- Python's `int`, which truncates toward zero. -/
def int (a : ℚ) : ℤ := if 0 ≤ a then ⌊a⌋ else ⌈a⌉

/-- Python's `str` for integers. -/
def strInt : ℤ → List Char
  | .ofNat n => str n
  | .negSucc n => '-' :: str (n + 1)

/-- The numbers of days, hours, minutes, seconds and milliseconds that are computed by `format_duration`,
python/subprojects/testbed/mlrl/testbed/format.py:29-37. -/
def fields (duration : ℚ) : ℤ × ℤ × ℤ × ℤ × ℤ :=
  let (seconds, millis) := divmod duration 1
  let millis := int (millis * 1000)
  let (days, seconds) := divmod seconds 86400
  let days := int days
  let (hours, seconds) := divmod seconds 3600
  let hours := int hours
  let (minutes, seconds) := divmod seconds 60
  let minutes := int minutes
  let seconds := int seconds
  (days, hours, minutes, seconds, millis)

/-- `str(days) + ' day' + ('' if days == 1 else 's')`, and so on, format.py:41, 44, 47, 50, 53. -/
def substring (n : ℤ) (unit : String) : List Char :=
  strInt n ++ unit.toList ++ (if n = 1 then [] else ['s'])

/-- The list `substrings` that is created by `format_duration`, format.py:38-53. -/
def substrings (duration : ℚ) : List (List Char) :=
  let (days, hours, minutes, seconds, millis) := fields duration
  let l := []
  let l := if days > 0 then l ++ [substring days " day"] else l
  let l := if hours > 0 then l ++ [substring hours " hour"] else l
  let l := if minutes > 0 then l ++ [substring minutes " minute"] else l
  let l := if seconds > 0 then l ++ [substring seconds " second"] else l
  if millis > 0 ∨ l.length = 0 then l ++ [substring millis " millisecond"] else l

/-- The call of `reduce` at the end of `format_duration`, format.py:55-57. -/
def join (l : List (List Char)) : List Char :=
  l.zipIdx.foldl
    (fun txt x => txt ++ (if txt.length > 0 then (if x.2 = l.length - 1 then " and ".toList else ", ".toList) else []) ++
      x.1) []

/-- `format_duration`, format.py:22-57. -/
def formatDuration (duration : ℚ) : List Char := join (substrings duration)

end MLRL.Duration
