import Verif.Base
import Verif.Model.FloatingPoint

/-!
# Model of equal-width binning with rounding

Sources: cpp/subprojects/common/src/mlrl/common/input/feature_binning_equal_width.cpp (`float32`) and
cpp/subprojects/boosting/src/mlrl/boosting/binning/label_binning_equal_width.cpp (`float64`). The format is given by a function `rnd` that rounds and by the greatest finite number
`maxFinite`; a value of type `Option ℚ` is `none` if it is infinite. The exact counterparts are modelled in `Verif/Model/FeatureBinning.lean` and `Verif/Model/LabelBinning.lean`.
-/

namespace MLRL.FloatingPoint

/-- A value that is infinite if it exceeds the greatest finite number. -/
def finite (maxFinite x : ℚ) : Option ℚ := if |x| ≤ maxFinite then some x else none

/-- The width of the bins, feature_binning_equal_width.cpp:52 and label_binning_equal_width.cpp:104-105. Both arguments of the division are of the same type, i.e. the number of bins
is converted. A positive infinite number remains infinite if it is divided. -/
def binWidth (rnd : ℚ → ℚ) (maxFinite min max : ℚ) (numBins : Nat) : Option ℚ :=
  (finite maxFinite (rnd (max - min))).map fun span => rnd (span / rnd numBins)

/-- The index of a bin, `getBinIndex` in feature_binning_equal_width.cpp:38-41 and the bodies of the loop in label_binning_equal_width.cpp:111-116, 120-125. The conversion into an
integer is undefined if the quotient is infinite, not a number or not in range. -/
def getBinIndex (rnd : ℚ → ℚ) (maxFinite value min : ℚ) (width : Option ℚ) (numBins : Nat) : Res Nat :=
  match finite maxFinite (rnd (value - min)), width with
  | some difference, some width =>
    if width = 0 then .error .badCast
    else
      let quotient := rnd (difference / width)
      if 0 ≤ ⌊quotient⌋ ∧ ⌊quotient⌋ < 2 ^ 32 then
        .ok (if ⌊quotient⌋.toNat ≥ numBins then numBins - 1 else ⌊quotient⌋.toNat)
      else .error .badCast
  | some _, none => .ok (if 0 ≥ numBins then numBins - 1 else 0)
  | none, _ => .error .badCast

/-- The threshold of a bin, if no bin is removed, feature_binning_equal_width.cpp:81. -/
def binThreshold (rnd : ℚ → ℚ) (min width : ℚ) (i : Nat) : ℚ := rnd (min + rnd (rnd ((i + 1 : Nat) : ℚ) * width))

end MLRL.FloatingPoint
