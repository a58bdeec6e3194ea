import Verif.Base
import Mathlib.Analysis.SpecialFunctions.Pow.Real
import Mathlib.Analysis.SpecialFunctions.Log.Basic

/-!
# Model of lift functions

Sources: `seco/src/mlrl/seco/lift_functions/lift_function_{no,kln,peak}.cpp`.

Floating point numbers are real numbers (exact arithmetic); the result of a computation is `none` if it is not a number.
-/

namespace MLRL.Seco

noncomputable section

/-- `NoLiftFunction::calculateLift`, lift_function_no.cpp:11-13. -/
def noLift (_numLabels : Nat) : ℝ := 1

/-- `NoLiftFunction::getMaxLift`, lift_function_no.cpp:15-17. -/
def noMaxLift (_numLabels : Nat) : ℝ := 1

/-- `calculateLiftInternally`, lift_function_kln.cpp:7-9, and `KlnLiftFunction::calculateLift`, lift_function_kln.cpp:31-33. -/
def klnLift (k : ℝ) (numLabels : Nat) : ℝ := 1 + (k * Real.log (numLabels : ℝ))

/-- `KlnLiftFunction::getMaxLift`, lift_function_kln.cpp:35-37: a member that is calculated once from the total number of labels
(lift_function_kln.cpp:58-59 and 80-81). -/
def klnMaxLift (k : ℝ) (total : Nat) (_numLabels : Nat) : ℝ := klnLift k total

/-- The function `pow` of the C library: not a number if the base is negative and the exponent is not an integer. -/
def cPow (base exponent : ℝ) : Option ℝ :=
  if 0 ≤ base then some (base ^ exponent)
  else if ((⌊exponent⌋ : ℤ) : ℝ) = exponent then some (base ^ (⌊exponent⌋ : ℤ))
  else none

/-- The variable `normalization`, lift_function_peak.cpp:15-22. -/
def normalization (numLabels total peak : Nat) : ℝ :=
  if numLabels < peak then ((numLabels : ℝ) - 1) / ((peak : ℝ) - 1)
  else ((numLabels : ℝ) - (total : ℝ)) / ((total : ℝ) - (peak : ℝ))

/-- `calculateLiftInternally`, lift_function_peak.cpp:10-26. -/
def peakLiftInternally (numLabels total peak : Nat) (maxLift exponent : ℝ) : Option ℝ :=
  if numLabels = peak then some maxLift
  else (cPow (normalization numLabels total peak) exponent).map (fun p => 1 + p * (maxLift - 1))

/-- The members of `PeakLiftFunction` and of its factory, lift_function_peak.cpp:82-90. -/
structure Peak where
  total : Nat
  peak : Nat
  maxLift : ℝ
  curvature : ℝ

/-- The array `maxLiftsAfterPeak_`, lift_function_peak.cpp:101-108. -/
def Peak.maxLiftsAfterPeak (f : Peak) : List (Option ℝ) :=
  (List.range (f.total - f.peak)).map (fun i => peakLiftInternally (i + f.peak) f.total f.peak f.maxLift f.curvature)

/-- `PeakLiftFunction::calculateLift`, lift_function_peak.cpp:62-64, with the exponent that is set in the constructor, lift_function_peak.cpp:59. -/
def Peak.lift (f : Peak) (numLabels : Nat) : Option ℝ := peakLiftInternally numLabels f.total f.peak f.maxLift (1 / f.curvature)

/-- `PeakLiftFunction::getMaxLift`, lift_function_peak.cpp:66-72. -/
def Peak.getMaxLift (f : Peak) (numLabels : Nat) : Res (Option ℝ) :=
  if numLabels < f.peak then .ok (some f.maxLift)
  else readAt f.maxLiftsAfterPeak (numLabels - f.peak)

/-- `PeakLiftFunctionConfig::createLiftFunctionFactory`, lift_function_peak.cpp:148-161; the label cardinality, rounded to the nearest integer, is
a parameter. -/
def Peak.create (numLabels peak : Nat) (maxLift curvature : ℝ) (labelCardinality : Nat) : Peak :=
  { total := numLabels, peak := if peak > 0 then min numLabels peak else max labelCardinality 1, maxLift := maxLift, curvature := curvature }

end

end MLRL.Seco
