import Verif.Model.RuleEval
import Verif.Model.Sampling

/-!
# Model of equal-width label binning and of the rule evaluations that make use of it

Sources (cpp/subprojects/boosting/src/mlrl/boosting):
* binning/label_binning_equal_width.cpp
* rule_evaluation/rule_evaluation_decomposable_binned_common.hpp
* rule_evaluation/rule_evaluation_decomposable_partial_fixed_binned.cpp and ..._partial_dynamic_binned.cpp

Floating point numbers are rational numbers. `none` stands for a floating point value that is not finite.
-/

namespace MLRL.LabelBinning

open RuleEval Sampling

/-- The members of `EqualWidthLabelBinning`, label_binning_equal_width.cpp:19-25. -/
structure Config where
  binRatio : Rat
  minBins : Nat
  maxBins : Nat

/-- `getMaxBins`, label_binning_equal_width.cpp:40-42. -/
def Config.getMaxBins (cfg : Config) (numLabels : Nat) : Nat :=
  calculateBoundedFraction numLabels cfg.binRatio cfg.minBins cfg.maxBins + 1

/-- The members `minNegative`, `maxNegative`, `minPositive` and `maxPositive` of `LabelInfo`, label_binning.hpp:21-53. `none` stands for
an infinite value. -/
structure Ranges where
  minNegative : Rat
  maxNegative : Option Rat
  minPositive : Option Rat
  maxPositive : Rat
deriving DecidableEq, Repr

/-- `LabelInfo`, label_binning.hpp:21-53. The ranges are not initialised if there are no criteria. -/
structure LabelInfo where
  numNegativeBins : Nat
  numPositiveBins : Nat
  ranges : Option Ranges
deriving DecidableEq, Repr

/-- The body of the loop in `getLabelInfo`, label_binning_equal_width.cpp:56-78. The state consists of the number of negative and positive
criteria and the ranges. -/
def visit (s : Nat × Nat × Ranges) (criterion : Rat) : Nat × Nat × Ranges :=
  if criterion < 0 then
    (s.1 + 1, s.2.1, { s.2.2 with
      minNegative := if criterion < s.2.2.minNegative then criterion else s.2.2.minNegative
      maxNegative := match s.2.2.maxNegative with
        | none => some criterion
        | some m => if criterion > m then some criterion else some m })
  else if criterion > 0 then
    (s.1, s.2.1 + 1, { s.2.2 with
      minPositive := match s.2.2.minPositive with
        | none => some criterion
        | some m => if criterion < m then some criterion else some m
      maxPositive := if criterion > s.2.2.maxPositive then criterion else s.2.2.maxPositive })
  else s

/-- Lines 81-84 and 86-89 of `getLabelInfo`, label_binning_equal_width.cpp. -/
def Config.numBins (cfg : Config) (n : Nat) : Nat :=
  if n > 0 then calculateBoundedFraction n cfg.binRatio cfg.minBins cfg.maxBins else n

/-- `getLabelInfo`, label_binning_equal_width.cpp:44-93. The list contains the first `numCriteria` elements of the array. -/
def Config.getLabelInfo (cfg : Config) (criteria : List Rat) : LabelInfo :=
  if criteria.length > 0 then
    let s := criteria.foldl visit (0, 0, ⟨0, none, none, 0⟩)
    ⟨cfg.numBins s.1, cfg.numBins s.2.1, some s.2.2⟩
  else ⟨0, 0, none⟩

/-- A floating point division; the result is not finite if the denominator is zero or one of the operands is not finite. -/
def floatDiv (a b : Option Rat) : Option Rat :=
  match a, b with
  | some x, some y => if y = 0 then none else some (x / y)
  | _, _ => none

/-- `static_cast<uint32>(std::floor(x))`. -/
def castFloor (x : Option Rat) : Res Nat :=
  match x with
  | none => .error .badCast
  | some x => if 0 ≤ ⌊x⌋ ∧ ⌊x⌋ < 2 ^ 32 then .ok ⌊x⌋.toNat else .error .badCast

/-- The index of the bin a criterion is assigned to, given the smallest criterion, the width of bins and their number,
label_binning_equal_width.cpp:111-116 and 120-125. -/
def binIndex (criterion : Rat) (smallest : Option Rat) (span : Option Rat) (numBins : Nat) : Res Nat := do
  let index ← castFloor (floatDiv (smallest.map (criterion - ·)) span)
  return if index ≥ numBins then numBins - 1 else index

/-- Lines 104 and 105 of `createBins`, label_binning_equal_width.cpp. -/
def Ranges.spanNegative (r : Ranges) (numNegativeBins : Nat) : Option Rat :=
  if r.minNegative < 0 then floatDiv (r.maxNegative.map (· - r.minNegative)) (some numNegativeBins) else some 0

@[inherit_doc Ranges.spanNegative]
def Ranges.spanPositive (r : Ranges) (numPositiveBins : Nat) : Option Rat :=
  if r.maxPositive > 0 then floatDiv (r.minPositive.map (r.maxPositive - ·)) (some numPositiveBins) else some 0

/-- The index that is passed to the callback for a criterion, or `none` if the zero callback is invoked,
label_binning_equal_width.cpp:110-130. -/
def LabelInfo.binOf (info : LabelInfo) (criterion : Rat) : Res (Option Nat) := do
  let r ← useInit info.ranges
  if criterion < 0 then do
    let index ← binIndex criterion (some r.minNegative) (r.spanNegative info.numNegativeBins) info.numNegativeBins
    return some index
  else if criterion > 0 then do
    let index ← binIndex criterion r.minPositive (r.spanPositive info.numPositiveBins) info.numPositiveBins
    return some (info.numNegativeBins + index)
  else
    return none

/-- `createBins`, label_binning_equal_width.cpp:95-132. The ranges are used before the loop (lines 104-105). -/
def LabelInfo.createBins {σ : Type} (info : LabelInfo) (criteria : List Rat) (callback : Nat → Nat → σ → Res σ)
    (zeroCallback : Nat → σ → Res σ) (s : σ) : Res σ := do
  let _ ← useInit info.ranges
  loop criteria.length (fun i s => do
    let criterion ← readAt criteria i
    let index ← info.binOf criterion
    match index with
    | some b => callback b i s
    | none => zeroCallback i s) s

/-! ### Rule evaluation -/

/-- `aggregatedStatisticVector_`, `numElementsPerBin_` and the arrays of `scoreVector_`,
rule_evaluation_decomposable_binned_common.hpp:59-75. They keep the content of previous calls. -/
structure Arrays where
  statistics : List (Stat Rat)
  numElementsPerBin : List Nat
  binIndices : List Nat
  binValues : List Rat
deriving DecidableEq, Repr

/-- `operator+=` of tuples. -/
def addStat (a b : Stat Rat) : Stat Rat := ⟨a.gradient + b.gradient, a.hessian + b.hessian⟩

/-- `setViewToZeros`, view_functions.hpp:20-23. -/
def setZeros {α : Type} (zero : α) (a : List α) (n : Nat) : Res (List α) := loop n (fun i a => writeAt a i zero) a

/-- `callback`, rule_evaluation_decomposable_binned_common.hpp:145-149. -/
def onBin (stats : List (Stat Rat)) (bin label : Nat) (a : Arrays) : Res Arrays := do
  let x ← readAt a.statistics bin
  let t ← readAt stats label
  let statistics ← writeAt a.statistics bin (addStat x t)
  let n ← readAt a.numElementsPerBin bin
  let numElementsPerBin ← writeAt a.numElementsPerBin bin (n + 1)
  let binIndices ← writeAt a.binIndices label bin
  return { a with statistics := statistics, numElementsPerBin := numElementsPerBin, binIndices := binIndices }

/-- `zeroCallback`, rule_evaluation_decomposable_binned_common.hpp:150-152. -/
def onZero (maxBins label : Nat) (a : Arrays) : Res Arrays := do
  let binIndices ← writeAt a.binIndices label maxBins
  return { a with binIndices := binIndices }

/-- `calculateBinnedScores`, rule_evaluation_decomposable_binned_common.hpp:28-46. -/
def calculateBinnedScores (statistics : List (Stat Rat)) (weights : List Nat) (numBins : Nat) (l1 l2 : Rat) (values : List Rat) :
    Res (List Rat × Rat) :=
  loop numBins (fun i (r : List Rat × Rat) => do
    let weight ← readAt weights i
    let t ← readAt statistics i
    let score := t.score (weight * l1) (weight * l2)
    let values ← writeAt r.1 i score
    return (values, r.2 + t.quality (weight * l1) (weight * l2) score)) (values, 0)

/-- `AbstractDecomposableBinnedRuleEvaluation::calculateScores`, rule_evaluation_decomposable_binned_common.hpp:125-162, given the criteria
(`calculateOutputWiseCriteria`). Returns the arrays and the quality. `setNumBins` (line 134) does not change the arrays unless there are
more bins than `maxBins + 1`, in which case `setViewToZeros` leaves the array of statistics. -/
def binnedScores (cfg : Config) (maxBins : Nat) (l1 l2 : Rat) (criteria : List Rat) (stats : List (Stat Rat)) (a : Arrays) :
    Res (Arrays × Rat) := do
  let info := cfg.getLabelInfo criteria
  let numBins := info.numPositiveBins + info.numNegativeBins
  let statistics ← setZeros ⟨0, 0⟩ a.statistics numBins
  let numElementsPerBin ← setZeros 0 a.numElementsPerBin numBins
  let a ← info.createBins criteria (onBin stats) (onZero maxBins)
    { a with statistics := statistics, numElementsPerBin := numElementsPerBin }
  let r ← calculateBinnedScores a.statistics a.numElementsPerBin numBins l1 l2 a.binValues
  return ({ a with binValues := r.1 }, r.2)

/-- `DecomposableCompleteBinnedRuleEvaluation`: the criteria are the scores of all outputs,
rule_evaluation_decomposable_binned_common.hpp:179-191. -/
def completeBinned (cfg : Config) (maxBins : Nat) (l1 l2 : Rat) (stats : List (Stat Rat)) (a : Arrays) : Res (Arrays × Rat) :=
  binnedScores cfg maxBins l1 l2 (stats.map (fun t => t.score l1 l2)) stats a

/-- `DecomposableFixedPartialBinnedRuleEvaluation`: the criteria are the scores of the outputs with the largest absolute scores,
rule_evaluation_decomposable_partial_fixed_binned.cpp:30-48. Returns the indices of these outputs as well. `labels` are the indices of
the outputs, `partialSort` is as in `RuleEval.fixed`. -/
def fixedBinned (cfg : Config) (maxBins : Nat) (partialSort : Nat → List (Nat × Rat) → List (Nat × Rat)) (l1 l2 : Rat) (labels : List Nat)
    (numPredictions : Nat) (stats : List (Stat Rat)) (a : Arrays) : Res (List Nat × Arrays × Rat) := do
  if stats.length < numPredictions then .error .outOfBounds else do
  let chosen := (partialSort numPredictions (stats.zipIdx.map (fun p => (p.2, p.1.score l1 l2)))).take numPredictions
  let indices ← chosen.mapM (fun entry => readAt labels entry.1)
  let r ← binnedScores cfg maxBins l1 l2 (chosen.map Prod.snd) stats a
  return (indices, r.1, r.2)

/-- `DecomposableDynamicPartialBinnedRuleEvaluation`: the criteria are the scores that reach the threshold,
rule_evaluation_decomposable_partial_dynamic_binned.cpp:32-59. -/
def dynamicBinned (cfg : Config) (maxBins : Nat) (pow : Rat → Rat) (threshold l1 l2 : Rat) (labels : List Nat) (stats : List (Stat Rat))
    (a : Arrays) : Res (List Nat × Arrays × Rat) := do
  let pair ← getMinAndMaxScore l1 l2 stats
  let limit := calculateThreshold pow pair.1 pair.2 (1 - threshold)
  let chosen := (stats.zipIdx.map (fun p => (p.2, p.1.score l1 l2))).filter
    (fun p => decide (calculateWeightedScore pow p.2 pair.1 ≥ limit))
  let indices ← chosen.mapM (fun entry => readAt labels entry.1)
  let r ← binnedScores cfg maxBins l1 l2 (chosen.map Prod.snd) stats a
  return (indices, r.1, r.2)

end MLRL.LabelBinning
