import Verif.Base

/-!
# Model of the feature vectors and of the coverage mask

Sources, all below `/repo/cpp/subprojects/common`: `include/mlrl/common/input/interval.hpp`,
`src/mlrl/common/input/feature_vector_decorator*.hpp`, `src/mlrl/common/input/feature_vector_equal.cpp`,
`src/mlrl/common/rule_refinement/coverage_mask.cpp`.

Binned feature vectors (`feature_vector_decorator_binned.hpp`) are not part of this file.
-/

namespace MLRL.FeatureSpace

/-- `Interval`, interval.hpp:11-53. -/
structure Interval where
  start : Nat
  stop : Nat
  inverse : Bool
  deriving DecidableEq, Repr

/-- `getStartAndEndOfOpenInterval`, interval.hpp:63-85. -/
def Interval.open (i : Interval) (maxIndex : Nat) : Nat × Nat :=
  if i.inverse then
    if i.start > 0 then (0, i.start) else (i.stop, maxIndex)
  else
    if i.start > 0 then (i.start, maxIndex) else (i.start, i.stop)

/-- The kinds of feature vectors that consist of one bin of examples per value. -/
inductive NominalKind where
  | nominal
  | ordinal
  | binary
  deriving DecidableEq, Repr

/-- The feature vectors a learner works with. The C++ classes that only differ in who owns the memory (decorator, view, allocated
view) are not distinguished. An example that occurs neither in the entries/bins nor among the missing ones has the sparse value
(numerical, if `sparse`) or the majority value (nominal, ordinal, binary).

* `equal`: `EqualFeatureVector`;
* `numerical`: `NumericalFeatureVector` (pairs of index and value) and the set of examples with missing values;
* `nominal`: `NominalFeatureVector` (per bin a value and the indices of the examples) and the set of examples with missing
  values. The compressed representation of the bins by offsets (`indptr`) is abstracted to a list of lists. -/
inductive FeatureVector where
  | equal
  | numerical (entries : List (Nat × Rat)) (sparseValue : Rat) (sparse : Bool) (missing : List Nat)
  | nominal (kind : NominalKind) (bins : List (Int × List Nat)) (majorityValue : Int) (missing : List Nat)
  deriving DecidableEq, Repr

/-- The missing values stored along with a feature vector. -/
def FeatureVector.missing : FeatureVector → List Nat
  | .equal => []
  | .numerical _ _ _ m => m
  | .nominal _ _ _ m => m

/-- Reading the elements at the positions `start, ..., stop - 1` of an array; undefined behaviour if one of them does not exist. -/
def readRange {α : Type} (a : List α) (start stop : Nat) : Res (List α) :=
  if start < stop then
    if stop ≤ a.length then .ok ((a.drop start).take (stop - start)) else .error .outOfBounds
  else .ok []

/-- `CoverageMask`, coverage_mask.cpp. -/
structure CoverageMask where
  array : List Nat
  indicatorValue : Nat
  deriving DecidableEq, Repr

/-- Constructor, coverage_mask.cpp:6-7: all elements are zero. -/
def CoverageMask.create (numElements : Nat) : CoverageMask :=
  { array := List.replicate numElements 0, indicatorValue := 0 }

/-- `reset`, coverage_mask.cpp:15-18. -/
def CoverageMask.reset (m : CoverageMask) : CoverageMask := CoverageMask.create m.array.length

/-- `operator[]`, coverage_mask.cpp:20-22. -/
def CoverageMask.isCovered (m : CoverageMask) (i : Nat) : Res Bool := do
  let x ← readAt m.array i
  return x == m.indicatorValue

/-- The indices in the bins or entries `[start, stop)` of a feature vector in the order in which the loops in
feature_vector_decorator_numerical.hpp:101-105,115-119 and feature_vector_decorator_binned_common.hpp:23-33,43-53 visit them. -/
def FeatureVector.examplesIn (start stop : Nat) : FeatureVector → Res (List Nat)
  | .equal => .error .exception
  | .numerical entries _ _ _ => do
    let l ← readRange entries start stop
    return l.map Prod.fst
  | .nominal _ bins _ _ => do
    let l ← readRange bins start stop
    return l.flatMap Prod.snd

/-- Visiting a list of examples: each one's element of the mask is set to `indicator` and the example is added to (or removed
from) the statistics that are marked as covered. -/
def markAll {M : Type} (upd : M → Nat → M) (indicator : Nat) : List Nat → List Nat × M → Res (List Nat × M)
  | [], s => .ok s
  | e :: es, (array, total) => do
    let array ← writeAt array e indicator
    markAll upd indicator es (array, upd total e)

/-- `updateCoverageMaskAndStatistics`, feature_vector_decorator_numerical.hpp:92-121,
feature_vector_decorator_binned_common.hpp:12-55 and feature_vector_decorator.hpp:13-26 (missing values);
`EqualFeatureVector` throws an exception (feature_vector_equal.cpp). The statistics that are marked as covered are represented by
their sum, `stat e` is the (weighted) statistic of example `e`: `addCoveredStatistic` adds it, `removeCoveredStatistic` subtracts
it, `resetCoveredStatistics` sets the sum to zero (statistics_common.hpp:421-435 of the boosting library). -/
def FeatureVector.updateCoverage {M : Type} [Zero M] [Add M] [Sub M] (stat : Nat → M) (v : FeatureVector) (i : Interval)
    (indicator : Nat) (mask : CoverageMask) (total : M) : Res (CoverageMask × M) := do
  let l ← v.examplesIn i.start i.stop
  if i.inverse then
    let s ← markAll (fun t e => t - stat e) indicator l (mask.array, total)
    let s ← markAll (fun t e => t - stat e) indicator v.missing s
    return ({ mask with array := s.1 }, s.2)
  else
    let s ← markAll (fun t e => t + stat e) indicator l (mask.array, 0)
    return ({ array := s.1, indicatorValue := indicator }, s.2)

/-- `createFilteredFeatureVector(existing, interval)`: feature_vector_decorator_numerical.hpp:15-32,
feature_vector_decorator_nominal.hpp:13-73, feature_vector_decorator_ordinal.hpp:14-30, feature_vector_decorator_binary.hpp:49-52;
`EqualFeatureVector` throws an exception.

* `isEqual` is the comparison of floating point values (types.hpp:24-53).
* `existing` tells whether the vector is owned by the cache of the subspace (as opposed to the original vector of the feature):
  only then a nominal vector is modified in place and keeps its missing values.
* Views into an array are copied; the condition that they lie within the array is checked by `readRange`.
* `numFilteredElements = end - start` does not wrap around because `start ≤ end` holds for every interval a refinement search
  produces; the model uses the truncated subtraction. -/
def FeatureVector.filterInterval (isEqual : Rat → Rat → Bool) (existing : Bool) (i : Interval) :
    FeatureVector → Res FeatureVector
  | .equal => .error .exception
  | .numerical entries sv sparse _ => do
    let start := (i.open entries.length).1
    let stop := (i.open entries.length).2
    if stop - start > 0 then
      if sparse then
        let l ← readRange entries start stop
        return .numerical l sv sparse []
      else
        let a ← readAt entries start
        let b ← readAt entries (stop - start - 1)
        if isEqual a.2 b.2 then
          return .equal
        else
          let l ← readRange entries start stop
          return .numerical l sv sparse []
    else
      return .equal
  | .nominal .nominal bins mv missing =>
    if i.inverse then do
      let a ← readRange bins 0 i.start
      let b ← readRange bins i.stop bins.length
      if ((a ++ b).flatMap Prod.snd).length > 0 then
        return .nominal .nominal (a ++ b) mv (if existing then missing else [])
      else
        return .equal
    else
      return .equal
  | .nominal .ordinal bins mv _ => do
    let start := (i.open bins.length).1
    let stop := (i.open bins.length).2
    if stop - start > 0 then
      let l ← readRange bins start stop
      return .nominal .ordinal l mv []
    else
      return .equal
  | .nominal .binary _ _ _ => return .equal

/-- The elements of a list whose examples the mask marks as covered. -/
def filterCovered {α : Type} (mask : CoverageMask) (example_ : α → Nat) : List α → Res (List α)
  | [] => .ok []
  | x :: xs => do
    let c ← mask.isCovered (example_ x)
    let ys ← filterCovered mask example_ xs
    return if c then x :: ys else ys

/-- The bins with at least one covered example, feature_vector_decorator_nominal_common.hpp:26-46. -/
def filterBins (mask : CoverageMask) : List (Int × List Nat) → Res (List (Int × List Nat))
  | [] => .ok []
  | (value, indices) :: bins => do
    let l ← filterCovered mask id indices
    let rest ← filterBins mask bins
    return if l.length > 0 then (value, l) :: rest else rest

/-- `createFilteredFeatureVector(existing, coverageMask)`: feature_vector_decorator.hpp:28-69 (missing values),
feature_vector_decorator_numerical.hpp:34-63, feature_vector_decorator_nominal_common.hpp:11-54; an `EqualFeatureVector` is
returned unchanged. -/
def FeatureVector.filterMask (isEqual : Rat → Rat → Bool) (mask : CoverageMask) : FeatureVector → Res FeatureVector
  | .equal => return .equal
  | .numerical entries sv sparse missing => do
    let m ← filterCovered mask id missing
    let l ← filterCovered mask Prod.fst entries
    match l with
    | [] => return .equal
    | x :: xs =>
      if sparse then
        return .numerical l sv sparse m
      else if isEqual x.2 ((x :: xs).getLast (by simp)).2 then
        return .equal
      else
        return .numerical l sv sparse m
  | .nominal kind bins mv missing => do
    let m ← filterCovered mask id missing
    let l ← filterBins mask bins
    if (l.flatMap Prod.snd).length > 0 then
      return .nominal kind l mv m
    else
      return .equal

end MLRL.FeatureSpace
