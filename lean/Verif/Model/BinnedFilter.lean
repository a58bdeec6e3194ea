import Verif.Model.FeatureBinning
import Verif.Model.SearchBinned

/-!
# Model of how binned feature vectors are filtered

Source: `/repo/cpp/subprojects/common/src/mlrl/common/input/feature_vector_decorator_binned.hpp`.

The arrays of a feature vector are lists; a view that refers to the arrays of another vector, starting at a certain position, is a vector whose lists lack the
elements before this position. Coverage masks (C21) are functions that are applied to the indices of examples. Missing values are left out, as they are treated in
the same way as for other feature vectors (C60).
-/

namespace MLRL.BinnedFilter
open FeatureSpace FeatureBinning

/-- `createFilteredBinnedFeatureVectorView`, feature_vector_decorator_binned.hpp:15-33. The number of bins in line 21 is a difference of unsigned integers. -/
def filterInterval (v : BinnedVector) (interval : Interval) : Option BinnedVector :=
  match interval.open v.numBins with
  | (start, stop) =>
    if sub32 stop start > 0 then
      some ⟨v.thresholds.drop start, v.indices, v.indptr.drop start, sub32 stop start,
        if (if v.sparseBinIndex ≥ start then v.sparseBinIndex - start else 0) ≥ sub32 stop start then sub32 stop start - 1
        else (if v.sparseBinIndex ≥ start then v.sparseBinIndex - start else 0)⟩
    else none

/-- The variables in `createFilteredBinnedFeatureVectorDecorator`, lines 43-48. -/
structure MaskState where
  filtered : BinnedVector
  numFilteredBins : Nat
  numFilteredIndices : Nat

/-- The vector that is filtered. If an existing vector is overwritten (feature_vector_decorator.hpp:35-38), it is the same as the result. -/
def MaskState.source (v : BinnedVector) (inPlace : Bool) (s : MaskState) : BinnedVector := if inPlace then s.filtered else v

/-- Body of the inner loop, lines 57-62. -/
def maskIndex (v : BinnedVector) (inPlace : Bool) (covered : Nat → Bool) (first j : Nat) (s : MaskState) : Res MaskState := do
  let index ← readAt (s.source v inPlace).indices (first + j)
  let index ← useInit index
  if covered index then
    match writeAt s.filtered.indices s.numFilteredIndices (some index) with
    | .error e => .error e
    | .ok indices => .ok ⟨{ s.filtered with indices := indices }, s.numFilteredBins, s.numFilteredIndices + 1⟩
  else .ok s

/-- Lines 66-74, where `indptr` is the number of indices before the current bin. -/
def maskThreshold (v : BinnedVector) (inPlace : Bool) (i : Nat) (s : MaskState) : Res (List (Option ℚ)) :=
  if i < v.numBins - 1 then do
    let t ← readAt (s.source v inPlace).thresholds i
    let t ← useInit t
    writeAt s.filtered.thresholds s.numFilteredBins (some t)
  else .ok s.filtered.thresholds

/-- Lines 66-76. -/
def maskClose (v : BinnedVector) (inPlace : Bool) (i indptr : Nat) (s : MaskState) : Res MaskState := do
  let indptrs ← writeAt s.filtered.indptr s.numFilteredBins (some indptr)
  let thresholds ← maskThreshold v inPlace i s
  return ⟨⟨thresholds, s.filtered.indices, indptrs, s.filtered.numBins,
    if s.numFilteredBins ≥ s.filtered.sparseBinIndex then s.numFilteredBins else s.filtered.sparseBinIndex⟩, s.numFilteredBins + 1, s.numFilteredIndices⟩

/-- Body of the outer loop, lines 51-77. -/
def maskBin (v : BinnedVector) (inPlace : Bool) (covered : Nat → Bool) (i : Nat) (s : MaskState) : Res MaskState := do
  let first ← readAt (s.source v inPlace).indptr i
  let first ← useInit first
  let last ← readAt (s.source v inPlace).indptr (i + 1)
  let last ← useInit last
  let s' ← loop (sub32 last first) (maskIndex v inPlace covered first) s
  match decide (s'.numFilteredIndices > s.numFilteredIndices) with
  | true => maskClose v inPlace i s.numFilteredIndices s'
  | false => .ok s'

/-- The vector the result is written to: either the vector itself or one that is newly allocated, feature_vector_decorator.hpp:28-69 and lines 234-259. -/
def maskTarget (v : BinnedVector) (inPlace : Bool) : Res BinnedVector :=
  if inPlace then .ok v
  else do
    let numIndices ← readAt v.indptr v.numBins
    let numIndices ← useInit numIndices
    BinnedVector.init v.numBins numIndices v.sparseBinIndex

/-- `createFilteredBinnedFeatureVectorDecorator`, lines 36-86. The result is `none` if an `EqualFeatureVector` is returned. -/
def filterMask (v : BinnedVector) (inPlace : Bool) (covered : Nat → Bool) : Res (Option BinnedVector) := do
  let target ← maskTarget v inPlace
  let s ← loop v.numBins (maskBin v inPlace covered) ⟨target, 0, 0⟩
  match decide (s.numFilteredIndices > 0) with
  | true => (s.filtered.resize s.numFilteredBins s.numFilteredIndices).map some
  | false => .ok none

end MLRL.BinnedFilter
