import Verif.Model.BinnedFilter
import Verif.Spec.FeatureBinning
import Verif.Spec.SearchBinned

/-!
# Specification of how binned feature vectors are filtered
-/

namespace MLRL.Search

/-- Lists of examples and thresholds that are stored by a binned feature vector. A view may have access to further thresholds. -/
structure Decoded (v : FeatureBinning.BinnedVector) (bins : List (List Nat)) (thresholds : List Rat) : Prop where
  numBins : bins.length = v.numBins
  numThresholds : thresholds.length + 1 = bins.length
  thresholds : v.thresholds.take thresholds.length = thresholds.map some
  stored : ∀ (b : Nat) (l : List Nat), bins[b]? = some l → FeatureBinning.Spec.Stored v b l

end MLRL.Search

namespace MLRL.BinnedFilter.Spec

/-- The bins that contain covered examples, together with their original positions. -/
def kept {α : Type} (covered : α → Bool) (bins : List (List α)) : List (Nat × List α) :=
  (bins.zipIdx.map (fun p => (p.2, p.1.filter covered))).filter (fun p => !p.2.isEmpty)

/-- Bins and thresholds, after removing all examples that are not covered, as well as bins that are empty afterwards. The threshold between two of the remaining
bins is the one that originally followed the first one. -/
structure Masked (covered : Nat → Bool) (bins : List (List Nat)) (thresholds : List Rat) (bins' : List (List Nat)) (thresholds' : List Rat) : Prop where
  remaining : bins' = (kept covered bins).map Prod.snd
  numThresholds : thresholds'.length + 1 = bins'.length
  between : ∀ (k : Nat) (p : Nat × List Nat), (kept covered bins)[k]? = some p → k + 1 < bins'.length → thresholds'[k]? = thresholds[p.1]?

/-- A vector that stores all examples in its bins, and whose bins are consistent with its thresholds. -/
def Consistent (v : FeatureBinning.BinnedVector) (members : List (List (Nat × Rat))) : Prop :=
  ∃ thresholds, Search.Decoded v (members.map (List.map Prod.fst)) thresholds ∧
    Search.Binned (members.map (List.map Prod.fst)) thresholds v.sparseBinIndex members

/-- The positions of indices fit into unsigned integers. -/
def Small (v : FeatureBinning.BinnedVector) : Prop := ∀ (b a : Nat), b ≤ v.numBins → v.indptr[b]? = some (some a) → a < 2 ^ 32

end MLRL.BinnedFilter.Spec
