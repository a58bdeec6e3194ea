import Verif.Model.Search

/-!
# Model of the search for refinements by a feature whose values have been assigned to bins

Source: `/repo/cpp/subprojects/common/src/mlrl/common/input/feature_based_search_binned.hpp`.

See `Verif.Model.Search` for the other searches. As opposed to them, the thresholds of conditions are stored in an array, which is accessed only if a
candidate is considered an improvement. Therefore, a candidate consists of the position of its threshold.
-/

namespace MLRL.Search
open FeatureSpace

/-- A candidate: the members of `Refinement` that are set, the position of the threshold, and the statistics the candidate is evaluated on. -/
structure BinnedCandidate (M : Type) where
  interval : Interval
  numCovered : Nat
  comparator : Comparator
  position : Nat
  stats : M
  deriving DecidableEq, Repr

/-- The candidate with the given threshold. -/
def BinnedCandidate.toCandidate {M : Type} (c : BinnedCandidate M) (threshold : Rat) : Candidate M :=
  { interval := c.interval, numCovered := c.numCovered, comparator := c.comparator, threshold := threshold, stats := c.stats }

/-- What happens if a candidate is an improvement, e.g. lines 37-43: The array of thresholds is accessed. -/
def BinnedCandidate.push {M : Type} (thresholds : List Rat) (c : BinnedCandidate M) : Res (Candidate M) := do
  let threshold ← readAt thresholds c.position
  return c.toCandidate threshold

section
variable {M : Type} [Zero M] [Add M] [Sub M]

/-- A candidate is considered if it covers enough examples. -/
def proposeBin (cfg : Config M) (i : Interval) (numCovered : Nat) (c : Comparator) (position : Nat) (stats : M) : List (BinnedCandidate M) :=
  if numCovered ≥ cfg.minCoverage then
    [{ interval := i, numCovered := numCovered, comparator := c, position := position, stats := stats }]
  else []

/-- The two candidates for a subset and its complement, lines 31-64, 87-120 and 170-204. -/
def proposeBothBins (cfg : Config M) (start stop numCovered : Nat) (c c' : Comparator) (position : Nat) (stats total : M) : List (BinnedCandidate M) :=
  proposeBin cfg ⟨start, stop, false⟩ numCovered c position stats ++
    proposeBin cfg ⟨start, stop, true⟩ (sub32 cfg.numExamples numCovered) c' position (total - stats)

/-- The variables of the search. -/
structure BinState (M : Type) where
  subset : Subset M
  numCovered : Nat
  candidates : List (BinnedCandidate M)

/-- First loop, lines 29-68. The list contains the bins at the positions from `i` to `sparseBinIndex - 1`. -/
def binForward (cfg : Config M) : Nat → List (List Nat) → BinState M → BinState M
  | _, [], s => s
  | i, indices :: bins, s =>
    binForward cfg (i + 1) bins
      { subset := (addAll cfg indices s.subset).2, numCovered := s.numCovered + (addAll cfg indices s.subset).1,
        candidates := s.candidates ++ proposeBothBins cfg 0 i s.numCovered .numericalLeq .numericalGr (i - 1) s.subset.sum s.subset.total }

/-- Second loop, lines 85-124. The list contains the bins at the positions from `k - 1` down to `sparseBinIndex + 1`. -/
def binBackward (cfg : Config M) (num : Nat) : Nat → List (List Nat) → BinState M → BinState M
  | _, [], s => s
  | k, indices :: bins, s =>
    binBackward cfg num (k - 1) bins
      { subset := (addAll cfg indices s.subset).2, numCovered := s.numCovered + (addAll cfg indices s.subset).1,
        candidates := s.candidates ++ proposeBothBins cfg k num s.numCovered .numericalGr .numericalLeq (k - 1) s.subset.sum s.subset.total }

/-- Lines 20-72. The list contains the bins before the one at the position `sparseBinIndex`. -/
def binForwardPhase (cfg : Config M) (lower : List (List Nat)) (subset : Subset M) : BinState M :=
  match lower with
  | [] => { subset := subset, numCovered := 0, candidates := [] }
  | indices :: bins =>
    if (addAll cfg indices subset).1 > 0 then
      match binForward cfg 1 bins { subset := (addAll cfg indices subset).2, numCovered := (addAll cfg indices subset).1, candidates := [] } with
      | s => { s with subset := s.subset.reset }
    else { subset := (addAll cfg indices subset).2, numCovered := 0, candidates := [] }

/-- Lines 76-125. The list contains the bins after the one at the position `sparseBinIndex`, starting at the last one. -/
def binBackwardPhase (cfg : Config M) (num : Nat) (upper : List (List Nat)) (subset : Subset M) : BinState M :=
  match upper with
  | [] => { subset := subset, numCovered := 0, candidates := [] }
  | indices :: bins =>
    if (addAll cfg indices subset).1 > 0 then
      binBackward cfg num (num - 1) bins { subset := (addAll cfg indices subset).2, numCovered := (addAll cfg indices subset).1, candidates := [] }
    else { subset := (addAll cfg indices subset).2, numCovered := 0, candidates := [] }

/-- Lines 167-205. -/
def binAccumulatedPhase (cfg : Config M) (sparseBinIndex numLess : Nat) (subset : Subset M) : Res (List (BinnedCandidate M)) :=
  if numLess > 0 ∧ numLess < cfg.numExamples then do
    let a ← useInit subset.acc
    return proposeBothBins cfg 0 sparseBinIndex numLess .numericalLeq .numericalGr (sparseBinIndex - 1) a subset.total
  else .ok []

/-- The candidates found by the different parts of the search, in the order in which they are considered. -/
structure BinResult (M : Type) where
  forward : List (BinnedCandidate M)
  backward : List (BinnedCandidate M)
  /-- Lines 129-143. -/
  greater : List (BinnedCandidate M)
  /-- Lines 147-163. -/
  lessOrEqual : List (BinnedCandidate M)
  accumulated : List (BinnedCandidate M)

/-- All candidates. -/
def BinResult.all (r : BinResult M) : List (BinnedCandidate M) := r.forward ++ r.backward ++ r.greater ++ r.lessOrEqual ++ r.accumulated

/-- `searchForBinnedRefinementInternally`, feature_based_search_binned.hpp:11-206, where `bins` are the indices of the examples that are stored for each bin. If
there is no bin at the position `sparseBinIndex`, bins that do not exist are accessed. In line 151, the scores are calculated from the statistics in the subset. -/
def searchBinned (cfg : Config M) (bins : List (List Nat)) (sparseBinIndex : Nat) (subset : Subset M) : Res (BinResult M) :=
  if sparseBinIndex < bins.length then
    match binForwardPhase cfg (bins.take sparseBinIndex) subset with
    | f =>
      match binBackwardPhase cfg bins.length (bins.drop (sparseBinIndex + 1)).reverse f.subset with
      | s => do
        let accumulated ← binAccumulatedPhase cfg sparseBinIndex f.numCovered s.subset
        return ⟨f.candidates, s.candidates,
          proposeBin cfg ⟨sparseBinIndex + 1, bins.length, false⟩ s.numCovered .numericalGr sparseBinIndex s.subset.sum,
          proposeBin cfg ⟨sparseBinIndex + 1, bins.length, true⟩ (sub32 cfg.numExamples s.numCovered) .numericalLeq sparseBinIndex s.subset.sum, accumulated⟩
  else .error .outOfBounds

end

end MLRL.Search
