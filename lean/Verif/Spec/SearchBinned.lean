import Verif.Model.SearchBinned
import Verif.Spec.Search

/-!
# Specification of the search for refinements by a feature whose values have been assigned to bins
-/

namespace MLRL.Search

/-- The examples that belong to bins, together with their values: the examples in a bin other than the sparse bin are those that are stored, and a value
exceeds exactly the thresholds of preceding bins. -/
structure Binned (bins : List (List Nat)) (thresholds : List Rat) (sparseBinIndex : Nat) (members : List (List (Nat × Rat))) : Prop where
  numBins : members.length = bins.length
  numThresholds : thresholds.length + 1 = bins.length
  sparseBin : sparseBinIndex < bins.length
  stored : ∀ (b : Nat), b ≠ sparseBinIndex → ∀ l, members[b]? = some l → bins[b]? = some (l.map Prod.fst)
  separated : ∀ (b k : Nat) (t : Rat) (l : List (Nat × Rat)), thresholds[k]? = some t → members[b]? = some l → ∀ x ∈ l, x.2 ≤ t ↔ b ≤ k

/-- The examples that are stored for the bins `[start, stop)`. -/
def storedSlice (bins : List (List Nat)) (start stop : Nat) : List Nat := ((bins.drop start).take (stop - start)).flatten

/-- A candidate whose threshold exists and that is sound with respect to it. -/
def SoundBin {M : Type} [Zero M] [Add M] (cfg : Config M) (examples : List (Nat × Rat)) (bins : List (List Nat)) (thresholds : List Rat)
    (c : BinnedCandidate M) : Prop :=
  ∃ t, c.push thresholds = .ok (c.toCandidate t) ∧ Sound cfg examples (storedSlice bins) (c.toCandidate t)

end MLRL.Search
