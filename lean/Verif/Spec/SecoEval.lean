import Verif.Model.SecoEval
import Mathlib.Algebra.BigOperators.Group.Finset.Basic
import Mathlib.Algebra.Order.Field.Basic

/-! # Specification of rule evaluation in the separate-and-conquer library -/

namespace MLRL.Seco

variable {K : Type} [Field K] [LinearOrder K]

/-- The quality of a prediction for a label, given the confusion matrices that take into account all examples and the covered ones, respectively. -/
def labelQuality (h : Heuristic K) (total covered : Confusion K) : K :=
  h.evaluate ⟨covered.1, covered.2.1, covered.2.2.1, covered.2.2.2, total.1 - covered.1, total.2.1 - covered.2.1, total.2.2.1 - covered.2.2.1,
    total.2.2.2 - covered.2.2.2⟩

/-- What the functions are called with: strictly increasing majority labels and indices of labels, a confusion matrix of all labels and one of each
of the given labels; `q` is the quality of each of the given labels. -/
structure EvalInput (h : Heuristic K) (majority indices : List Nat) (total covered : List (Confusion K)) (q : Nat → K) : Prop where
  majoritySorted : majority.Pairwise (· < ·)
  indicesSorted : indices.Pairwise (· < ·)
  quality : ∀ (i : Nat) (hi : i < indices.length), ∃ t c, total[indices[i]]? = some t ∧ covered[i]? = some c ∧ q indices[i] = labelQuality h t c

/-- The prediction for a label: the inverse of the majority label. -/
def inverseMajority (majority : List Nat) (label : Nat) : K := if label ∈ majority then 0 else 1

/-- The lifted quality of a head that predicts for the labels in a set. -/
def headQuality (q : Nat → K) (lift : K) (labels : Finset Nat) : K := ((∑ label ∈ labels, q label) / (labels.card : K)) * lift

/-- `quality` is the maximum of the lifted qualities of all non-empty heads, if the lift is a number, and `labels` is a head with that quality. -/
structure IsBestHead (q : Nat → K) (lift : Nat → Option K) (available : Finset Nat) (quality : K) (labels : Finset Nat) : Prop where
  nonempty : labels.Nonempty
  subset : labels ⊆ available
  attained : ∃ l, lift labels.card = some l ∧ quality = headQuality q l labels
  best : ∀ other ⊆ available, other.Nonempty → ∀ l, lift other.card = some l → headQuality q l other ≤ quality

/-- The algorithm for sorting: a permutation with decreasing qualities. -/
def SortsDescending (sort : List (SortedEntry K) → List (SortedEntry K)) : Prop :=
  ∀ l, (sort l).Perm l ∧ (sort l).Pairwise (fun a b => b.quality ≤ a.quality)

/-- A head with `b` labels is rewarded more than all smaller heads. -/
def Record (lift : Nat → Option K) (b : Nat) : Prop := ∃ w, lift b = some w ∧ ∀ j v, 1 ≤ j → j < b → lift j = some v → v < w

/-- Conditions for a lift function, for problems with `n` labels, that ensure that the search for the best head may be stopped. -/
structure LiftSound (n : Nat) (f : LiftFunction K) : Prop where
  /-- The lift of heads with a single label is a number that is not negative. -/
  first : ∃ v, f.calculateLift 1 = some v ∧ 0 ≤ v
  /-- A lift that is a number is at least 1, unless there is a smaller head whose lift is not exceeded by any larger one. -/
  one : ∀ i v, 1 ≤ i → i ≤ n → f.calculateLift i = some v →
    1 ≤ v ∨ ∃ j w, 1 ≤ j ∧ j ≤ i ∧ f.calculateLift j = some w ∧ ∀ k u, i ≤ k → k ≤ n → f.calculateLift k = some u → u ≤ w
  /-- The maximum lift is an upper bound of the lift of all heads that are at least as large. It must be available for heads that are rewarded more
  than all smaller heads and do not contain all labels, and for heads with a single label. -/
  max : ∀ b, 1 ≤ b → (b < n ∨ b = 1) → Record f.calculateLift b →
    ∃ m, f.getMaxLift b = .ok (some m) ∧ ∀ k u, b ≤ k → k ≤ n → f.calculateLift k = some u → u ≤ m

/-- A stronger condition that allows for qualities that are negative. -/
structure LiftSoundNeg (n : Nat) (f : LiftFunction K) : Prop where
  first : f.calculateLift 1 = some 1
  one : ∀ i v, 1 ≤ i → i ≤ n → f.calculateLift i = some v → 1 ≤ v
  max : ∀ b, 1 ≤ b → (b < n ∨ b = 1) → ∃ m, f.getMaxLift b = .ok (some m) ∧ ∀ k u, b ≤ k → k ≤ n → f.calculateLift k = some u → u ≤ m

end MLRL.Seco
