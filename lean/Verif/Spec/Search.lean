import Verif.Model.Search
import Verif.Spec.FeatureSpace
import Mathlib.Algebra.BigOperators.Group.List.Basic

/-!
# Specification of the search for refinements

The specification refers to the examples that are covered by the rule to be refined and whose feature value is not missing, together
with their values, regardless of how a feature vector represents them.
-/

namespace MLRL.Search
open FeatureSpace

/-- The examples with non-zero weight. -/
def weighted (nonZero : Nat → Bool) (l : List (Nat × Rat)) : List Nat := (l.map Prod.fst).filter nonZero

/-- The sum of the statistics of the examples with non-zero weight. -/
def weightedSum {M : Type} [Zero M] [Add M] (nonZero : Nat → Bool) (stat : Nat → M) (l : List (Nat × Rat)) : M :=
  ((weighted nonZero l).map stat).sum

/-- A candidate is sound with respect to the examples and values `examples`: it covers enough examples, reports exactly the number of
examples with non-zero weight that satisfy its condition, is evaluated on the statistics of exactly these examples, and its interval
identifies the examples that satisfy the condition. -/
structure Sound {M : Type} [Zero M] [Add M] (cfg : Config M) (examples : List (Nat × Rat)) (slice : Nat → Nat → List Nat)
    (c : Candidate M) : Prop where
  minCoverage : cfg.minCoverage ≤ c.numCovered
  count : c.numCovered = (weighted cfg.nonZero (examples.filter (fun x => c.comparator.holds c.threshold x.2))).length
  stats : c.stats = weightedSum cfg.nonZero cfg.stat (examples.filter (fun x => c.comparator.holds c.threshold x.2))
  covers : ∀ x ∈ examples, c.comparator.holds c.threshold x.2 = true ↔
    (if c.interval.inverse then x.1 ∉ slice c.interval.start c.interval.stop
      else x.1 ∈ slice c.interval.start c.interval.stop)

/-- What holds when a search is started for the examples and values `examples`: no example occurs twice, the number of examples with
non-zero weight is known, the subset is empty and its total is the sum of the statistics of all these examples. -/
structure Start {M : Type} [Zero M] [Add M] (cfg : Config M) (examples : List (Nat × Rat)) (subset : Subset M) : Prop where
  nodup : (examples.map Prod.fst).Nodup
  numExamples : cfg.numExamples = (weighted cfg.nonZero examples).length
  size : cfg.numExamples < 2 ^ 32
  sum : subset.sum = 0
  acc : subset.acc = none
  total : subset.total = weightedSum cfg.nonZero cfg.stat examples

/-- The examples in the entries of a numerical vector, together with the remaining ones that have the sparse value. -/
def numericalExamples (entries : List (Nat × Rat)) (sparseValue : Rat) (remaining : List Nat) : List (Nat × Rat) :=
  entries ++ remaining.map (fun e => (e, sparseValue))

/-- The examples in the bins of a nominal vector, together with the remaining ones that have the majority value. -/
def nominalExamples (bins : List (Int × List Nat)) (majorityValue : Int) (remaining : List Nat) : List (Nat × Rat) :=
  bins.flatMap (fun b => b.2.map (fun e => (e, (b.1 : Rat)))) ++ remaining.map (fun e => (e, (majorityValue : Rat)))

/-- The examples in the entries `[start, stop)`. -/
def entrySlice (entries : List (Nat × Rat)) (start stop : Nat) : List Nat :=
  ((entries.drop start).take (stop - start)).map Prod.fst

/-- The examples in the bins `[start, stop)`. -/
def binSlice (bins : List (Int × List Nat)) (start stop : Nat) : List Nat :=
  ((bins.drop start).take (stop - start)).flatMap Prod.snd

/-- The entries are sorted by their values. -/
def SortedEntries (entries : List (Nat × Rat)) : Prop := entries.Pairwise (fun a b => a.2 ≤ b.2)

end MLRL.Search
