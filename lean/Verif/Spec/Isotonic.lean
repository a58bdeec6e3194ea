import Mathlib.Algebra.Order.Field.Basic
import Mathlib.Data.List.Perm.Basic

/-!
# Specification of the isotonic calibration of probabilities

Independent of the model: what a sorting function and a fitted list of bins (pairs of a threshold and a probability) have to satisfy.
-/

namespace MLRL.Isotonic

variable {K : Type}

/-- What is guaranteed by `std::sort`, if bins are compared by their thresholds: the result is an arbitrary sorted permutation. -/
structure SortByThreshold [LinearOrder K] (sort : List (K × K) → List (K × K)) : Prop where
  perm : ∀ l, (sort l).Perm l
  sorted : ∀ l, (sort l).Pairwise (fun a b => a.1 ≤ b.1)

/-- Bins with increasing thresholds and probabilities in `[0, 1]` that do not decrease. -/
structure Fitted [Field K] [LinearOrder K] (bins : List (K × K)) : Prop where
  ne : bins ≠ []
  thresholds : bins.Pairwise (fun a b => a.1 < b.1)
  values : bins.Pairwise (fun a b => a.2 ≤ b.2)
  unit : ∀ b ∈ bins, 0 ≤ b.2 ∧ b.2 ≤ 1

/-- The mean of the probabilities of all bins with the threshold `t`. -/
def meanAt [Field K] [DecidableEq K] (bins : List (K × K)) (t : K) : K :=
  ((bins.filter (fun b => b.1 = t)).map Prod.snd).sum / ((bins.filter (fun b => b.1 = t)).length : K)

/-- The sum of squared differences between observations and fitted values. -/
def squaredError [Field K] (observations fitted : List K) : K :=
  ((observations.zip fitted).map (fun p => (p.1 - p.2) ^ 2)).sum

end MLRL.Isotonic
