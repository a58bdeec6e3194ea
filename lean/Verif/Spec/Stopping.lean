import Verif.Model.Stopping

/-!
# Specification vocabulary for stopping criteria

Only the enum `Aggregation` is taken from the model.
-/

namespace MLRL.Stopping.Spec

variable {K : Type _} [Field K] [LinearOrder K]

/-- `best` is the first entry with the lowest score in a list of (rule count, score) pairs. -/
def IsFirstMin (l : List (Nat × K)) (best : Nat × K) : Prop :=
  ∃ i, l[i]? = some best ∧ (∀ (j : Nat) (x : Nat × K), j < i → l[j]? = some x → best.2 < x.2) ∧ ∀ x ∈ l, best.2 ≤ x.2

/-- `x` is the minimum / maximum / arithmetic mean of the values `l`. -/
def IsAggregate : Aggregation → List K → K → Prop
  | .min, l, x => x ∈ l ∧ ∀ y ∈ l, x ≤ y
  | .max, l, x => x ∈ l ∧ ∀ y ∈ l, y ≤ x
  | .mean, l, x => l ≠ [] ∧ x = l.sum / (l.length : K)

/-- The parameters of pre-pruning. -/
structure PreParams (K : Type _) where
  aggregation : Aggregation
  removeUnusedRules : Bool
  minRules : Nat
  updateInterval : Nat
  stopInterval : Nat
  numPast : Nat
  numCurrent : Nat
  minImprovement : K
  /-- The model is not assessed as long as it does not contain more rules than this. -/
  offset : Nat

/-- Whether a model with `n` rules is assessed. -/
def PreParams.assessed (p : PreParams K) (n : Nat) : Bool := decide (p.offset < n) && decide (n % p.updateInterval = 0)

/-- The (rule count, score) pairs that have been assessed, oldest first. -/
def PreParams.assessments (p : PreParams K) (history : List (Nat × K)) : List (Nat × K) :=
  history.filter (fun x => p.assessed x.1)

/-- The `numCurrent` most recent scores. -/
def PreParams.recentWindow (p : PreParams K) (scores : List K) : List K := scores.drop (scores.length - p.numCurrent)

/-- The `numPast` scores that precede the recent window. -/
def PreParams.pastWindow (p : PreParams K) (scores : List K) : List K :=
  (scores.drop (scores.length - p.numCurrent - p.numPast)).take p.numPast

/-- The relative improvement `(past - recent) / recent` is below the minimum (IEEE semantics for `recent = 0`). -/
def TooSmall (past recent minImprovement : K) : Prop :=
  (recent = 0 ∧ past < 0) ∨ (recent ≠ 0 ∧ (past - recent) / recent < minImprovement)

/-- Whether pre-pruning must fire when it is asked with `n` rules after having been asked with `before`. -/
def PreParams.Fires (p : PreParams K) (before : List (Nat × K)) (n : Nat) : Prop :=
  let scores := (p.assessments before).map Prod.snd
  p.assessed n = true ∧ p.numPast + p.numCurrent ≤ scores.length ∧ n % p.stopInterval = 0 ∧
    ∃ past recent, IsAggregate p.aggregation (p.pastWindow scores) past ∧
      IsAggregate p.aggregation (p.recentWindow scores) recent ∧ TooSmall past recent p.minImprovement

/-- The value of the variable `numUsedRules` after a sequence of test results: the last non-zero one, or `0`. -/
def lastNonZero (l : List Nat) : Nat := ((l.filter (· ≠ 0)).getLast?).getD 0

end MLRL.Stopping.Spec
