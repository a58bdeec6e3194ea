import Verif.Model.Predictor
import Mathlib.Algebra.Order.Ring.Defs

/-!
# Specification of decision lists
-/

namespace MLRL.DecisionList.Spec

open Predictor

variable {K : Type}

/-- The value `v` a head predicts for label `j`. -/
def Predicts (j : Nat) (v : K) : Head K → Prop
  | .complete values => values[j]? = some v
  | .partial_ entries => (j, v) ∈ entries

/-- A head does not refer to a label more than once. -/
def HeadDistinct : Head K → Prop
  | .complete _ => True
  | .partial_ entries => (entries.map Prod.fst).Nodup

/-- The indices of a head are in increasing order. -/
def HeadSorted : Head K → Prop
  | .complete _ => True
  | .partial_ entries => (entries.map Prod.fst).Pairwise (· < ·)

/-- The first rule that covers the example (according to `covered`) and predicts for label `j` decides that the label is relevant (`b = true`) or
irrelevant. -/
def Decided [Zero K] [LT K] (covered : Rule K → Bool) (rules : List (Rule K)) (j : Nat) (b : Bool) : Prop :=
  ∃ pre r post v, rules = pre ++ r :: post ∧ covered r = true ∧ Predicts j v r.head ∧ (b = true ↔ 0 < v) ∧
    ∀ r' ∈ pre, covered r' = true → ∀ v', ¬ Predicts j v' r'.head

/-- No rule that covers the example predicts for label `j`. -/
def Undecided (covered : Rule K → Bool) (rules : List (Rule K)) (j : Nat) : Prop :=
  ∀ r ∈ rules, covered r = true → ∀ v, ¬ Predicts j v r.head

/-- Some rule that covers the example predicts a value other than zero for label `j`. -/
def SomeNonZero [Zero K] (covered : Rule K → Bool) (rules : List (Rule K)) (j : Nat) : Prop :=
  ∃ r ∈ rules, covered r = true ∧ ∃ v, v ≠ 0 ∧ Predicts j v r.head

end MLRL.DecisionList.Spec
