import Verif.Model.Coverage
import Mathlib.Algebra.BigOperators.Group.Finset.Basic
import Mathlib.Algebra.BigOperators.Group.List.Basic

/-! # Specification of the coverage of labels -/

namespace MLRL.Seco

open Predictor Finset

variable {K V : Type}

/-- What a rule predicts for a label, if anything. -/
def predictedValue : Head V → Nat → Option V
  | .complete values, j => values[j]?
  | .partial_ entries, j => (entries.find? (fun e => decide (e.1 = j))).map Prod.snd

/-- Whether a rule predicts the minority value of a label, i.e. relevant, if the label is irrelevant to the majority of the examples, and vice
versa. -/
def predictsMinority [Zero V] [DecidableEq V] (majority : List Nat) (head : Head V) (j : Nat) : Bool :=
  match predictedValue head j with
  | none => false
  | some v => decide ((v ≠ 0) ≠ (j ∈ majority))

/-- A head provides a value for each of `c` labels or, in increasing order, for some of them. -/
def HeadOk (c : Nat) : Head V → Prop
  | .complete values => values.length = c
  | .partial_ entries => (entries.map Prod.fst).Pairwise (· < ·) ∧ ∀ e ∈ entries, e.1 < c

/-- The number of rules, among those that have been applied and not been reverted, that cover an example and predict the minority value of a
label. -/
def net [Zero V] [DecidableEq V] (majority : List Nat) (calls : List (Update.Call V)) (i j : Nat) : Int :=
  (calls.map (fun call => if call.mask i ∧ predictsMinority majority call.head j = true then (if call.revert then -1 else 1) else 0)).sum

/-- Rules are only reverted if they have been applied before (and fewer than 2^32 are applied). -/
def Admissible [Zero V] [DecidableEq V] (majority : List Nat) (calls : List (Update.Call V)) : Prop :=
  ∀ calls' rest, calls = calls' ++ rest → ∀ i j, 0 ≤ net majority calls' i j ∧ net majority calls' i j < 2 ^ 32

/-- The number of cells of a matrix with `n` rows and `c` columns a predicate holds for. -/
def numCells (n c : Nat) (p : Nat → Nat → Prop) [∀ i j, Decidable (p i j)] : Nat :=
  ∑ i ∈ range n, ∑ j ∈ range c, if p i j then 1 else 0

/-- The number of examples a label is relevant to. -/
def numRelevant (n : Nat) (label : Nat → Nat → Bool) (j : Nat) : Nat := ∑ i ∈ range n, if label i j then 1 else 0

/-- Whether a label is relevant to the majority of the examples. -/
def isMajority (n : Nat) (label : Nat → Nat → Bool) (j : Nat) : Bool := decide (2 * numRelevant n label j > n)

end MLRL.Seco
