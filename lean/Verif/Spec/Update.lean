import Verif.Model.Update
import Verif.Spec.Predictor
import Verif.Spec.Refinement
import Mathlib.Algebra.Group.Basic
import Mathlib.Algebra.BigOperators.Group.List.Basic

/-! # Specification of applying and reverting predictions -/

namespace MLRL.Update

open Predictor Predictor.Spec

variable {K R S : Type}

/-- A complete prediction has a value for each output, a partial one refers to existing outputs. -/
def Fits (n : Nat) : Head K → Prop
  | .complete values => values.length = n
  | .partial_ entries => ∀ e ∈ entries, e.1 < n

/-- What a call adds to the score of an example for an output. -/
def Call.effect [AddCommGroup K] (call : Call K) (i j : Nat) : K :=
  if call.mask i then (if call.revert then -contribution j call.head else contribution j call.head) else 0

/-- What is required of rows (`value` provides the scores, `Valid` are the rows that may occur) and of the recalculation of statistics:
they are kept consistent with the scores if only scores for the outputs have changed the prediction refers to. -/
structure Laws [AddCommGroup K] (ops : Ops K R S) (n : Nat) (Valid : R → Prop) (value : R → Nat → K)
    (Consistent : Nat → R → S → Prop) : Prop where
  add : ∀ h r, Fits n h → Valid r → ∃ r', ops.add h r = .ok r' ∧ Valid r' ∧ ∀ j < n, value r' j = value r j + contribution j h
  remove : ∀ h r, Fits n h → Valid r → ∃ r', ops.remove h r = .ok r' ∧ Valid r' ∧ ∀ j < n, value r' j = value r j - contribution j h
  refresh : ∀ i h r r' s, Fits n h → Valid r → Valid r' → Consistent i r s →
    (∀ j < n, contribution j h = 0 → value r' j = value r j) →
    ∃ s', ops.refresh i h r' s = .ok s' ∧ Consistent i r' s'

/-- Executions of several calls, one after the other, each by several threads. -/
inductive Executes (ops : Ops K R S) (n : Nat) : List (Call K) → List (Cell R S) → List (Cell R S) → Prop where
  | nil {cells} : Executes ops n [] cells cells
  | cons {call calls trace cells cells' cells''} : Refinement.Interleaving (call.tasks ops n) trace →
      exec trace cells = .ok cells' → Executes ops n calls cells' cells'' → Executes ops n (call :: calls) cells cells''

end MLRL.Update
