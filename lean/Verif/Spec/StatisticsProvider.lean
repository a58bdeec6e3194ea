import Verif.Model.StatisticsProvider
import Verif.Spec.Update
import Verif.Spec.Loss

/-!
# Specification of the statistics that are kept by the boosting algorithm
-/

namespace MLRL.Provider

open Update RuleEval
open Loss (row)

/-- The gradients and Hessians of an example as functions of its scores. -/
structure Rates where
  gradient : Nat → (Nat → ℝ) → Nat → ℝ
  hessian : Nat → (Nat → ℝ) → Nat → Nat → ℝ

/-- The gradients and the lower triangle of the Hessian matrix of an example. -/
structure JointVals (n : Nat) (rates : Rates) (i : Nat) (s : Nat → ℝ) (st : List ℝ × List ℝ) : Prop where
  gradients : st.1 = row n (rates.gradient i s)
  length : st.2.length = n * (n + 1) / 2
  hessians : ∀ c < n, ∀ k ≤ c, st.2[c * (c + 1) / 2 + k]? = some (rates.hessian i s c k)

/-- The gradients and the diagonal of the Hessian matrix of an example. -/
def separateVals (n : Nat) (rates : Rates) (i : Nat) (s : Nat → ℝ) : List (Stat ℝ) :=
  row n (fun c => ⟨rates.gradient i s c, rates.hessian i s c c⟩)

/-- The scores are the given ones and the statistics are those of these scores. -/
def UpToDate (n m : Nat) (rates : Rates) (scores : Nat → Nat → ℝ) : Statistics → Prop
  | .joint cells => cells.length = m ∧ ∀ i c, cells[i]? = some c → c.scores = row n (scores i) ∧ JointVals n rates i (scores i) c.statistics
  | .separate cells => cells.length = m ∧
      ∀ i c, cells[i]? = some c → c.scores = row n (scores i) ∧ c.statistics = separateVals n rates i (scores i)

/-- What an event adds to the score of an example for an output. -/
noncomputable def Event.effect : Event → Nat → Nat → ℝ
  | .call x, i, j => x.effect i j
  | .switch _, _, _ => 0

/-- The sum of everything that has been added. -/
noncomputable def total (events : List Event) (i j : Nat) : ℝ := (events.map (fun e => e.effect i j)).sum

/-- The predictions fit the number of outputs. -/
def Event.Fits (n : Nat) : Event → Prop
  | .call x => Update.Fits n x.head
  | .switch _ => True

/-- The rule evaluation that has been switched to most recently. -/
def current (initial : Evaluation) : List Event → Evaluation
  | [] => initial
  | .call _ :: events => current initial events
  | .switch new :: events => current new events

/-- Whether the rule evaluation has been switched. -/
def switched (events : List Event) : Bool :=
  events.any (fun e => match e with
    | .call _ => false
    | .switch _ => true)

/-- Whether only the diagonal of the Hessian matrix is kept. -/
def Statistics.isSeparate : Statistics → Bool
  | .joint _ => false
  | .separate _ => true

/-- What is required of a loss: both functions compute the same gradients and Hessians. -/
structure JointLaws (loss : JointLoss) (n : Nat) (rates : Rates) : Prop where
  update : ∀ i s gs hs, gs.length = n → hs.length = n * (n + 1) / 2 →
    ∃ st, loss.update i (row n s) (gs, hs) = .ok st ∧ JointVals n rates i s st
  updateDecomposable : ∀ i s st, st.length = n → loss.updateDecomposable i (row n s) st = .ok (separateVals n rates i s)

end MLRL.Provider
