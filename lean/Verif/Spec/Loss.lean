import Mathlib.Analysis.SpecialFunctions.Log.Basic
import Mathlib.Analysis.SpecialFunctions.Sqrt

/-!
# Specification of loss functions

The losses are defined by formulas, independently of the model. The expected score of a label is `1` or `-1`, or `1` or `0` in the case of the
squared hinge loss.
-/

namespace MLRL.Loss

open Finset

noncomputable section

/-- The first `n` values of a function. -/
def row {T : Type} (n : Nat) (f : Nat → T) : List T := (List.range n).map f

/-- The negated margin of a score. -/
def margin (y : Bool) (x : ℝ) : ℝ := if y then -x else x

/-- The logistic loss of a score. -/
def logisticLoss (y : Bool) (x : ℝ) : ℝ := Real.log (1 + Real.exp (margin y x))

/-- The hinge of a score: how much it is less than one, or greater than zero. -/
def hinge (y : Bool) (x : ℝ) : ℝ := if y then max 0 (1 - x) else max 0 x

/-- The joint logistic loss of the scores of `n` outputs. -/
def jointLogisticLoss (n : Nat) (y : Nat → Bool) (s : Nat → ℝ) : ℝ := Real.log (1 + ∑ i ∈ range n, Real.exp (margin (y i) (s i)))

/-- The Euclidean distance of scores from expected scores. -/
def jointSquaredLoss (n : Nat) (e s : Nat → ℝ) : ℝ := Real.sqrt (∑ i ∈ range n, (s i - e i) ^ 2)

/-- The Euclidean norm of the hinges. -/
def jointHingeLoss (n : Nat) (y : Nat → Bool) (s : Nat → ℝ) : ℝ := Real.sqrt (∑ i ∈ range n, hinge (y i) (s i) ^ 2)

/-- The expected score of a label. -/
def expected (y : Bool) : ℝ := if y then 1 else -1

/-- The derivative of a function of several scores with respect to the score of the output `c`. -/
def partialDeriv (f : (Nat → ℝ) → ℝ) (c : Nat) (s : Nat → ℝ) : ℝ := deriv (fun t => f (Function.update s c t)) (s c)

/-- `g` is the partial derivative of `f` with respect to the score of the output `c`. -/
def HasPartialDeriv (f : (Nat → ℝ) → ℝ) (c : Nat) (s : Nat → ℝ) (g : ℝ) : Prop :=
  HasDerivAt (fun t => f (Function.update s c t)) g (s c)

end

end MLRL.Loss
