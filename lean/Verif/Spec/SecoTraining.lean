import Verif.Model.SecoTraining
import Verif.Spec.SecoEval
import Verif.Spec.Coverage
import Verif.Spec.Induction
import Verif.Spec.Tabular
import Verif.Props.Confusion
import Verif.Spec.Heuristic

/-! # Specification of training by separate-and-conquer algorithms -/

namespace MLRL.SecoTraining

open Predictor Induction Refinement Seco Statistics Stopping

variable {K : Type} [Field K] [LinearOrder K]

/-- The rule evaluations that are taken into account for problems with `c` labels: rules that predict for a single label, and rules that predict for
several labels. In the latter case, the heuristic must not assign negative qualities (like WRA does) or the lift of all heads must be at least 1. -/
inductive Supported (c : Nat) : Heuristic K → Evaluation K → Prop where
  | single (h : Heuristic K) : Supported c h (singleEvaluation h)
  | nonneg {h : Heuristic K} {f : LiftFunction K} {sort : List (SortedEntry K) → List (SortedEntry K)} : h.Accepted → h ≠ .wra → h ≠ .mEstimate none →
      LiftSound c f → SortsDescending sort → Supported c h (partialEvaluation h f sort)
  | lifted {h : Heuristic K} {f : LiftFunction K} {sort : List (SortedEntry K) → List (SortedEntry K)} : LiftSoundNeg c f → SortsDescending sort →
      Supported c h (partialEvaluation h f sort)

/-- What is assumed about a round: the feature space has been created from the given values, weights are not negative, the feature space knows the
examples whose weight is zero, sampled labels are in increasing order, and threads consider all candidates. -/
structure RoundOk (round : Round K) (n c : Nat) (values : Nat → Nat → Option Rat) : Prop where
  table : round.env.Ok n values
  weights : WeightsOk n round.weights
  nonneg : ∀ e < n, 0 ≤ weightAt round.weights e
  nonZero : ∀ e < n, round.env.nonZero e = decide (weightAt round.weights e ≠ 0)
  sampled : ∀ l, round.sampledOutputs = some l → l ≠ [] ∧ l.Pairwise (· < ·) ∧ ∀ j ∈ l, j < c
  schedule : ∀ k candidates, Interleaving candidates (round.searchSchedule k candidates)

/-- What is assumed about a separate-and-conquer algorithm that is applied to labels `label` and feature values `values`. -/
structure ConfigOk (cfg : Config K) (label : Nat → Nat → Bool) (values : Nat → Nat → Option Rat) (h : Heuristic K) : Prop where
  labels : IsLabels cfg.numExamples cfg.numOutputs label cfg.labels
  outputs : 0 < cfg.numOutputs
  evaluation : Supported cfg.numOutputs h cfg.evaluation
  rounds : ∀ k, RoundOk (cfg.rounds k) cfg.numExamples cfg.numOutputs values

/-- The heuristics according to which a rule that does not cover any uncovered label is worthless. -/
inductive Progressive : Heuristic K → Prop where
  | precision : Progressive .precision
  | recall : Progressive .recall
  | wra : Progressive .wra
  | fMeasure (beta : Option K) : Progressive (.fMeasure beta)
  | infinite : Progressive (.mEstimate none)
  | zero (m : K) : m ≤ 0 → Progressive (.mEstimate (some m))

/-- A head as it is learned: it predicts the inverse of the majority label for at least one label. -/
def MinorityHead (c : Nat) (majority : List Nat) (head : Predictor.Head K) : Prop :=
  ∃ indices : List Nat, head = .partial_ (indices.map (fun j => (j, inverseMajority majority j))) ∧ indices ≠ [] ∧ indices.Pairwise (· < ·) ∧
    ∀ j ∈ indices, j < c

/-- The confusion matrices of the labels, summed up over the examples in a set. -/
def sums (n : Nat) (stat : Nat → ConfusionMatrices K) (mask : Nat → Bool) : ConfusionMatrices K :=
  fun j => ((List.range n).map (fun e => if mask e then stat e j else 0)).sum

/-- Whether a label has been covered by the rules: one of them covers the example and predicts for the label. -/
def coveredBy (values : Nat → Nat → Option Rat) (rules : List (Induction.Rule Boosting.Condition K)) (e j : Nat) : Bool :=
  rules.any (fun r => r.conditions.all (fun c => c.holds values e) && (predictedValue r.head j).isSome)

/-- The number of rules that cover an example and predict for a label. -/
def numCovering (values : Nat → Nat → Option Rat) (rules : List (Induction.Rule Boosting.Condition K)) (e j : Nat) : Nat :=
  rules.countP (fun r => r.conditions.all (fun c => c.holds values e) && (predictedValue r.head j).isSome)

/-- What is predicted for a label of a training example: the minority value, if one of the rules covers the example and predicts for the label, and the
majority value otherwise. Without a default rule, labels that are not covered are irrelevant. -/
def prediction (useDefaultRule : Bool) (majority : List Nat) (values : Nat → Nat → Option Rat) (rules : List (Induction.Rule Boosting.Condition K))
    (e j : Nat) : Bool :=
  if coveredBy values rules e j then !decide (j ∈ majority) else useDefaultRule && decide (j ∈ majority)

/-- The rules of a model that are used if their number is limited: the default rule is always used and counts as one of them. -/
def usedRules (rules : List (Induction.Rule Boosting.Condition K)) (useDefaultRule : Bool) (limit : Nat) :
    List (Induction.Rule Boosting.Condition K) :=
  if limit = 0 then rules else rules.take (limit - if useDefaultRule then 1 else 0)

/-- The reasons for which training ends with a number of rules (including the default rule): the maximum number of rules has been reached, a limit on
the time has been exceeded (the clock is read before each rule), the sum of the weights of uncovered labels does not exceed the threshold or no rule has been found. -/
inductive Ends (cfg : Config K) (majority : List Nat) (growFuel numRules : Nat) (m : CoverageMatrix K) : Prop where
  | size (N : Nat) : cfg.maxRules = some N → N ≤ numRules → Ends cfg majority growFuel numRules m
  | time (limit : Nat) : cfg.timeLimit = some limit →
      limit ≤ (cfg.clock (numRules - if cfg.useDefaultRule then 1 else 0) - cfg.clock 0) / ticksPerSecond → Ends cfg majority growFuel numRules m
  | coverage (t : K) : cfg.threshold = some t → m.sumOfUncoveredWeights ≤ t → Ends cfg majority growFuel numRules m
  | noRule (grown : Grown (FeatureSpace.Subspace Unit) Boosting.Condition (Predictor.Head K)) :
      cfg.growNext majority numRules growFuel m = Run.done grown → grown.head = none → Ends cfg majority growFuel numRules m

end MLRL.SecoTraining
