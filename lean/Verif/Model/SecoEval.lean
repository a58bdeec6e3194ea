import Verif.Model.Confusion
import Verif.Model.Heuristic

/-!
# Model of rule evaluation in the separate-and-conquer library

Sources: `seco/src/mlrl/seco/rule_evaluation/rule_evaluation_decomposable_{common,majority}.hpp`,
`rule_evaluation_decomposable_{partial,single}.cpp`.

Floating point numbers are elements of an ordered field `K` (exact arithmetic); the result of a computation that involves a lift is `none` if it is
not a number. Members of the objects that are written before they are read (`sortedVector_`, `indexVector_`, `scoreVector_`) are part of the results
rather than of a state; `sortedVector_` has the size of the label indices (rule_evaluation_decomposable_partial.cpp:115).
-/

namespace MLRL.Seco

open Iterators Statistics

variable {K : Type} [Field K] [LinearOrder K]

/-- `calculateOutputWiseQuality`, rule_evaluation_decomposable_common.hpp:21-29. -/
def outputWiseQuality (h : Heuristic K) (total covered : Confusion K) : K :=
  let uncovered := total - covered
  h.evaluate { cin := covered.irrelevantNegative, cip := covered.irrelevantPositive, crn := covered.relevantNegative,
               crp := covered.relevantPositive, uin := uncovered.irrelevantNegative, uip := uncovered.irrelevantPositive,
               urn := uncovered.relevantNegative, urp := uncovered.relevantPositive }

/-- A score vector: quality, indices of labels and predictions. -/
structure Head (K Q : Type) where
  quality : Q
  indices : List Nat
  values : List K
  deriving DecidableEq

/-- `(float64) label`. -/
def ofBool (label : Bool) : K := if label then 1 else 0

/-- The body of the loop, rule_evaluation_decomposable_majority.hpp:49-52. -/
def majorityStep (indices : List Nat) (i : Nat) (s : (BinarySparseForward × Nat) × List K) : Res ((BinarySparseForward × Nat) × List K) := do
  let index ← readAt indices i
  let it ← advance s.1.1 s.1.2 index
  return ((it, index), s.2 ++ [ofBool it.deref])

/-- `DecomposableMajorityRuleEvaluation::calculateScores`, rule_evaluation_decomposable_majority.hpp:37-56. -/
def majorityScores (majority indices : List Nat) : Res (Head K K) := do
  let r ← loop indices.length (majorityStep indices) ((BinarySparseForward.create majority 0, 0), [])
  return { quality := 0, indices := indices, values := r.2 }

/-- `ILiftFunction`: `calculateLift` and `getMaxLift`. -/
structure LiftFunction (K : Type) where
  calculateLift : Nat → Option K
  getMaxLift : Nat → Res (Option K)

/-- `calculateLiftedQuality`, rule_evaluation_decomposable_partial.cpp:14-17. -/
def liftedQuality (f : LiftFunction K) (quality : K) (numPredictions : Nat) : Option K :=
  (f.calculateLift numPredictions).map (fun lift => (quality / (numPredictions : K)) * lift)

/-- The body of the loop, rule_evaluation_decomposable_partial.cpp:65-70. -/
def completeStep (h : Heuristic K) (indices : List Nat) (total covered : List (Confusion K)) (i : Nat)
    (s : (BinarySparseForward × Nat) × (List K × K)) : Res ((BinarySparseForward × Nat) × (List K × K)) := do
  let index ← readAt indices i
  let it ← advance s.1.1 s.1.2 index
  let t ← readAt total index
  let c ← readAt covered i
  return ((it, index), (s.2.1 ++ [ofBool (!it.deref)], s.2.2 + outputWiseQuality h t c))

/-- `DecomposableCompleteRuleEvaluation::calculateScores`, rule_evaluation_decomposable_partial.cpp:49-75. -/
def completeScores (h : Heuristic K) (f : LiftFunction K) (majority indices : List Nat) (total covered : List (Confusion K)) :
    Res (Head K (Option K)) := do
  let r ← loop indices.length (completeStep h indices total covered) ((BinarySparseForward.create majority 0, 0), ([], 0))
  return { quality := liftedQuality f r.2.2 indices.length, indices := indices, values := r.2.1 }

/-- An element of `sortedVector_`. -/
structure SortedEntry (K : Type) where
  index : Nat
  quality : K
  score : K
  deriving DecidableEq

/-- The body of the loop, rule_evaluation_decomposable_partial.cpp:132-139. -/
def entryStep (h : Heuristic K) (indices : List Nat) (total covered : List (Confusion K)) (i : Nat)
    (s : (BinarySparseForward × Nat) × List (SortedEntry K)) : Res ((BinarySparseForward × Nat) × List (SortedEntry K)) := do
  let index ← readAt indices i
  let it ← advance s.1.1 s.1.2 index
  let t ← readAt total index
  let c ← readAt covered i
  return ((it, index), s.2 ++ [{ index := index, quality := outputWiseQuality h t c, score := ofBool (!it.deref) }])

/-- The elements of `sortedVector_` before they are sorted, rule_evaluation_decomposable_partial.cpp:129-140. -/
def partialEntries (h : Heuristic K) (majority indices : List Nat) (total covered : List (Confusion K)) : Res (List (SortedEntry K)) := do
  let r ← loop indices.length (entryStep h indices total covered) ((BinarySparseForward.create majority 0, 0), [])
  return r.2

/-- `a > b` for floating point numbers: false if one of them is not a number. -/
def greater (a b : Option K) : Bool :=
  match a, b with
  | some a, some b => decide (a > b)
  | _, _ => false

/-- `a * b`. -/
def times (a b : Option K) : Option K :=
  match a, b with
  | some a, some b => some (a * b)
  | _, _ => none

/-- The variables of the loop in lines 152-170; `done` is set by `break`. -/
structure PartialState (K : Type) where
  sumOfQualities : K
  bestQuality : Option K
  bestNumPredictions : Nat
  maxLift : Option K
  done : Bool
  deriving DecidableEq

/-- rule_evaluation_decomposable_partial.cpp:157-164. -/
def updateBest (f : LiftFunction K) (numElements numPredictions : Nat) (quality : Option K) (s : PartialState K) : Res (PartialState K) :=
  if greater quality s.bestQuality then
    if numPredictions < numElements then do
      let maxLift ← f.getMaxLift numPredictions
      return { s with bestQuality := quality, bestNumPredictions := numPredictions, maxLift := maxLift }
    else .ok { s with bestQuality := quality, bestNumPredictions := numPredictions }
  else .ok s

/-- The body of the loop, rule_evaluation_decomposable_partial.cpp:153-169. -/
def partialStep (f : LiftFunction K) (sorted : List (SortedEntry K)) (numElements i : Nat) (s : PartialState K) : Res (PartialState K) :=
  if s.done then .ok s
  else do
    let entry ← readAt sorted i
    let sumOfQualities := s.sumOfQualities + entry.quality
    let quality := liftedQuality f sumOfQualities (i + 1)
    let s ← updateBest f numElements (i + 1) quality { s with sumOfQualities := sumOfQualities }
    return { s with done := greater s.bestQuality (times quality s.maxLift) }

/-- rule_evaluation_decomposable_partial.cpp:147-170. -/
def partialSearch (f : LiftFunction K) (sorted : List (SortedEntry K)) (numElements : Nat) : Res (PartialState K) := do
  let first ← readAt sorted 0
  let maxLift ← f.getMaxLift 1
  loopFrom (partialStep f sorted numElements) 1 (numElements - 1)
    { sumOfQualities := first.quality, bestQuality := liftedQuality f first.quality 1, bestNumPredictions := 1, maxLift := maxLift, done := false }

/-- The body of the loop, rule_evaluation_decomposable_partial.cpp:178-180. -/
def outputStep (sorted : List (SortedEntry K)) (i : Nat) (r : List Nat × List K) : Res (List Nat × List K) := do
  let entry ← readAt sorted i
  return (r.1 ++ [entry.index], r.2 ++ [entry.score])

/-- `DecomposablePartialRuleEvaluation::calculateScores`, rule_evaluation_decomposable_partial.cpp:118-184. `sort` is `std::sort`, lines 142-145. -/
def partialScores (h : Heuristic K) (f : LiftFunction K) (sort : List (SortedEntry K) → List (SortedEntry K)) (majority indices : List Nat)
    (total covered : List (Confusion K)) : Res (Head K (Option K)) := do
  let entries ← partialEntries h majority indices total covered
  let sorted := sort entries
  let s ← partialSearch f sorted indices.length
  let r ← loop s.bestNumPredictions (outputStep sorted) ([], [])
  return { quality := s.bestQuality, indices := r.1, values := r.2 }

/-- The body of the loop, rule_evaluation_decomposable_single.cpp:55-62. -/
def singleStep (h : Heuristic K) (indices : List Nat) (total covered : List (Confusion K)) (i : Nat) (s : Nat × K) : Res (Nat × K) := do
  let index ← readAt indices i
  let t ← readAt total index
  let c ← readAt covered i
  let quality := outputWiseQuality h t c
  return (if quality > s.2 then (index, quality) else s)

/-- The loop that searches for the best label, rule_evaluation_decomposable_single.cpp:50-63. -/
def singleSearch (h : Heuristic K) (indices : List Nat) (total covered : List (Confusion K)) : Res (Nat × K) := do
  let bestIndex ← readAt indices 0
  let t ← readAt total bestIndex
  let c ← readAt covered 0
  loopFrom (singleStep h indices total covered) 1 (indices.length - 1) (bestIndex, outputWiseQuality h t c)

/-- `DecomposableSingleOutputRuleEvaluation::calculateScores`, rule_evaluation_decomposable_single.cpp:42-72. -/
def singleScores (h : Heuristic K) (majority indices : List Nat) (total covered : List (Confusion K)) : Res (Head K K) := do
  let best ← singleSearch h indices total covered
  let it ← advance (BinarySparseForward.create majority 0) 0 best.1
  return { quality := best.2, indices := [best.1], values := [ofBool (!it.deref)] }

end MLRL.Seco
