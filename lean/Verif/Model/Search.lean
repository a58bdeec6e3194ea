import Verif.Model.FeatureVector
import Verif.Model.RuleList

/-!
# Model of the search for refinements of a rule by a single feature

Sources, all in `/repo/cpp/subprojects/common/src/mlrl/common/input`: `feature_based_search_numerical.hpp`,
`feature_based_search_nominal.hpp`, `feature_based_search_binary.hpp`, `feature_based_search_ordinal.hpp`,
`feature_based_search_binned_common.hpp`.

A search computes a sequence of candidate refinements. Whether a candidate is retained is up to the comparator
(`isImprovement`, `pushRefinement`), which has no influence on the candidates that follow. Therefore, the model of a search returns
the list of all candidates for which the comparator is consulted, each one with the vector of statistics its scores are calculated
from.
-/

namespace MLRL.Search
open FeatureSpace

/-- The comparators of conditions used here, comparator.hpp of the common library. -/
inductive Comparator where
  | numericalLeq
  | numericalGr
  | ordinalLeq
  | ordinalGr
  | nominalEq
  | nominalNeq
  deriving DecidableEq, Repr

/-- Does a condition hold for a feature value? The meaning of the comparators, condition.hpp:33-81. -/
def Comparator.holds : Comparator → (threshold value : Rat) → Bool
  | .numericalLeq, t, x => decide (x ≤ t)
  | .numericalGr, t, x => decide (t < x)
  | .ordinalLeq, t, x => decide (x ≤ t)
  | .ordinalGr, t, x => decide (t < x)
  | .nominalEq, t, x => decide (x = t)
  | .nominalNeq, t, x => decide (x ≠ t)

/-- A candidate: the members of `Refinement` that are set (refinement.hpp:14-34) and the statistics it is evaluated on. -/
structure Candidate (M : Type) where
  interval : Interval
  numCovered : Nat
  comparator : Comparator
  threshold : Rat
  stats : M
  deriving DecidableEq, Repr

/-- `IResettableStatisticsSubset`: sum of the statistics in the subset, accumulated sum (null pointer before the first call to
`resetSubset`) and total sum. See `Verif.Model.StatisticsSubset` for the vectors this abstracts from. -/
structure Subset (M : Type) where
  sum : M
  acc : Option M
  total : M
  deriving DecidableEq, Repr

section
variable {M : Type} [Zero M] [Add M] [Sub M]

/-- `addToSubset`. -/
def Subset.add (stat : Nat → M) (s : Subset M) (e : Nat) : Subset M := { s with sum := s.sum + stat e }

/-- `resetSubset`. -/
def Subset.reset (s : Subset M) : Subset M :=
  { s with sum := 0, acc := some (match s.acc with | none => s.sum | some a => a + s.sum) }

/-- What is fixed during a search: weights (`hasNonZeroWeight`), weighted statistics, comparison of floats, the number of examples
with non-zero weight in the subspace and the minimum coverage. -/
structure Config (M : Type) where
  nonZero : Nat → Bool
  stat : Nat → M
  isEqual : Rat → Rat → Bool
  numExamples : Nat
  minCoverage : Nat

/-- A candidate is considered if it covers enough examples. -/
def propose (cfg : Config M) (i : Interval) (numCovered : Nat) (c : Comparator) (t : Rat) (stats : M) : List (Candidate M) :=
  if numCovered ≥ cfg.minCoverage then
    [{ interval := i, numCovered := numCovered, comparator := c, threshold := t, stats := stats }]
  else []

/-- The two candidates for a subset and its complement, e.g. feature_based_search_numerical.hpp:60-93. The subset corresponds to the
positions `[start, stop)`. -/
def proposeBoth (cfg : Config M) (start stop numCovered : Nat) (c c' : Comparator) (t : Rat) (stats total : M) :
    List (Candidate M) :=
  propose cfg ⟨start, stop, false⟩ numCovered c t stats ++
    propose cfg ⟨start, stop, true⟩ (sub32 cfg.numExamples numCovered) c' t (total - stats)

/-- `util::arithmeticMean`, math.hpp:35-37, in exact arithmetic. -/
def mean (a b : Rat) : Rat := a + (b - a) / 2

/-! ### Numerical features -/

/-- The variables of the search. -/
structure NumState (M : Type) where
  subset : Subset M
  numCovered : Nat
  previousValue : Rat
  candidates : List (Candidate M)

/-- First loop, feature_based_search_numerical.hpp:24-41: finds the first example with non-zero weight among those with a value less
than the sparse value. `i` is the position of the first element of the list. Returns the position at which the loop ends and the
elements after it (including the one at this position if the loop does not end by finding an example). -/
def findFirst (cfg : Config M) (sparseValue : Rat) : Nat → List (Nat × Rat) → NumState M → Nat × List (Nat × Rat) × NumState M
  | i, [], s => (i, [], s)
  | i, (e, x) :: rest, s =>
    if x < sparseValue then
      if cfg.nonZero e then
        (i, rest, { s with subset := s.subset.add cfg.stat e, numCovered := s.numCovered + 1, previousValue := x })
      else
        findFirst cfg sparseValue (i + 1) rest s
    else
      (i, (e, x) :: rest, s)

/-- Second loop, feature_based_search_numerical.hpp:45-104. -/
def scanForward (cfg : Config M) (sparseValue : Rat) : Nat → List (Nat × Rat) → NumState M → Nat × NumState M
  | i, [], s => (i, s)
  | i, (e, x) :: rest, s =>
    if x < sparseValue then
      if cfg.nonZero e then
        let new := if cfg.isEqual s.previousValue x then [] else
          proposeBoth cfg 0 i s.numCovered .numericalLeq .numericalGr (mean s.previousValue x) s.subset.sum s.subset.total
        scanForward cfg sparseValue (i + 1) rest
          { subset := s.subset.add cfg.stat e, numCovered := s.numCovered + 1, previousValue := x,
            candidates := s.candidates ++ new }
      else
        scanForward cfg sparseValue (i + 1) rest { s with previousValue := x }
    else
      (i, s)

/-- Third loop, feature_based_search_numerical.hpp:117-128: finds the last example with non-zero weight. The list contains the elements
at the positions from `k - 1` down to `firstExampleWithSparseValueOrGreater`. Returns the position at which the loop ends plus one
and the remaining elements. -/
def findLast (cfg : Config M) : Nat → List (Nat × Rat) → NumState M → Nat × List (Nat × Rat) × NumState M
  | k, [], s => (k, [], s)
  | k, (e, x) :: rest, s =>
    if cfg.nonZero e then
      (k, rest, { s with subset := s.subset.add cfg.stat e, numCovered := s.numCovered + 1, previousValue := x })
    else
      findLast cfg (k - 1) rest s

/-- Fourth loop, feature_based_search_numerical.hpp:132-186. The list contains the elements at the positions from `k - 1` down to
`first`; the loop ends before the element at the position `first` is processed. -/
def scanBackward (cfg : Config M) (first num : Nat) : Nat → List (Nat × Rat) → NumState M → NumState M
  | _, [], s => s
  | k, (e, x) :: rest, s =>
    if k - 1 > first then
      if cfg.nonZero e then
        let new := if cfg.isEqual s.previousValue x then [] else
          proposeBoth cfg k num s.numCovered .numericalGr .numericalLeq (mean x s.previousValue) s.subset.sum s.subset.total
        scanBackward cfg first num (k - 1) rest
          { subset := s.subset.add cfg.stat e, numCovered := s.numCovered + 1, previousValue := x,
            candidates := s.candidates ++ new }
      else
        scanBackward cfg first num (k - 1) rest { s with previousValue := x }
    else s

/-- The candidates found by the different parts of the search, in the order in which they are considered. -/
structure NumResult (M : Type) where
  forward : List (Candidate M)
  backward : List (Candidate M)
  sparse : List (Candidate M)
  accumulated : List (Candidate M)

/-- All candidates. -/
def NumResult.all (r : NumResult M) : List (Candidate M) := r.forward ++ r.backward ++ r.sparse ++ r.accumulated

/-- The first two loops, feature_based_search_numerical.hpp:16-113. The position returned is
`firstExampleWithSparseValueOrGreater`. -/
def forwardPhase (cfg : Config M) (entries : List (Nat × Rat)) (sparseValue : Rat) (subset : Subset M) : Nat × NumState M :=
  let s0 : NumState M := { subset := subset, numCovered := 0, previousValue := sparseValue, candidates := [] }
  let r := findFirst cfg sparseValue 0 entries s0
  if r.2.2.numCovered > 0 then
    let r' := scanForward cfg sparseValue (r.1 + 1) r.2.1 r.2.2
    (r'.1, { r'.2 with subset := r'.2.subset.reset })
  else (r.1, r.2.2)

/-- The third and fourth loop, feature_based_search_numerical.hpp:115-187. `s` is the state after the first two loops. -/
def backwardPhase (cfg : Config M) (entries : List (Nat × Rat)) (first : Nat) (s : NumState M) : NumState M :=
  let r := findLast cfg entries.length (entries.drop first).reverse { s with numCovered := 0, candidates := [] }
  if r.2.2.numCovered > 0 ∧ r.1 - 1 > 0 then
    scanBackward cfg first entries.length (r.1 - 1) r.2.1 r.2.2
  else r.2.2

/-- The last part, feature_based_search_numerical.hpp:235-293. -/
def accumulatedPhase (cfg : Config M) (sparse : Bool) (sparseValue : Rat) (first numLess : Nat) (lastValue : Rat) (s : NumState M) :
    Res (List (Candidate M)) := do
  if numLess > 0 ∧ numLess < cfg.numExamples then
    let a ← useInit s.subset.acc
    let t := if sparse then mean lastValue sparseValue else mean lastValue s.previousValue
    return proposeBoth cfg 0 first numLess .numericalLeq .numericalGr t a s.subset.total
  else
    return []

/-- `searchForNumericalRefinementInternally`, feature_based_search_numerical.hpp:11-294. If the vector has no elements,
`numFeatureValues - 1` wraps around and an element that does not exist is accessed. The positions are 64-bit integers, which cannot
overflow. -/
def searchNumerical (cfg : Config M) (entries : List (Nat × Rat)) (sparseValue : Rat) (sparse : Bool) (subset : Subset M) :
    Res (NumResult M) :=
  if entries = [] then .error .outOfBounds
  else do
    let f := forwardPhase cfg entries sparseValue subset
    let s := backwardPhase cfg entries f.1 f.2
    let border := if sparse then
      proposeBoth cfg f.1 entries.length s.numCovered .numericalGr .numericalLeq (mean sparseValue s.previousValue) s.subset.sum
        s.subset.total
      else []
    let last ← accumulatedPhase cfg sparse sparseValue f.1 f.2.numCovered f.2.previousValue s
    return { forward := f.2.candidates, backward := s.candidates, sparse := border, accumulated := last }

/-! ### Nominal and binary features -/

/-- `addAllToSubset`, feature_based_search_binned_common.hpp:19-39. Returns the number of examples with non-zero weight. -/
def addAll (cfg : Config M) : List Nat → Subset M → Nat × Subset M
  | [], s => (0, s)
  | e :: es, s =>
    if cfg.nonZero e then
      let r := addAll cfg es (s.add cfg.stat e)
      (r.1 + 1, r.2)
    else addAll cfg es s

/-- The loop over the values, feature_based_search_nominal.hpp:20-65. `i` is the position of the first bin in the list. Returns the
number of examples in the bins, the state of the subset and the candidates. -/
def nominalLoop (cfg : Config M) : Nat → List (Int × List Nat) → Subset M → Nat × Subset M × List (Candidate M)
  | _, [], s => (0, s, [])
  | i, (value, indices) :: bins, s =>
    let a := addAll cfg indices s
    let new := proposeBoth cfg i (i + 1) a.1 .nominalEq .nominalNeq value a.2.sum a.2.total
    let r := nominalLoop cfg (i + 1) bins a.2.reset
    (a.1 + r.1, r.2.1, new ++ r.2.2)

/-- `searchForNominalRefinementInternally`, feature_based_search_nominal.hpp:11-104. -/
def searchNominal (cfg : Config M) (bins : List (Int × List Nat)) (majorityValue : Int) (subset : Subset M) :
    Res (List (Candidate M)) := do
  let r := nominalLoop cfg 0 bins subset
  let n := r.1
  let c1 ← if n ≥ cfg.minCoverage then do
      let a ← useInit r.2.1.acc
      pure (propose cfg ⟨0, bins.length, false⟩ n .nominalNeq majorityValue a)
    else pure []
  let m := sub32 cfg.numExamples n
  let c2 ← if m ≥ cfg.minCoverage then do
      let a ← useInit r.2.1.acc
      pure (propose cfg ⟨0, bins.length, true⟩ m .nominalEq majorityValue (r.2.1.total - a))
    else pure []
  return r.2.2 ++ c1 ++ c2

/-- `searchForBinaryRefinementInternally`, feature_based_search_binary.hpp:11-56. -/
def searchBinary (cfg : Config M) (bins : List (Int × List Nat)) (majorityValue : Int) (subset : Subset M) :
    Res (List (Candidate M)) := do
  let b ← readAt bins 0
  let a := addAll cfg b.2 subset
  return propose cfg ⟨0, 1, false⟩ a.1 .nominalEq b.1 a.2.sum ++
    propose cfg ⟨0, 1, true⟩ (sub32 cfg.numExamples a.1) .nominalEq majorityValue (a.2.total - a.2.sum)

/-! ### Ordinal features -/

/-- The variables of the search. -/
structure OrdState (M : Type) where
  subset : Subset M
  numCovered : Nat
  previousValue : Int
  candidates : List (Candidate M)

/-- First loop, feature_based_search_ordinal.hpp:30-76. -/
def ordForward (cfg : Config M) (majorityValue : Int) : Nat → List (Int × List Nat) → OrdState M → Nat × OrdState M
  | i, [], s => (i, s)
  | i, (x, indices) :: bins, s =>
    if x ≥ majorityValue then (i, s)
    else
      let new := proposeBoth cfg 0 i s.numCovered .ordinalLeq .ordinalGr s.previousValue s.subset.sum s.subset.total
      let a := addAll cfg indices s.subset
      ordForward cfg majorityValue (i + 1) bins
        { subset := a.2, numCovered := s.numCovered + a.1, previousValue := x, candidates := s.candidates ++ new }

/-- Second loop, feature_based_search_ordinal.hpp:95-137. The list contains the bins at the positions from `k - 1` down to
`firstValueGreaterThanMajorityValue`. -/
def ordBackward (cfg : Config M) (num : Nat) : Nat → List (Int × List Nat) → OrdState M → OrdState M
  | _, [], s => s
  | k, (x, indices) :: bins, s =>
    let new := proposeBoth cfg k num s.numCovered .ordinalGr .ordinalLeq x s.subset.sum s.subset.total
    let a := addAll cfg indices s.subset
    ordBackward cfg num (k - 1) bins
      { subset := a.2, numCovered := s.numCovered + a.1, previousValue := x, candidates := s.candidates ++ new }

/-- The candidates found by the different parts of the search, in the order in which they are considered. -/
structure OrdResult (M : Type) where
  forward : List (Candidate M)
  backward : List (Candidate M)
  majority : List (Candidate M)
  accumulated : List (Candidate M)

/-- All candidates. -/
def OrdResult.all (r : OrdResult M) : List (Candidate M) := r.forward ++ r.backward ++ r.majority ++ r.accumulated

/-- feature_based_search_ordinal.hpp:20-84: `b` is the first bin, `bins` are the remaining ones. The position returned is
`firstValueGreaterThanMajorityValue`. -/
def ordForwardPhase (cfg : Config M) (b : Int × List Nat) (bins : List (Int × List Nat)) (majorityValue : Int) (subset : Subset M) :
    Nat × OrdState M :=
  let a := if b.1 < majorityValue then addAll cfg b.2 subset else (0, subset)
  let s : OrdState M := { subset := a.2, numCovered := a.1, previousValue := b.1, candidates := [] }
  if s.numCovered > 0 then
    let r := ordForward cfg majorityValue 1 bins s
    (r.1, { r.2 with subset := r.2.subset.reset })
  else (0, s)

/-- feature_based_search_ordinal.hpp:86-138. The bins from `firstValueGreaterThanMajorityValue` on are visited from the last one on
(which is visited in any case). -/
def ordBackwardPhase (cfg : Config M) (bins : List (Int × List Nat)) (first : Nat) (majorityValue : Int) (s : OrdState M) :
    Res (OrdState M) := do
  let b ← readAt bins (bins.length - 1)
  let a := if b.1 > majorityValue then addAll cfg b.2 s.subset else (0, s.subset)
  let s := { s with subset := a.2, numCovered := a.1, candidates := [] }
  if s.numCovered > 0 then
    return ordBackward cfg bins.length (bins.length - 1) ((bins.drop first).reverse.drop 1) s
  else
    return s

/-- feature_based_search_ordinal.hpp:178-214. -/
def ordAccumulatedPhase (cfg : Config M) (first numLess : Nat) (lastValue : Int) (s : OrdState M) : Res (List (Candidate M)) := do
  if numLess > 0 ∧ numLess < cfg.numExamples then
    let a ← useInit s.subset.acc
    return proposeBoth cfg 0 first numLess .ordinalLeq .ordinalGr lastValue a s.subset.total
  else
    return []

/-- `searchForOrdinalRefinementInternally`, feature_based_search_ordinal.hpp:11-215. -/
def searchOrdinal (cfg : Config M) (bins : List (Int × List Nat)) (majorityValue : Int) (subset : Subset M) : Res (OrdResult M) :=
  match bins with
  | [] => .error .outOfBounds
  | b :: rest => do
    let f := ordForwardPhase cfg b rest majorityValue subset
    let s ← ordBackwardPhase cfg (b :: rest) f.1 majorityValue f.2
    let border := proposeBoth cfg f.1 (rest.length + 1) s.numCovered .ordinalGr .ordinalLeq majorityValue s.subset.sum s.subset.total
    let last ← ordAccumulatedPhase cfg f.1 f.2.numCovered f.2.previousValue s
    return { forward := f.2.candidates, backward := s.candidates, majority := border, accumulated := last }

end

end MLRL.Search
