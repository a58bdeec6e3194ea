import Verif.Model.RingBuffer
import Mathlib.Algebra.Order.Field.Basic

/-!
# Model of the stopping criteria and of the sequential assemblage of rules

Sources (below `/repo/cpp/subprojects/common/`):
`include/mlrl/common/stopping/stopping_criterion.hpp`, `src/mlrl/common/stopping/stopping_criterion_{list,size,time}.cpp`,
`src/mlrl/common/stopping/global_pruning_{pre,post}.cpp`, `src/mlrl/common/stopping/global_pruning_common.hpp`,
`src/mlrl/common/stopping/aggregation_function_common.hpp`,
`src/mlrl/common/rule_model_assemblage/rule_model_assemblage_sequential.cpp`.

Scores are elements of an arbitrary ordered field `K` (no rounding, no NaN/infinite scores).
-/

namespace MLRL.Stopping

/-- `IStoppingCriterion::Result`, stopping_criterion.hpp:23-38; the default constructor yields `(false, 0)`. -/
structure Result where
  stop : Bool := false
  numUsedRules : Nat := 0
  deriving DecidableEq, Repr

/-- A stopping criterion: an object with some state, and its virtual function `test` (stopping_criterion.hpp:52). `S` is the
type of the statistics that are passed. -/
structure Criterion (σ S : Type _) where
  state : σ
  test : σ → S → Nat → Res (Result × σ)

/-- Calling `test` on a criterion. -/
def Criterion.call {σ S : Type _} (c : Criterion σ S) (s : S) (numRules : Nat) : Res (Result × Criterion σ S) := do
  let (r, st) ← c.test c.state s numRules
  return (r, { c with state := st })

/-- A history of calls of a function `test`, collecting what they return. Not present in the code: it only makes it possible
to talk about several consecutive calls. -/
def runTests {σ ι : Type _} (test : σ → ι → Res (Result × σ)) : σ → List ι → Res (List Result × σ)
  | st, [] => .ok ([], st)
  | st, x :: xs => do
    let (r, st) ← test st x
    let (rs, st) ← runTests test st xs
    return (r :: rs, st)

/-- The loop in `StoppingCriterionList::test`, stopping_criterion_list.cpp:39-48, with the accumulated `result`. -/
def listTestLoop {σ S : Type _} (s : S) (numRules : Nat) :
    List (Criterion σ S) → Result → Res (Result × List (Criterion σ S))
  | [], result => .ok (result, [])
  | c :: cs, result => do
    let (r, c') ← c.call s numRules
    let result : Result := { result with stop := result.stop || r.stop }
    let result : Result := if r.numUsedRules ≠ 0 then { result with numUsedRules := r.numUsedRules } else result
    let (result, cs') ← listTestLoop s numRules cs result
    return (result, c' :: cs')

/-- `StoppingCriterionList::test`, stopping_criterion_list.cpp:36-51. For an empty list this coincides with
`NoStoppingCriterion::test` (60-63). -/
def listTest {σ S : Type _} (cs : List (Criterion σ S)) (s : S) (numRules : Nat) : Res (Result × List (Criterion σ S)) :=
  listTestLoop s numRules cs {}

/-- `SizeStoppingCriterion::test`, stopping_criterion_size.cpp:21-29. -/
def sizeTest (maxRules numRules : Nat) : Result :=
  if numRules ≥ maxRules then { stop := true } else {}

/-- State of `TimeStoppingCriterion` (stopping_criterion_time.cpp:17-21). Times are in nanoseconds of the steady clock. -/
structure TimeState where
  startTime : Nat
  timerStarted : Bool

/-- Number of clock ticks per second. -/
def ticksPerSecond : Nat := 1000000000

/-- `TimeStoppingCriterion::test`, stopping_criterion_time.cpp:32-48. `now` is the reading of the clock.
`duration_cast<seconds>` truncates. -/
def timeTest (timeLimit : Nat) (st : TimeState) (now : Nat) : Result × TimeState :=
  if st.timerStarted then
    let duration := (now - st.startTime) / ticksPerSecond
    if duration ≥ timeLimit then ({ stop := true }, st) else ({}, st)
  else
    ({}, { startTime := now, timerStarted := true })

section Scores

variable {K : Type _} [Field K] [LinearOrder K]

/-- State of `PostPruning` (global_pruning_post.cpp:21-27); `bestScore = none` stands for infinity. -/
structure PostPruning (K : Type _) where
  minRules : Nat
  interval : Nat
  bestScore : Option K
  bestNumRules : Nat

/-- Constructor, global_pruning_post.cpp:40-42. -/
def PostPruning.init (minRules interval : Nat) : PostPruning K :=
  { minRules := minRules, interval := interval, bestScore := none, bestNumRules := minRules }

/-- `score < best` where `none` is infinity. -/
def ltInf (score : K) : Option K → Bool
  | none => true
  | some b => decide (score < b)

/-- `PostPruning::test`, global_pruning_post.cpp:44-58. `score` is the value `evaluate(...)` returns for the statistics. -/
def PostPruning.test (p : PostPruning K) (numRules : Nat) (score : K) : Res (Result × PostPruning K) :=
  if numRules ≥ p.minRules then
    match modAt numRules p.interval with
    | .error e => .error e
    | .ok m =>
      if m = 0 ∧ ltInf score p.bestScore = true then
        .ok ({ numUsedRules := numRules }, { p with bestScore := some score, bestNumRules := numRules })
      else .ok ({}, p)
  else .ok ({}, p)

/-- `util::iterativeArithmeticMean`, util/math.hpp:53-55. -/
def iterativeArithmeticMean (n : Nat) (x mean : K) : K := mean + (x - mean) / (n : K)

/-- `ArithmeticMeanAggregationFunction::aggregate`, aggregation_function_common.hpp:85-96; also the loops in
`evaluate`, global_pruning_common.hpp:26-34 and 61-69. -/
def aggregateMean (values : List K) : K :=
  (values.foldl (fun (st : Nat × K) value => (st.1 + 1, iterativeArithmeticMean (st.1 + 1) value st.2)) (0, 0)).2

/-- `MinAggregationFunction::aggregate`, aggregation_function_common.hpp:37-51; `begin[0]` of an empty range is out of
bounds. -/
def aggregateMin : List K → Res K
  | [] => .error .outOfBounds
  | x :: xs => .ok (xs.foldl (fun m value => if value < m then value else m) x)

/-- `MaxAggregationFunction::aggregate`, aggregation_function_common.hpp:61-75. -/
def aggregateMax : List K → Res K
  | [] => .error .outOfBounds
  | x :: xs => .ok (xs.foldl (fun m value => if value > m then value else m) x)

/-- The values of the enum `AggregationFunction` and the selection in `createAggregationFunctionFactory`,
aggregation_function_common.hpp:158-167. -/
inductive Aggregation where
  | min | max | mean

def aggregate : Aggregation → List K → Res K
  | .min, l => aggregateMin l
  | .max, l => aggregateMax l
  | .mean, l => .ok (aggregateMean l)

/-- State of `PrePruning` (global_pruning_pre.cpp:18-44). `bestScore = none` stands for infinity; `bestNumRules = none` and
`removeUnusedRules = none` stand for uninitialised memory. -/
structure PrePruning (K : Type _) where
  aggregation : Aggregation
  removeUnusedRules : Option Bool
  updateInterval : Nat
  stopInterval : Nat
  minImprovement : K
  pastBuffer : RingBuffer K
  recentBuffer : RingBuffer K
  offset : Nat
  bestScore : Option K
  bestNumRules : Option Nat
  stopped : Bool

/-- Computation of `offset_` in the constructor, global_pruning_pre.cpp:78-79, with 32-bit wrap-around. -/
def offsetOf (minRules updateInterval numPast numCurrent : Nat) : Nat :=
  let bufferInterval := ((numPast * updateInterval) % 2 ^ 32 + (numCurrent * updateInterval) % 2 ^ 32) % 2 ^ 32
  if bufferInterval < minRules then minRules - bufferInterval else 0

/-- Constructor, global_pruning_pre.cpp:71-80. `bestNumRules_` is not initialised by it. -/
def PrePruning.init (aggregation : Aggregation) (removeUnusedRules : Option Bool)
    (minRules updateInterval stopInterval numPast numCurrent : Nat) (minImprovement : K) : PrePruning K :=
  { aggregation := aggregation, removeUnusedRules := removeUnusedRules, updateInterval := updateInterval,
    stopInterval := stopInterval, minImprovement := minImprovement, pastBuffer := RingBuffer.init numPast,
    recentBuffer := RingBuffer.init numCurrent, offset := offsetOf minRules updateInterval numPast numCurrent,
    bestScore := none, bestNumRules := none, stopped := false }

/-- `percentageImprovement < minImprovement_`, global_pruning_pre.cpp:99-102. If the divisor is zero, the quotient is
`+inf`, `-inf` or NaN, depending on the sign of the numerator, and the comparison follows IEEE 754. -/
def improvementTooSmall (past recent minImprovement : K) : Bool :=
  if recent = 0 then decide (past < 0) else decide ((past - recent) / recent < minImprovement)

/-- Reading the cells of a ring buffer as values. -/
def initialisedCells (cells : List (Option K)) : Res (List K) := cells.mapM useInit

/-- Aggregating the scores in a buffer, global_pruning_pre.cpp:95-98. -/
def aggregateBuffer (a : Aggregation) (b : RingBuffer K) : Res K := do
  let values ← initialisedCells b.cells
  aggregate a values

/-- The decision in global_pruning_pre.cpp:94-108: returns the result and the new value of `stopped_`. -/
def PrePruning.decide (p : PrePruning K) (numRules : Nat) : Res (Result × Bool) := do
  let m ← modAt numRules p.stopInterval
  if m = 0 then
    let aggregatedScorePast ← aggregateBuffer p.aggregation p.pastBuffer
    let aggregatedScoreRecent ← aggregateBuffer p.aggregation p.recentBuffer
    if improvementTooSmall aggregatedScorePast aggregatedScoreRecent p.minImprovement then
      let stop ← useInit p.removeUnusedRules
      let numUsedRules ← useInit p.bestNumRules
      return ({ stop := stop, numUsedRules := numUsedRules }, true)
    else return ({}, false)
  else return ({}, false)

/-- The update of the best score, global_pruning_pre.cpp:88-92 (performed only if the past buffer is full). -/
def PrePruning.updateBest (p : PrePruning K) (numRules : Nat) (currentScore : K) : PrePruning K :=
  if p.pastBuffer.isFull && ltInf currentScore p.bestScore then
    { p with bestScore := some currentScore, bestNumRules := some numRules }
  else p

/-- The update of the buffers, global_pruning_pre.cpp:112-116. -/
def PrePruning.pushScore (p : PrePruning K) (currentScore : K) : Res (PrePruning K) :=
  match p.recentBuffer.push currentScore with
  | .error e => .error e
  | .ok (recent, (false, _)) => .ok { p with recentBuffer := recent }
  | .ok (recent, (true, v)) => do
    let v ← useInit v
    let (past, _) ← p.pastBuffer.push v
    return { p with recentBuffer := recent, pastBuffer := past }

/-- The body of the outer `if`, global_pruning_pre.cpp:86-117. -/
def PrePruning.assess (p : PrePruning K) (numRules : Nat) (currentScore : K) : Res (Result × PrePruning K) :=
  let p := p.updateBest numRules currentScore
  match (if p.pastBuffer.isFull then p.decide numRules else .ok ({}, p.stopped)) with
  | .error e => .error e
  | .ok (result, stopped) => do
    let p ← PrePruning.pushScore { p with stopped := stopped } currentScore
    return (result, p)

/-- `PrePruning::test`, global_pruning_pre.cpp:82-118. `currentScore` is the value `evaluate(...)` returns. -/
def PrePruning.test (p : PrePruning K) (numRules : Nat) (currentScore : K) : Res (Result × PrePruning K) :=
  if p.stopped then .ok ({}, p)
  else if numRules > p.offset then
    match modAt numRules p.updateInterval with
    | .error e => .error e
    | .ok m => if m = 0 then p.assess numRules currentScore else .ok ({}, p)
  else .ok ({}, p)

/-- The fields of `PrePruningFactory` that matter here (global_pruning_pre.cpp:129-145). -/
structure PrePruningFactory (K : Type _) where
  aggregation : Aggregation
  removeUnusedRules : Option Bool
  minRules : Nat
  updateInterval : Nat
  stopInterval : Nat
  numPast : Nat
  numCurrent : Nat
  minImprovement : K

/-- Constructor of the factory, global_pruning_pre.cpp:172-177. The parameter `removeUnusedRules` is *not* used in the list
of initialisers, hence the field of the same name remains uninitialised. -/
def PrePruningFactory.init (aggregation : Aggregation) (_removeUnusedRules : Bool)
    (minRules updateInterval stopInterval numPast numCurrent : Nat) (minImprovement : K) : PrePruningFactory K :=
  { aggregation := aggregation, removeUnusedRules := none, minRules := minRules, updateInterval := updateInterval,
    stopInterval := stopInterval, numPast := numPast, numCurrent := numCurrent, minImprovement := minImprovement }

/-- `PrePruningFactory::create`, global_pruning_pre.cpp:179-191 (both overloads). -/
def PrePruningFactory.create (f : PrePruningFactory K) : PrePruning K :=
  PrePruning.init f.aggregation f.removeUnusedRules f.minRules f.updateInterval f.stopInterval f.numPast f.numCurrent
    f.minImprovement

end Scores

/-- Why the loop in `induceRules` has been left; not present in the code. -/
inductive LeaveReason where
  | stoppingCriterion
  | inducerFailed
  deriving DecidableEq, Repr

/-- What `induceRules` leaves behind: the number of rules (including a default rule), the argument of `setNumUsedRules`,
the state of the environment (statistics, model builder, samplers) and the reason for leaving the loop. -/
structure Outcome (E : Type _) where
  numRules : Nat
  numUsedRules : Nat
  env : E
  reason : LeaveReason

/-- The loop of `SequentialRuleModelAssemblage::induceRules`, rule_model_assemblage_sequential.cpp:49-71. The environment `E`
comprises everything the sampling methods and `induceRule` read and modify; `induce` is an arbitrary rule inducer. `none`
means that the given number of iterations did not suffice. -/
def induceLoop {σ E : Type _} (induce : E → Bool × E) :
    (fuel : Nat) → List (Criterion σ E) → (numRules numUsedRules : Nat) → E → Option (Res (Outcome E))
  | 0, _, _, _, _ => none
  | fuel + 1, cs, numRules, numUsedRules, env =>
    match listTest cs env numRules with
    | .error e => some (.error e)
    | .ok (result, cs') =>
      let numUsedRules := if result.numUsedRules ≠ 0 then result.numUsedRules else numUsedRules
      if result.stop then
        some (.ok { numRules := numRules, numUsedRules := numUsedRules, env := env, reason := .stoppingCriterion })
      else
        match induce env with
        | (true, env') => induceLoop induce fuel cs' (numRules + 1) numUsedRules env'
        | (false, env') =>
          some (.ok { numRules := numRules, numUsedRules := numUsedRules, env := env', reason := .inducerFailed })

/-- `SequentialRuleModelAssemblage::induceRules`, rule_model_assemblage_sequential.cpp:32-75. -/
def induceRules {σ E : Type _} (induceDefault : E → E) (induce : E → Bool × E) (useDefaultRule : Bool) (fuel : Nat)
    (cs : List (Criterion σ E)) (env : E) : Option (Res (Outcome E)) :=
  let numRules := if useDefaultRule then 1 else 0
  let env := if useDefaultRule then induceDefault env else env
  induceLoop induce fuel cs numRules 0 env

end MLRL.Stopping
