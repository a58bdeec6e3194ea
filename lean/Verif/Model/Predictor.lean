import Verif.Model.Body
import Verif.Model.RuleList

/-!
# Model of heads, score prediction, incremental prediction and parallel prediction

Sources: `boosting/include/mlrl/boosting/prediction/predictor_score_common.hpp`,
`boosting/include/mlrl/boosting/prediction/predictor_binary_common.hpp`,
`common/include/mlrl/common/prediction/predictor_common.hpp`.

Scores are elements of an arbitrary type `K` with an addition (no rounding).
-/

namespace MLRL.Predictor

variable {K : Type}

/-- `CompleteHead` (values for all outputs) or `PartialHead` (indices and values). -/
inductive Head (K : Type) where
  | complete (values : List K)
  | partial_ (entries : List (Nat × K))

/-- A rule, rule_list.hpp. -/
structure Rule (K : Type) where
  body : Body
  head : Head K

/-- `iterator[i] += values[i]` for `i = start, start + 1, ...`; the loop of `applyHead` for complete heads,
predictor_score_common.hpp:17-24. -/
def addComplete [Add K] : List K → (start : Nat) → List K → Res (List K)
  | [], _, scores => .ok scores
  | v :: vs, i, scores => do
    let x ← readAt scores i
    let scores ← writeAt scores i (x + v)
    addComplete vs (i + 1) scores

/-- The loop of `applyHead` for partial heads, predictor_score_common.hpp:26-35. -/
def addPartial [Add K] : List (Nat × K) → List K → Res (List K)
  | [], scores => .ok scores
  | (index, v) :: vs, scores => do
    let x ← readAt scores index
    let scores ← writeAt scores index (x + v)
    addPartial vs scores

/-- `applyHead`, predictor_score_common.hpp:37-45. -/
def applyHead [Add K] : Head K → List K → Res (List K)
  | .complete values, scores => addComplete values 0 scores
  | .partial_ entries, scores => addPartial entries scores

/-- `applyRule` for dense examples, predictor_score_common.hpp:47-57. -/
def applyRuleDense [Add K] (row : List FVal) (rule : Rule K) (scores : List K) : Res (List K) := do
  let covered ← rule.body.coversDense row
  if covered then applyHead rule.head scores else return scores

/-- `applyRules` for dense examples, predictor_score_common.hpp:59-67. -/
def applyRulesDense [Add K] (row : List FVal) : List (Rule K) → List K → Res (List K)
  | [], scores => .ok scores
  | rule :: rules, scores => do
    let scores ← applyRuleDense row rule scores
    applyRulesDense row rules scores

/-- `applyRule` for sparse examples, predictor_score_common.hpp:69-82. -/
def applyRuleSparse [Add K] (row : SparseRow) (sparseValue : FVal) (rule : Rule K) (scores : List K) (t : TmpArrays)
    (n : Nat) : Res (List K × TmpArrays) := do
  let (covered, t) ← rule.body.coversSparse row sparseValue t n
  if covered then
    let scores ← applyHead rule.head scores
    return (scores, t)
  else return (scores, t)

/-- The loop in `applyRules` for sparse examples, predictor_score_common.hpp:94-99. -/
def applyRulesSparseLoop [Add K] (row : SparseRow) (sparseValue : FVal) :
    List (Rule K) → List K → TmpArrays → Nat → Res (List K)
  | [], scores, _, _ => .ok scores
  | rule :: rules, scores, t, n => do
    let (scores, t) ← applyRuleSparse row sparseValue rule scores t n
    applyRulesSparseLoop row sparseValue rules scores t (n + 1)

/-- `applyRules` for sparse examples, predictor_score_common.hpp:84-100. `tmpArray1` is not initialised, `tmpArray2` is
initialised with zeros. The counter `n` does not overflow unless there are `2^32` rules. -/
def applyRulesSparse [Add K] (numFeatures : Nat) (row : SparseRow) (sparseValue : FVal) (rules : List (Rule K))
    (scores : List K) : Res (List K) :=
  applyRulesSparseLoop row sparseValue rules scores
    { values := List.replicate numFeatures none, stamps := List.replicate numFeatures 0 } 1

/-! ### incremental prediction -/

/-- State of `AbstractIncrementalPredictor` (predictor_common.hpp:187-249) for a single example: the iterators and the row of
the prediction matrix. `R` is the type of rules, `S` the type of rows. -/
structure Incremental (R S : Type) where
  current : RuleList.ConstIterator R
  end_ : RuleList.ConstIterator R
  row : S

/-- Constructor, predictor_common.hpp:228-231. -/
def Incremental.create {R S : Type} (model : RuleList R) (maxRules : Nat) (row : S) : Incremental R S :=
  { current := model.usedCbegin maxRules, end_ := model.usedCend maxRules, row := row }

/-- `getNumNext`, predictor_common.hpp:235-237. -/
def Incremental.getNumNext {R S : Type} (p : Incremental R S) : Nat := p.end_.index - p.current.index

/-- `applyNext`, predictor_common.hpp:239-245; `apply` applies a single rule to the row. -/
def Incremental.applyNext {R S : Type} (apply : R → S → Res S) (p : Incremental R S) (stepSize : Nat) :
    Res (Incremental R S) := do
  let next := p.current.add (min stepSize p.getNumNext)
  let rules ← RuleList.iterate p.current next
  let row ← rules.foldlM (fun s r => apply r s) p.row
  return { p with current := next, row := row }

/-! ### parallel prediction -/

/-- The memory shared by all threads: the rows of the matrix of scores and of the matrix of predictions. -/
structure Mem (K B : Type) where
  scores : List (List K)
  preds : List (List B)

/-- What a thread does to the shared memory in one step. -/
inductive Action (K B : Type) where
  /-- modify a row of the matrix of scores -/
  | rowStep (row : Nat) (f : List K → Res (List K))
  /-- compute a row of the matrix of predictions from a row of the matrix of scores (`binaryTransformation_.apply`) -/
  | transform (row : Nat) (g : List K → List B) (predictionIndex : Nat)

/-- Effect of a step. -/
def Action.exec {B : Type} : Action K B → Mem K B → Res (Mem K B)
  | .rowStep r f, m => do
    let row ← readAt m.scores r
    let row ← f row
    let scores ← writeAt m.scores r row
    return { m with scores := scores }
  | .transform r g i, m => do
    let row ← readAt m.scores r
    let preds ← writeAt m.preds i (g row)
    return { m with preds := preds }

/-- A sequence of steps. -/
def execAll {B : Type} : List (Action K B) → Mem K B → Res (Mem K B)
  | [], m => .ok m
  | a :: as, m => do
    let m ← a.exec m
    execAll as m

/-- `PredictionDelegate::predictForExample`, predictor_binary_common.hpp:117-129: the thread's scratch row is set to zero,
the rules are applied to it (one step per element of `steps`), the result is transformed. -/
def predictForExample {B : Type} [Zero K] (steps : Nat → List (List K → Res (List K))) (g : List K → List B)
    (threadIndex exampleIndex : Nat) : List (Action K B) :=
  [.rowStep threadIndex (fun row => .ok (row.map (fun _ => 0)))] ++
    (steps exampleIndex).map (fun f => .rowStep threadIndex f) ++ [.transform threadIndex g exampleIndex]

/-- `IncrementalPredictionDelegate::predictForExample`, predictor_binary_common.hpp:50-62 (and, without the transformation,
`ScorePredictionDelegate::predictForExample`, predictor_score_common.hpp:142-147): each example has a row of its own. -/
def predictForExampleInPlace {B : Type} (steps : Nat → List (List K → Res (List K))) (g : List K → List B)
    (exampleIndex : Nat) : List (Action K B) :=
  (steps exampleIndex).map (fun f => .rowStep exampleIndex f) ++ [.transform exampleIndex g exampleIndex]

/-- An execution of `PredictionDispatcher::predict` (predictor_common.hpp:68-88) by several threads: a sequence of steps,
each performed by some thread. The OpenMP runtime assigns examples to threads (`assignment[t]` are the examples thread `t`
processes, in this order), and the steps of different threads may interleave arbitrarily, but each thread performs its own
steps in program order. -/
def IsExecution {B : Type} (task : Nat → Nat → List (Action K B)) (assignment : List (List Nat))
    (trace : List (Nat × Action K B)) : Prop :=
  (∀ p ∈ trace, p.1 < assignment.length) ∧
  ∀ t examples, assignment[t]? = some examples →
    (trace.filter (fun p => decide (p.1 = t))).map Prod.snd = examples.flatMap (task t)

end MLRL.Predictor
