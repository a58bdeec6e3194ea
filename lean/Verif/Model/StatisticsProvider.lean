import Verif.Model.Update
import Verif.Model.Loss
import Verif.Model.LossUpdate
import Verif.Spec.Refinement

/-!
# Model of the statistics that are kept by the boosting algorithm

Sources (below `/repo/cpp/subprojects/boosting`):
* `include/mlrl/boosting/util/math.hpp`, `include/mlrl/boosting/iterator/iterator_diagonal.hpp`
* `src/mlrl/boosting/data/view_statistic_non_decomposable_dense.cpp`
* `src/mlrl/boosting/statistics/statistics_provider_non_decomposable.hpp`, `statistics_provider_non_decomposable_dense.cpp`,
  `statistics_provider_decomposable_dense.cpp`, `statistics_non_decomposable_common.hpp`, `statistics_decomposable_common.hpp`

Scores and statistics are real numbers. Rows of labels or targets are part of the loss and dense, as sparse ones are read via iterators with the same elements (C20). For each example, there is a cell that holds its scores and its
statistics. That the rows of a matrix do not overlap is the subject of C74.
-/

namespace MLRL.Provider

open Update RuleEval Predictor

/-- `triangularNumber`, util/math.hpp:16-18, which uses unsigned 32 bit integers. -/
def triangular32 (n : Nat) : Nat := n * ((n + 1) % 2 ^ 32) % 2 ^ 32 / 2

/-- The position of the element `index` of a `DiagonalIterator`, iterator_diagonal.hpp:65-95. -/
def diagonalPosition (index : Nat) : Nat := (triangular32 (index + 1) + (2 ^ 32 - 1)) % 2 ^ 32

/-- A loss that is not decomposable: `updateNonDecomposableStatistics` and `updateDecomposableStatistics` of a given example. The latter
recalculates the statistics of all outputs, whichever outputs are specified, loss_non_decomposable_logistic.cpp:206-248,
loss_non_decomposable_squared_error.cpp:159-251 and loss_non_decomposable_squared_hinge.cpp:234-276. -/
structure JointLoss where
  update : Nat → List ℝ → List ℝ × List ℝ → Res (List ℝ × List ℝ)
  updateDecomposable : Nat → List ℝ → List (Stat ℝ) → Res (List (Stat ℝ))

/-- Gradients and Hessians that are kept while they are not decomposable. -/
abbrev JointCell := Cell (List ℝ) (List ℝ × List ℝ)

/-- Gradients and Hessians that are kept while they are decomposable. -/
abbrev SeparateCell := Cell (List ℝ) (List (Stat ℝ))

/-- `updateStatistics` of statistics that are not decomposable, statistics_non_decomposable_common.hpp:56-66. -/
def JointLoss.jointOps (loss : JointLoss) : Ops ℝ (List ℝ) (List ℝ × List ℝ) :=
  ⟨changeDense (· + ·), changeDense (· - ·), fun i _ scores statistics => loss.update i scores statistics⟩

/-- `updateStatistics` of decomposable statistics, statistics_decomposable_common.hpp:50-59, if the loss is not decomposable. -/
def JointLoss.separateOps (loss : JointLoss) : Ops ℝ (List ℝ) (List (Stat ℝ)) :=
  ⟨changeDense (· + ·), changeDense (· - ·), fun i _ scores statistics => loss.updateDecomposable i scores statistics⟩

/-- The rule evaluation that is used. -/
inductive Evaluation where
  | default
  | regular
  | pruning
  deriving DecidableEq

/-- The statistics that are returned by `get()`, statistics_provider_non_decomposable.hpp:62-64 and 138-146. -/
inductive Statistics where
  | joint (cells : List JointCell)
  | separate (cells : List SeparateCell)

/-- A `NonDecomposableStatisticsProvider` or `ConvertibleNonDecomposableStatisticsProvider`. -/
structure Provider where
  statistics : Statistics
  evaluation : Evaluation

/-! ### Creation -/

/-- The step for an example, statistics_provider_non_decomposable_dense.cpp:167-170. -/
def createStep (loss : JointLoss) (i : Nat) (c : JointCell) : Res JointCell := do
  let statistics ← loss.update i c.scores c.statistics
  return { c with statistics := statistics }

/-- The steps for all examples. -/
def createTasks (loss : JointLoss) (m : Nat) : List (List (JointCell → Res JointCell)) :=
  (List.range m).map (fun i => [createStep loss i])

/-- The rows that have been allocated: scores are zero, gradients and Hessians are not initialised,
view_statistic_non_decomposable_dense.cpp:7-10, statistics_provider_non_decomposable_dense.cpp:154-157. -/
def Allocated (n m : Nat) (cells : List JointCell) : Prop :=
  cells.length = m ∧
    ∀ c ∈ cells, c.scores = List.replicate n 0 ∧ c.statistics.1.length = n ∧ c.statistics.2.length = triangular32 n

/-- `createStatistics`, statistics_provider_non_decomposable_dense.cpp:146-175, for `m` examples and `n` outputs: the steps are executed in an
arbitrary order. -/
def Creates (loss : JointLoss) (n m : Nat) (result : Res Provider) : Prop :=
  ∃ cells trace, Allocated n m cells ∧ Refinement.Interleaving (createTasks loss m) trace ∧
    result = (do let cells' ← exec trace cells; return ⟨.joint cells', .default⟩)

/-! ### Conversion -/

/-- The loop over the outputs, statistics_provider_non_decomposable_dense.cpp:133-137. -/
def convertRow (n : Nat) (source : List ℝ × List ℝ) (target : List (Stat ℝ)) : Res (List (Stat ℝ)) :=
  loop n (fun j target => do
    let gradient ← readAt source.1 j
    let hessian ← readAt source.2 (diagonalPosition j)
    writeAt target j ⟨gradient, hessian⟩) target

/-- The step for an example, statistics_provider_non_decomposable_dense.cpp:125-138. -/
def convertStep (n : Nat) (c : Cell (List ℝ × List ℝ) (List (Stat ℝ))) : Res (Cell (List ℝ × List ℝ) (List (Stat ℝ))) := do
  let statistics ← convertRow n c.scores c.statistics
  return { c with statistics := statistics }

/-- The steps for all examples. -/
def convertTasks (n m : Nat) : List (List (Cell (List ℝ × List ℝ) (List (Stat ℝ)) → Res (Cell (List ℝ × List ℝ) (List (Stat ℝ))))) :=
  (List.range m).map (fun _ => [convertStep n])

/-- Moving the matrix of scores. -/
def moveScores (cells : List JointCell) (converted : List (Cell (List ℝ × List ℝ) (List (Stat ℝ)))) : List SeparateCell :=
  List.zipWith (fun c d => ⟨c.scores, d.statistics⟩) cells converted

/-- `toDecomposableStatistics`, statistics_provider_non_decomposable_dense.cpp:108-143: the steps are executed in an arbitrary order. The matrix
that is written is not initialised, its content is `scratch`. -/
def Converts (n : Nat) (cells : List JointCell) (result : Res (List SeparateCell)) : Prop :=
  ∃ scratch trace, scratch.length = cells.length ∧ (∀ l ∈ scratch, l.length = n) ∧
    Refinement.Interleaving (convertTasks n cells.length) trace ∧
    result = (do
      let converted ← exec trace (List.zipWith (fun c l => ⟨c.statistics, l⟩) cells scratch)
      return moveScores cells converted)

/-! ### Life of a provider -/

/-- What may happen: a prediction is applied or reverted, or the rule evaluation is switched. -/
inductive Event where
  | call (call : Call ℝ)
  | switch (evaluation : Evaluation)

/-- What the events do, with arbitrary orders of the steps for different examples. `convertible` states whether the provider is a
`ConvertibleNonDecomposableStatisticsProvider`, whose functions `switchToRegularRuleEvaluation` and `switchToPruningRuleEvaluation`,
statistics_provider_non_decomposable.hpp:151-176, convert the statistics when called for the first time. Otherwise, they set the rule
evaluation, lines 69-78. -/
inductive Step (loss : JointLoss) (n : Nat) (convertible : Bool) : Provider → Event → Res Provider → Prop where
  | callJoint {cells evaluation call trace} : Refinement.Interleaving (call.tasks loss.jointOps cells.length) trace →
      Step loss n convertible ⟨.joint cells, evaluation⟩ (.call call) (do let cells' ← exec trace cells; return ⟨.joint cells', evaluation⟩)
  | callSeparate {cells evaluation call trace} : Refinement.Interleaving (call.tasks loss.separateOps cells.length) trace →
      Step loss n convertible ⟨.separate cells, evaluation⟩ (.call call) (do let cells' ← exec trace cells; return ⟨.separate cells', evaluation⟩)
  | convert {cells evaluation new result} : convertible = true → Converts n cells result →
      Step loss n convertible ⟨.joint cells, evaluation⟩ (.switch new) (do let cells' ← result; return ⟨.separate cells', new⟩)
  | keep {cells evaluation new} : convertible = false → Step loss n convertible ⟨.joint cells, evaluation⟩ (.switch new) (.ok ⟨.joint cells, new⟩)
  | set {cells evaluation new} : Step loss n convertible ⟨.separate cells, evaluation⟩ (.switch new) (.ok ⟨.separate cells, new⟩)

/-- Sequences of events. -/
inductive Runs (loss : JointLoss) (n : Nat) (convertible : Bool) : Provider → List Event → Res Provider → Prop where
  | nil {p} : Runs loss n convertible p [] (.ok p)
  | cons {p e p' es result} : Step loss n convertible p e (.ok p') → Runs loss n convertible p' es result →
      Runs loss n convertible p (e :: es) result
  | fault {p e f es} : Step loss n convertible p e (.error f) → Runs loss n convertible p (e :: es) (.error f)

/-! ### The losses -/

/-- The non-decomposable logistic loss, given the labels of all examples. -/
noncomputable def logisticLoss (n : Nat) (labels : Nat → List Bool) : JointLoss where
  update i scores s := Loss.ndLogisticUpdate scores (labels i) s.1 s.2 n
  updateDecomposable i scores s := Loss.ndLogisticUpdateDecomposable scores (labels i) s n

/-- The non-decomposable squared error loss for labels (`convert` is `binaryConversionFunction`) or targets (`convert` is the identity). -/
noncomputable def squaredErrorLoss {T : Type} (convert : T → ℝ) (toBool : T → Bool) (n : Nat) (truth : Nat → List T) : JointLoss where
  update i scores s := Loss.ndSquaredErrorUpdate convert scores (truth i) s.1 s.2 n
  updateDecomposable i scores s := Loss.ndSquaredErrorUpdateDecomposable toBool scores (truth i) s n

/-- The non-decomposable squared hinge loss. -/
noncomputable def squaredHingeLoss (isZero : ℝ → Bool) (n : Nat) (labels : Nat → List Bool) : JointLoss where
  update i scores s := Loss.ndSquaredHingeUpdate isZero scores (labels i) s.1 s.2 n
  updateDecomposable i scores s := Loss.ndSquaredHingeUpdateDecomposable scores (labels i) s n

/-! ### Decomposable losses -/

/-- `updateStatistics` of decomposable statistics, statistics_decomposable_common.hpp:14-59, for a decomposable loss and dense labels, which only
recalculates the statistics of outputs the prediction refers to. `update` is the function for individual outputs. -/
noncomputable def decomposableOps {T : Type} (update : T → ℝ → Stat ℝ) (n : Nat) (truth : Nat → List T) : Ops ℝ (List ℝ) (List (Stat ℝ)) :=
  ⟨changeDense (· + ·), changeDense (· - ·), fun i head scores statistics =>
    match head with
    | .complete _ => LossUpdate.updateComplete update scores (LossUpdate.denseForward (truth i)) 0 statistics n
    | .partial_ entries => LossUpdate.updatePartial update scores (truth i) (entries.map Prod.fst) statistics⟩

end MLRL.Provider
