import Verif.Model.ParameterFiles

/-!
# Experiments: training, saving, loading and evaluating models

The data, the parameters of a learner, its models and its predictions are not specified any further.  Files are identified
by their names; errors that occur when reading or writing a file (they are logged and ignored by the code) are not
modelled.  Messages that are logged, including the warning about parameters that differ from those of a loaded model
(experiments.py:471-490), and output writers are omitted.
-/

namespace MLRL.Experiment

open ParameterFiles (Str fileNamePerFold)

/-- The formats of matrices (`is_sparse`). -/
inductive Format where
  | dense | sparse
  deriving DecidableEq, Repr

/-- Exceptions: `ValueError` or any other one. -/
inductive PyError where
  | valueError | other
  deriving DecidableEq, Repr

/-- A learner: its class, its parameters and the model it has been fit to, if any. -/
structure Learner (P M : Type) where
  cls : Nat
  params : P
  model : Option M

/-- Whether predictions correspond to the training or test data, data_splitting.py (`DataType`). -/
inductive DataType where
  | training | test
  deriving DecidableEq, Repr

/-- An object of the class `DataSplit`, python/subprojects/testbed/mlrl/testbed/data_splitting.py:41-190, together with the
training and test data that are passed to the callback, and the formats of the feature and output matrices. -/
structure Split (D : Type) where
  fold : Option Nat
  separated : Bool
  train : D
  test : D
  xFormat : Format
  yFormat : Format

/-- An object of the class `Experiment`, python/subprojects/testbed/mlrl/testbed/experiments.py:246-292.  `fit` and `predict`
are the functions of the learner, given the formats of the matrices.  `applyParameters` is the result of
`current_learner.set_params` for the parameters that are read from a file, if any. -/
structure Setting (D P M R : Type) where
  learnerName : Str
  base : Learner P M
  isInstance : Nat → Nat → Bool
  applyParameters : Option Nat → P → Except PyError P
  persistence : Bool
  trainEvaluation : Bool
  testEvaluation : Bool
  fit : P → Format → Format → D → Except PyError M
  predict : P → Option M → Format → D → Except PyError R

/-- The files in the directory where models are stored. -/
abbrev Files (P M : Type) := Str → Option (Learner P M)

variable {D P M R : Type}

/-- The number of conversions that are possible. -/
def Format.weight : Format → Nat
  | .dense => 0
  | .sparse => 1

/-- `Experiment.__train`, experiments.py:420-443: if an error of the type `ValueError` is raised, the output matrix is
converted into a dense format, and afterwards the feature matrix. -/
def train (fit : Format → Format → Except PyError M) (x y : Format) : Except PyError M :=
  match fit x y with
  | .ok m => .ok m
  | .error .other => .error .other
  | .error .valueError =>
    match x, y with
    | x, .sparse => train fit x .dense
    | .sparse, .dense => train fit .dense .dense
    | .dense, .dense => .error .valueError
termination_by x.weight + y.weight
decreasing_by all_goals simp [Format.weight]

/-- `Experiment.__predict_and_evaluate`, experiments.py:391-418. -/
def predictAndEvaluate (predict : Format → Except PyError R) (x : Format) : Except PyError R :=
  match predict x with
  | .ok r => .ok r
  | .error .other => .error .other
  | .error .valueError =>
    match x with
    | .sparse => predictAndEvaluate predict .dense
    | .dense => .error .valueError
termination_by x.weight
decreasing_by simp [Format.weight]

/-- The name of the file a model is stored in, python/subprojects/testbed/mlrl/testbed/persistence.py:39, 58. -/
def Setting.modelFile (s : Setting D P M R) (split : Split D) : Str :=
  fileNamePerFold s.learnerName "model".toList split.fold

/-- `Experiment.__load_model`, experiments.py:445-457, and `ModelPersistence.load_model`, persistence.py:50-71. -/
def Setting.loadModel (s : Setting D P M R) (files : Files P M) (split : Split D) : Option (Learner P M) :=
  if s.persistence then files (s.modelFile split) else none

/-- `Experiment.__save_model`, experiments.py:459-469, and `ModelPersistence.save_model`, persistence.py:31-48. -/
def Setting.saveModel (s : Setting D P M R) (files : Files P M) (split : Split D) (learner : Learner P M) : Files P M :=
  if s.persistence then fun name => if name = s.modelFile split then some learner else files name else files

/-- The learner that is used for a split, whether a model has been trained, and the predictions that have been evaluated. -/
structure Outcome (D P M R : Type) where
  learner : Learner P M
  trained : Bool
  evaluations : List (DataType × D × R)

/-- The evaluation of the predictions for training and test data, experiments.py:361-379. -/
def Setting.evaluate (s : Setting D P M R) (split : Split D) (learner : Learner P M) :
    Except PyError (List (DataType × D × R)) := do
  let first ← if s.trainEvaluation && split.separated then do
      let r ← predictAndEvaluate (fun format => s.predict learner.params learner.model format split.train) split.xFormat
      .ok [(DataType.training, split.train, r)]
    else .ok []
  let second ← if s.testEvaluation then do
      let dataType := if split.separated then DataType.test else DataType.training
      let r ← predictAndEvaluate (fun format => s.predict learner.params learner.model format split.test) split.xFormat
      .ok [(dataType, split.test, r)]
    else .ok []
  .ok (first ++ second)

/-- `Experiment.train_and_evaluate`, experiments.py:306-389. -/
def Setting.trainAndEvaluate (s : Setting D P M R) (files : Files P M) (split : Split D) :
    Except PyError (Files P M × Outcome D P M R) := do
  let params ← s.applyParameters split.fold s.base.params
  let current : Learner P M := { cls := s.base.cls, params, model := none }
  let loaded := match s.loadModel files split with
    | some loaded => if s.isInstance loaded.cls current.cls then some loaded else none
    | none => none
  match loaded with
  | some loaded =>
    let learner := { loaded with params := current.params }
    let evaluations ← s.evaluate split learner
    .ok (files, { learner, trained := false, evaluations })
  | none =>
    let model ← train (fun x y => s.fit current.params x y split.train) split.xFormat split.yFormat
    let learner := { current with model := some model }
    let files := s.saveModel files split learner
    let evaluations ← s.evaluate split learner
    .ok (files, { learner, trained := true, evaluations })

/-- `Experiment.run`, experiments.py:294-304: the callback is invoked for one split after the other. -/
def Setting.run (s : Setting D P M R) (files : Files P M) : List (Split D) →
    Except PyError (Files P M × List (Outcome D P M R))
  | [] => .ok (files, [])
  | split :: splits => do
    let (files, outcome) ← s.trainAndEvaluate files split
    let (files, outcomes) ← s.run files splits
    .ok (files, outcome :: outcomes)

end MLRL.Experiment
