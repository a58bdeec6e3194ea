import Mathlib.Algebra.Field.Basic
import Mathlib.Algebra.BigOperators.Group.List.Basic
import Mathlib.Logic.Function.Basic

/-!
# Cross validation and the averaging of evaluation results

Model of `python/subprojects/testbed/mlrl/testbed/data_splitting.py` (the splits of a cross validation) and of
`python/subprojects/testbed/mlrl/testbed/evaluation.py` (how the scores of the individual folds are stored, retrieved
and averaged).
-/

namespace MLRL.CrossValidation

/-- The exceptions that may be raised by the modelled code. `assertion` is raised by `EvaluationResult.put` and
`EvaluationResult.get`, `key` is raised when accessing a dictionary, `index` when accessing a list and `none` when a
training set is `None`. -/
inductive Err
  | assertion
  | key
  | index
  | noTrainingSet
deriving DecidableEq, Repr

/-! ## Splits of the available data -/

/-- `CrossValidationFold`, `CrossValidationOverall`, `NoSplit` and `TrainingTestSplit`,
data_splitting.py:87-172. The attribute `current_fold` is -1, if all folds are performed. -/
inductive Split
  | noSplit
  | trainTest
  | fold (numFolds : Nat) (fold : Nat) (currentFold : Int)
  | overall (numFolds : Nat)

/-- `DataSplit.get_num_folds`, data_splitting.py:87-172. -/
def Split.numFolds : Split → Nat
  | .noSplit => 1
  | .trainTest => 1
  | .fold n _ _ => n
  | .overall n => n

/-- `DataSplit.get_fold`, data_splitting.py:98, 116, 144, 168. -/
def Split.getFold : Split → Option Nat
  | .noSplit => none
  | .trainTest => none
  | .fold _ f _ => some f
  | .overall _ => none

/-- `DataSplit.is_last_fold`, data_splitting.py:101, 119, 147-148, 171. -/
def Split.isLastFold : Split → Bool
  | .noSplit => true
  | .trainTest => true
  | .fold n f cur => decide (cur < 0) && decide ((f : Int) = (n : Int) - 1)
  | .overall _ => true

/-- `DataSplit.is_cross_validation_used`, data_splitting.py:78-84. -/
def Split.crossValidation (s : Split) : Bool := decide (1 < s.numFolds)

/-- The folds that are performed, data_splitting.py:437. -/
def performed (numFolds : Nat) (cur : Int) : List Nat :=
  if cur < 0 then List.range numFolds else [cur.toNat]

/-- The loop that assembles the training set of a fold from the predefined folds, data_splitting.py:441-453. The
feature and output matrices are jointly represented by a list of examples, `vstack` is the concatenation. -/
def trainLoop {α : Type} (data : List (List α)) (fold : Nat) : List Nat → Option (List α) → Except Err (Option (List α))
  | [], acc => .ok acc
  | other :: rest, acc =>
    if other ≠ fold then
      match data[other]? with
      | none => .error .index
      | some x =>
        match acc with
        | none => trainLoop data fold rest (some x)
        | some t => trainLoop data fold rest (some (t ++ x))
    else trainLoop data fold rest acc

/-- The training and test set of a fold, data_splitting.py:437-461. A training set that is `None` results in an
exception when the model is trained (`train_x.shape[0]`, experiments.py:355). -/
def foldSets {α : Type} (data : List (List α)) (numFolds fold : Nat) : Except Err (List α × List α) :=
  match trainLoop data fold (List.range numFolds) none with
  | .error e => .error e
  | .ok train =>
    match data[fold]? with
    | none => .error .index
    | some test =>
      match train with
      | none => .error .noTrainingSet
      | some t => .ok (t, test)

/-- `__predefined_cross_validation`, data_splitting.py:410-461: The training and test sets that are passed to the
callback, together with the corresponding split. -/
def predefinedFrom {α : Type} (data : List (List α)) (numFolds : Nat) (cur : Int) :
    List Nat → Except Err (List (Split × List α × List α))
  | [] => .ok []
  | f :: fs =>
    match foldSets data numFolds f with
    | .error e => .error e
    | .ok sets =>
      match predefinedFrom data numFolds cur fs with
      | .error e => .error e
      | .ok rest => .ok ((.fold numFolds f cur, sets) :: rest)

/-- `__predefined_cross_validation`, data_splitting.py:410-461. -/
def predefined {α : Type} (data : List (List α)) (numFolds : Nat) (cur : Int) :
    Except Err (List (Split × List α × List α)) :=
  predefinedFrom data numFolds cur (performed numFolds cur)

/-! ## Evaluation results -/

section
variable {M T S : Type} [DecidableEq M] [DecidableEq T]

/-- An assignment `d[k] = v` to a Python dictionary. The insertion order of the keys is retained. -/
def dictPut (d : List (M × S)) (k : M) (v : S) : List (M × S) :=
  match d with
  | [] => [(k, v)]
  | (k', v') :: rest => if k' = k then (k, v) :: rest else (k', v') :: dictPut rest k v

/-- An access `d[k]` to a Python dictionary. -/
def dictGet (d : List (M × S)) (k : M) : Except Err S :=
  match d with
  | [] => .error .key
  | (k', v') :: rest => if k' = k then .ok v' else dictGet rest k

/-- `EvaluationResult`, evaluation.py:205-212. The set of measures is represented by a list without duplicates in
insertion order (the order in which rows and columns appear in the output is not modelled). -/
structure Result (M S : Type) where
  measures : List M
  results : Option (List (List (M × S)))

/-- The constructor of `EvaluationResult`, evaluation.py:210-212. -/
def Result.empty : Result M S := ⟨[], none⟩

/-- `self.measures.add(measure)`, evaluation.py:228. -/
def addMeasure (ms : List M) (m : M) : List M := if m ∈ ms then ms else ms ++ [m]

/-- `EvaluationResult.put`, evaluation.py:214-230. -/
def Result.put (r : Result M S) (m : M) (score : S) (numFolds : Nat) (fold : Option Nat) : Except Err (Result M S) :=
  let results := match r.results with
    | none => List.replicate numFolds []
    | some rs => rs
  if results.length ≠ numFolds then .error .assertion
  else
    let f := fold.getD 0
    match results[f]? with
    | none => .error .index
    | some values => .ok ⟨addMeasure r.measures m, some (results.set f (dictPut values m score))⟩

/-- `EvaluationResult.dict`, evaluation.py:246-262. The formatting of scores is not modelled. -/
def Result.dict (r : Result M S) (fold : Option Nat) : Except Err (List (M × S)) :=
  match r.results with
  | none => .error .assertion
  | some rs =>
    match rs[fold.getD 0]? with
    | none => .error .index
    | some values => .ok values

variable [Field S]

/-- `np.average`, for a non-empty array. -/
def average (vs : List S) : S := vs.sum / (vs.length : S)

/-- The square of `np.std` (the population variance), for a non-empty array. -/
def variance (vs : List S) : S := average (vs.map fun v => (v - average vs) ^ 2)

/-- The list comprehension `[results[measure] for results in self.results if len(results) > 0]`,
evaluation.py:271. -/
def collect (m : M) : List (List (M × S)) → Except Err (List S)
  | [] => .ok []
  | d :: ds =>
    if 0 < d.length then
      match dictGet d m with
      | .error e => .error e
      | .ok v =>
        match collect m ds with
        | .error e => .error e
        | .ok vs => .ok (v :: vs)
    else collect m ds

/-- `EvaluationResult.avg`, evaluation.py:264-273. Returns the average and the square of the standard deviation. -/
def Result.avg (r : Result M S) (m : M) : Except Err (S × S) :=
  match r.results with
  | none => .error .assertion
  | some rs =>
    match collect m rs with
    | .error e => .error e
    | .ok vs => .ok (average vs, variance vs)

/-- The loop in `EvaluationResult.avg_dict`, evaluation.py:275-290. -/
def Result.avgDictFrom (r : Result M S) : List M → Except Err (List (M × S × S))
  | [] => .ok []
  | m :: ms =>
    match r.avg m with
    | .error e => .error e
    | .ok a =>
      match r.avgDictFrom ms with
      | .error e => .error e
      | .ok rest => .ok ((m, a) :: rest)

/-- `EvaluationResult.avg_dict`, evaluation.py:275-290. -/
def Result.avgDict (r : Result M S) : Except Err (List (M × S × S)) := r.avgDictFrom r.measures

/-- An evaluation of the predictions for training or test data: the type of the data, the size of the model (`none`, if
the predictions have been obtained from a global model), and the scores according to the individual measures
(including the times needed for training and prediction, evaluation.py:408-409). The computation of the scores by
scikit-learn is not modelled. -/
structure Evaluation (M T S : Type) where
  dataType : T
  modelSize : Option Nat
  scores : List (M × S)

/-- What is written to a sink: the results of a single fold (or of a train-test split) or the results averaged over all
folds. -/
inductive Output (M T S : Type)
  | single (dataType : T) (modelSize : Option Nat) (fold : Option Nat) (scores : List (M × S))
  | overall (dataType : T) (modelSize : Option Nat) (scores : List (M × S × S))

/-- Repeated calls of `put`, evaluation.py:408-410, 437-440. -/
def putAll (r : Result M S) (numFolds : Nat) (fold : Option Nat) : List (M × S) → Except Err (Result M S)
  | [] => .ok r
  | (m, s) :: rest =>
    match r.put m s numFolds fold with
    | .error e => .error e
    | .ok r' => putAll r' numFolds fold rest

/-- The results stored by an `EvaluationWriter` per type of data, evaluation.py:384. -/
abbrev Results (M T S : Type) := T → Option (Result M S)

/-- `EvaluationWriter._generate_output_data`, evaluation.py:400-411. -/
def generate (st : Results M T S) (split : Split) (e : Evaluation M T S) : Except Err (Results M T S × Result M S) :=
  match putAll ((st e.dataType).getD Result.empty) split.numFolds split.getFold e.scores with
  | .error err => .error err
  | .ok r => .ok (Function.update st e.dataType (some r), r)

/-- `EvaluationWriter.CsvSink.write_output` (and likewise `LogSink.write_output`), evaluation.py:344-380, with all
measures enabled. -/
def sink (split : Split) (e : Evaluation M T S) (r : Result M S) : Except Err (List (Output M T S)) :=
  let fold := if split.crossValidation then split.getFold else some 0
  match (match fold with
    | none => match r.avgDict with
      | .error err => .error err
      | .ok a => .ok (Output.overall e.dataType e.modelSize a)
    | some f => match r.dict (some f) with
      | .error err => .error err
      | .ok d => .ok (Output.single e.dataType e.modelSize split.getFold d) : Except Err (Output M T S)) with
  | .error err => .error err
  | .ok out =>
    if split.crossValidation && split.isLastFold then
      match r.avgDict with
      | .error err => .error err
      | .ok a => .ok [out, Output.overall e.dataType e.modelSize a]
    else .ok [out]

/-- `OutputWriter.write_output` for a single sink, output_writer.py:218-262. -/
def write (st : Results M T S) (split : Split) (e : Evaluation M T S) :
    Except Err (Results M T S × List (Output M T S)) :=
  match generate st split e with
  | .error err => .error err
  | .ok (st', r) =>
    match sink split e r with
    | .error err => .error err
    | .ok outs => .ok (st', outs)

/-- The evaluations that take place during an experiment, in chronological order. An experiment consists of one call of
`Experiment.train_and_evaluate` per split (experiments.py:306-389), each of which results in evaluations for the
training and test data, one (`GlobalEvaluation`) or several (`IncrementalEvaluation`) for each of them. -/
def run (st : Results M T S) : List (Split × Evaluation M T S) → Except Err (List (Output M T S))
  | [] => .ok []
  | (split, e) :: rest =>
    match write st split e with
    | .error err => .error err
    | .ok (st', outs) =>
      match run st' rest with
      | .error err => .error err
      | .ok outs' => .ok (outs ++ outs')

/-- An experiment using all evaluations. -/
def experiment (evals : List (Split × Evaluation M T S)) : Except Err (List (Output M T S)) :=
  run (fun _ => none) evals

/-- The evaluations that take place during a cross validation: for each of the performed folds (data_splitting.py:437,
477-478) the evaluations of the model that has been trained for this fold. -/
def crossValidation (numFolds : Nat) (cur : Int) (evals : Nat → List (Evaluation M T S)) :
    List (Split × Evaluation M T S) :=
  (performed numFolds cur).flatMap fun f => (evals f).map fun e => (.fold numFolds f cur, e)

end

end MLRL.CrossValidation
