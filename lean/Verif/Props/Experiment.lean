import Verif.Model.Experiment
import Verif.Props.ParameterFiles
import Mathlib.Data.List.Forall2

/-!
# C113: Experiments use models that have been trained for the respective fold
-/

namespace MLRL.Experiment

open ParameterFiles (Str fileNamePerFold fileNamePerFold_inj)

variable {D P M R : Type}

/-! ### Specification -/

/-- The formats of the feature and output matrix that should be tried, one after the other, until a learner is able to deal
with one of them. -/
def attempts : Format → Format → List (Format × Format)
  | .sparse, .sparse => [(.sparse, .sparse), (.sparse, .dense), (.dense, .dense)]
  | .dense, .sparse => [(.dense, .sparse), (.dense, .dense)]
  | .sparse, .dense => [(.sparse, .dense), (.dense, .dense)]
  | .dense, .dense => [(.dense, .dense)]

/-- `Settles tries result`: the first of several results that is not a `ValueError`, or a `ValueError` if there is none. -/
inductive Settles {A : Type} : List (Except PyError A) → Except PyError A → Prop
  | nil : Settles [] (.error .valueError)
  | skip {rest result} : Settles rest result → Settles (.error .valueError :: rest) result
  | stop {rest result} : result ≠ .error .valueError → Settles (result :: rest) result

/-- The evaluations to be performed: training data is only evaluated separately if there is a separate test set. -/
def expected (trainEvaluation testEvaluation : Bool) (split : Split D) : List (DataType × D) :=
  match split.separated, trainEvaluation, testEvaluation with
  | true, true, true => [(.training, split.train), (.test, split.test)]
  | true, true, false => [(.training, split.train)]
  | true, false, true => [(.test, split.test)]
  | false, _, true => [(.training, split.test)]
  | _, _, _ => []

/-! ### Formats -/

/-- **The most compact format a learner can deal with is used for training**: the result is the one of the first attempt
that does not fail with a `ValueError`. -/
theorem train_settles (fit : Format → Format → Except PyError M) (x y : Format) :
    Settles ((attempts x y).map fun a => fit a.1 a.2) (train fit x y) := by
  have hdd : Settles [fit .dense .dense] (train fit .dense .dense) := by
    rw [train]
    rcases h : fit .dense .dense with (_ | _) | m
    · exact .skip .nil
    · exact .stop (by simp)
    · exact .stop (by simp)
  have hsd : Settles [fit .sparse .dense, fit .dense .dense] (train fit .sparse .dense) := by
    rw [train]
    rcases h : fit .sparse .dense with (_ | _) | m
    · exact .skip hdd
    · exact .stop (by simp)
    · exact .stop (by simp)
  cases x <;> cases y
  · exact hdd
  · show Settles [fit .dense .sparse, fit .dense .dense] _
    rw [train]
    rcases h : fit .dense .sparse with (_ | _) | m
    · exact .skip hdd
    · exact .stop (by simp)
    · exact .stop (by simp)
  · exact hsd
  · show Settles [fit .sparse .sparse, fit .sparse .dense, fit .dense .dense] _
    rw [train]
    rcases h : fit .sparse .sparse with (_ | _) | m
    · exact .skip hsd
    · exact .stop (by simp)
    · exact .stop (by simp)

/-- Predictions are obtained in the same manner. -/
theorem predict_settles (predict : Format → Except PyError R) (x : Format) :
    Settles (match x with
      | .sparse => [predict .sparse, predict .dense]
      | .dense => [predict .dense]) (predictAndEvaluate predict x) := by
  have hd : Settles [predict .dense] (predictAndEvaluate predict .dense) := by
    rw [predictAndEvaluate]
    rcases h : predict .dense with (_ | _) | m
    · exact .skip .nil
    · exact .stop (by simp)
    · exact .stop (by simp)
  cases x
  · exact hd
  · show Settles [predict .sparse, predict .dense] _
    rw [predictAndEvaluate]
    rcases h : predict .sparse with (_ | _) | m
    · exact .skip hd
    · exact .stop (by simp)
    · exact .stop (by simp)

theorem Settles.ok_of_last {A : Type} {l : List (Except PyError A)} {result : Except PyError A} {a : A}
    (h : Settles (l ++ [.ok a]) result) (hl : ∀ r ∈ l, r ≠ .error .other) : ∃ a', result = .ok a' := by
  induction l with
  | nil =>
    cases h with
    | stop _ => exact ⟨a, rfl⟩
  | cons r l ih =>
    cases h with
    | skip h => exact ih h fun r hr => hl r (List.mem_cons_of_mem _ hr)
    | stop hr =>
      have h0 := hl _ List.mem_cons_self
      rcases result with (_ | _) | m
      · exact absurd rfl hr
      · exact absurd rfl h0
      · exact ⟨m, rfl⟩

/-- **A learner that can only deal with dense matrices can be trained on sparse ones**, as long as it rejects them by
raising a `ValueError`. -/
theorem train_of_dense (fit : Format → Format → Except PyError M) (x y : Format) {m : M}
    (hd : fit .dense .dense = .ok m) (ho : ∀ x y, fit x y ≠ .error .other) : ∃ m', train fit x y = .ok m' := by
  have h := train_settles fit x y
  cases x <;> cases y <;> simp only [attempts, List.map_cons, List.map_nil, hd] at h
  · exact h.ok_of_last (l := []) (by simp)
  · exact h.ok_of_last (l := [fit .dense .sparse]) (by simpa using ho _ _)
  · exact h.ok_of_last (l := [fit .sparse .dense]) (by simpa using ho _ _)
  · exact h.ok_of_last (l := [fit .sparse .sparse, fit .sparse .dense]) (by simpa using ⟨ho _ _, ho _ _⟩)

/-! ### A single split -/

/-- **The evaluated predictions are those of the learner for the respective data.** -/
theorem evaluate_eq {s : Setting D P M R} {split : Split D} {learner : Learner P M} {evaluations}
    (h : s.evaluate split learner = .ok evaluations) :
    (evaluations.map fun e => (e.1, e.2.1)) = expected s.trainEvaluation s.testEvaluation split ∧
    ∀ e ∈ evaluations,
      predictAndEvaluate (fun format => s.predict learner.params learner.model format e.2.1) split.xFormat = .ok e.2.2 := by
  unfold Setting.evaluate at h
  unfold expected
  cases h1 : s.trainEvaluation <;> cases h2 : split.separated <;> cases h3 : s.testEvaluation <;>
    simp only [h1, h2, h3, Bool.and_true, Bool.and_false, Bool.and_self, if_true, Bool.false_eq_true,
      if_false, bind, Except.bind] at h ⊢
  all_goals
    cases hr : predictAndEvaluate (fun format => s.predict learner.params learner.model format split.train)
      split.xFormat <;>
    cases hr' : predictAndEvaluate (fun format => s.predict learner.params learner.model format split.test)
      split.xFormat <;> simp only [hr, hr', reduceCtorEq, Except.ok.injEq, List.nil_append, List.append_nil] at h <;>
    subst h <;> simp [hr, hr']

/-- What is known after a single split has been processed. -/
theorem step {s : Setting D P M R} {files files' : Files P M} {split : Split D} {o : Outcome D P M R}
    (h : s.trainAndEvaluate files split = .ok (files', o)) :
    s.applyParameters split.fold s.base.params = .ok o.learner.params ∧
    s.evaluate split o.learner = .ok o.evaluations ∧
    ((o.trained = true ∧ o.learner.cls = s.base.cls ∧
        (∀ loaded, s.loadModel files split = some loaded → s.isInstance loaded.cls s.base.cls = false) ∧
        (∃ m, o.learner.model = some m ∧
          train (fun x y => s.fit o.learner.params x y split.train) split.xFormat split.yFormat = .ok m) ∧
        files' = s.saveModel files split o.learner) ∨
      (o.trained = false ∧ files' = files ∧ ∃ loaded, s.loadModel files split = some loaded ∧
        s.isInstance loaded.cls s.base.cls = true ∧ o.learner = { loaded with params := o.learner.params })) := by
  unfold Setting.trainAndEvaluate at h
  simp only [bind, Except.bind] at h
  cases hp : s.applyParameters split.fold s.base.params with
  | error e => simp [hp] at h
  | ok params =>
    simp only [hp] at h
    cases hl : s.loadModel files split with
    | none =>
      simp only [hl] at h
      cases ht : train (fun x y => s.fit params x y split.train) split.xFormat split.yFormat with
      | error e => simp [ht] at h
      | ok model =>
        simp only [ht] at h
        cases he : s.evaluate split { cls := s.base.cls, params, model := some model } with
        | error e => simp [he] at h
        | ok evaluations =>
          simp only [he, Except.ok.injEq, Prod.mk.injEq] at h
          obtain ⟨rfl, rfl⟩ := h
          exact ⟨rfl, he, .inl ⟨rfl, rfl, by simp, ⟨model, rfl, ht⟩, rfl⟩⟩
    | some loaded =>
      cases hi : s.isInstance loaded.cls s.base.cls with
      | false =>
        simp only [hl, hi, Bool.false_eq_true, if_false] at h
        cases ht : train (fun x y => s.fit params x y split.train) split.xFormat split.yFormat with
        | error e => simp [ht] at h
        | ok model =>
          simp only [ht] at h
          cases he : s.evaluate split { cls := s.base.cls, params, model := some model } with
          | error e => simp [he] at h
          | ok evaluations =>
            simp only [he, Except.ok.injEq, Prod.mk.injEq] at h
            obtain ⟨rfl, rfl⟩ := h
            exact ⟨rfl, he, .inl ⟨rfl, rfl, by intro l' hl'; cases hl'; exact hi, ⟨model, rfl, ht⟩, rfl⟩⟩
      | true =>
        simp only [hl, hi, if_true] at h
        cases he : s.evaluate split { loaded with params := params } with
        | error e => simp [he] at h
        | ok evaluations =>
          simp only [he, Except.ok.injEq, Prod.mk.injEq] at h
          obtain ⟨rfl, rfl⟩ := h
          exact ⟨rfl, he, .inr ⟨rfl, rfl, loaded, rfl, hi, rfl⟩⟩

/-- A single split does not affect any files, except for the one of its own model. -/
theorem step_files {s : Setting D P M R} {files files' : Files P M} {split : Split D} {o : Outcome D P M R}
    (h : s.trainAndEvaluate files split = .ok (files', o)) {name : Str} (hn : name ≠ s.modelFile split) :
    files' name = files name := by
  obtain ⟨-, -, ⟨-, -, -, -, rfl⟩ | ⟨-, rfl, -⟩⟩ := step h
  · unfold Setting.saveModel
    split
    · simp [hn]
    · rfl
  · rfl

/-- The model of a split that has been processed is found again. -/
theorem step_again {s : Setting D P M R} {files files' files2 : Files P M} {split : Split D} {o : Outcome D P M R}
    (hp : s.persistence = true) (hi : s.isInstance s.base.cls s.base.cls = true)
    (h : s.trainAndEvaluate files split = .ok (files', o)) (h2 : files2 (s.modelFile split) = files' (s.modelFile split)) :
    s.trainAndEvaluate files2 split = .ok (files2, { o with trained := false }) := by
  obtain ⟨ha, he, hcase⟩ := step h
  have hload : ∃ loaded, s.loadModel files2 split = some loaded ∧ s.isInstance loaded.cls s.base.cls = true ∧
      o.learner = { loaded with params := o.learner.params } := by
    rcases hcase with ⟨-, hc, -, -, rfl⟩ | ⟨-, rfl, loaded, hl, hli, ho⟩
    · refine ⟨o.learner, ?_, hc ▸ hi, rfl⟩
      simp only [Setting.loadModel, hp, if_true, h2, Setting.saveModel]
    · refine ⟨loaded, ?_, hli, ho⟩
      simpa only [Setting.loadModel, hp, if_true, h2] using hl
  obtain ⟨loaded, hl, hli, ho⟩ := hload
  unfold Setting.trainAndEvaluate
  simp only [bind, Except.bind, ha, hl, hli, if_true]
  rw [← ho, he]

/-! ### All splits -/

theorem run_cons {s : Setting D P M R} {files files' : Files P M} {split : Split D} {splits : List (Split D)} {outs}
    (h : s.run files (split :: splits) = .ok (files', outs)) :
    ∃ files1 o outs', s.trainAndEvaluate files split = .ok (files1, o) ∧ s.run files1 splits = .ok (files', outs') ∧
      outs = o :: outs' := by
  simp only [Setting.run, bind, Except.bind] at h
  cases h1 : s.trainAndEvaluate files split with
  | error e => simp [h1] at h
  | ok r =>
    obtain ⟨files1, o⟩ := r
    simp only [h1] at h
    cases h2 : s.run files1 splits with
    | error e => simp [h2] at h
    | ok r =>
      obtain ⟨files2, outs'⟩ := r
      simp only [h2, Except.ok.injEq, Prod.mk.injEq] at h
      obtain ⟨rfl, rfl⟩ := h
      exact ⟨files1, o, outs', rfl, h2, rfl⟩

/-- **Experiments do not affect any files, except for those of their own folds.** -/
theorem run_files {s : Setting D P M R} {files files' : Files P M} {splits : List (Split D)} {outs}
    (h : s.run files splits = .ok (files', outs)) {name : Str}
    (hn : ∀ split ∈ splits, name ≠ fileNamePerFold s.learnerName "model".toList split.fold) : files' name = files name := by
  induction splits generalizing files outs with
  | nil =>
    simp only [Setting.run, Except.ok.injEq, Prod.mk.injEq] at h
    rw [h.1]
  | cons split splits ih =>
    obtain ⟨files1, o, outs', h1, h2, rfl⟩ := run_cons h
    rw [ih h2 fun x hx => hn x (List.mem_cons_of_mem _ hx)]
    exact step_files h1 (hn split List.mem_cons_self)

/-- The results of a second run. -/
theorem run_again {s : Setting D P M R} {files files' files2 : Files P M} {splits : List (Split D)} {outs}
    (hp : s.persistence = true) (hi : s.isInstance s.base.cls s.base.cls = true)
    (hd : (splits.map Split.fold).Nodup) (h : s.run files splits = .ok (files', outs))
    (h2 : ∀ split ∈ splits, files2 (s.modelFile split) = files' (s.modelFile split)) :
    s.run files2 splits = .ok (files2, outs.map fun o => { o with trained := false }) := by
  induction splits generalizing files outs with
  | nil =>
    simp only [Setting.run, Except.ok.injEq, Prod.mk.injEq] at h
    obtain ⟨-, rfl⟩ := h
    rfl
  | cons split splits ih =>
    rw [List.map_cons, List.nodup_cons] at hd
    obtain ⟨files1, o, outs', h1, h3, rfl⟩ := run_cons h
    have h4 : files' (s.modelFile split) = files1 (s.modelFile split) := by
      refine run_files h3 fun x hx he => hd.1 ?_
      rw [((fileNamePerFold_inj ..).1 he).2]
      exact List.mem_map_of_mem hx
    have h5 := step_again hp hi h1 ((h2 split List.mem_cons_self).trans h4)
    have h6 := ih hd.2 h3 fun x hx => h2 x (List.mem_cons_of_mem _ hx)
    simp only [Setting.run, bind, Except.bind, h5, h6, List.map_cons]

/-- **An experiment whose models have been stored can be repeated without training**: the same learners are used for the
individual folds, the same predictions are evaluated, no model is trained, and no file is changed. -/
theorem second_run {s : Setting D P M R} {files files' : Files P M} {splits : List (Split D)} {outs}
    (hp : s.persistence = true) (hi : s.isInstance s.base.cls s.base.cls = true)
    (hd : (splits.map Split.fold).Nodup) (h : s.run files splits = .ok (files', outs)) :
    s.run files' splits = .ok (files', outs.map fun o => { o with trained := false }) :=
  run_again hp hi hd h fun _ _ => rfl

/-- What the outcome for a split should be if no stored models are used: the learner has the parameters of the fold, it has
been fit to the training data of this split, using the first possible format, and its predictions for the data to be
evaluated are obtained. -/
structure Faithful (s : Setting D P M R) (split : Split D) (o : Outcome D P M R) : Prop where
  trained : o.trained = true
  params : s.applyParameters split.fold s.base.params = .ok o.learner.params
  model : ∃ m, o.learner.model = some m ∧
    Settles ((attempts split.xFormat split.yFormat).map fun a => s.fit o.learner.params a.1 a.2 split.train) (.ok m)
  data : (o.evaluations.map fun e => (e.1, e.2.1)) = expected s.trainEvaluation s.testEvaluation split
  predictions : ∀ e ∈ o.evaluations, Settles (match split.xFormat with
      | .sparse => [s.predict o.learner.params o.learner.model .sparse e.2.1,
          s.predict o.learner.params o.learner.model .dense e.2.1]
      | .dense => [s.predict o.learner.params o.learner.model .dense e.2.1]) (.ok e.2.2)

/-- **Without any stored models, each model is trained and evaluated on the data of its own fold.** -/
theorem fresh_run_partial {s : Setting D P M R} {files files' : Files P M} {splits : List (Split D)} {outs}
    (hd : (splits.map Split.fold).Nodup)
    (hf : s.persistence = true →
      ∀ split ∈ splits, files (fileNamePerFold s.learnerName "model".toList split.fold) = none)
    (h : s.run files splits = .ok (files', outs)) : List.Forall₂ (Faithful s) splits outs := by
  induction splits generalizing files outs with
  | nil =>
    simp only [Setting.run, Except.ok.injEq, Prod.mk.injEq] at h
    obtain ⟨-, rfl⟩ := h
    exact .nil
  | cons split splits ih =>
    rw [List.map_cons, List.nodup_cons] at hd
    obtain ⟨files1, o, outs', h1, h3, rfl⟩ := run_cons h
    refine .cons ?_ (ih hd.2 (fun hp x hx => ?_) h3)
    · obtain ⟨ha, he, hcase⟩ := step h1
      have he' := evaluate_eq he
      rcases hcase with ⟨ht, -, -, ⟨m, hm, hfit⟩, -⟩ | ⟨-, -, loaded, hl, -⟩
      · refine ⟨ht, ha, ⟨m, hm, ?_⟩, he'.1, fun e hee => ?_⟩
        · rw [← hfit]
          exact train_settles (fun x y => s.fit o.learner.params x y split.train) _ _
        · rw [← he'.2 e hee]
          exact predict_settles (fun format => s.predict o.learner.params o.learner.model format e.2.1) _
      · exfalso
        unfold Setting.loadModel at hl
        cases hp : s.persistence with
        | false => simp [hp] at hl
        | true =>
          have := hf hp split List.mem_cons_self
          simp only [hp, if_true, Setting.modelFile, this, reduceCtorEq] at hl
    · rw [step_files h1]
      · exact hf hp x (List.mem_cons_of_mem _ hx)
      · intro he
        refine hd.1 ?_
        rw [← ((fileNamePerFold_inj ..).1 he).2]
        exact List.mem_map_of_mem hx

/-! ### Witnesses -/

/-- A learner that memorizes its training examples and can only deal with dense output matrices. -/
def memorizer : Setting (List Nat) Nat (List Nat) (List Bool) where
  learnerName := "boosting".toList
  base := { cls := 0, params := 7, model := none }
  isInstance := fun c d => c == d
  applyParameters := fun _ p => .ok p
  persistence := true
  trainEvaluation := true
  testEvaluation := true
  fit := fun _ _ y data => match y with
    | .sparse => .error .valueError
    | .dense => .ok data
  predict := fun _ model _ data => match model with
    | some m => .ok (data.map fun e => m.contains e)
    | none => .error .other

/-- Two folds of a cross validation. -/
def crossValidation : List (Split (List Nat)) :=
  [{ fold := some 0, separated := true, train := [1, 2], test := [3], xFormat := .sparse, yFormat := .sparse },
    { fold := some 1, separated := true, train := [3], test := [1, 2], xFormat := .sparse, yFormat := .sparse }]

/-- All examples are used for training and testing. -/
def noSplit : Split (List Nat) :=
  { fold := none, separated := false, train := [1, 2, 3], test := [1, 2, 3], xFormat := .dense, yFormat := .dense }

/-- The examples are split into a training and a test set. -/
def trainTestSplit : Split (List Nat) :=
  { fold := none, separated := true, train := [1, 2], test := [3], xFormat := .dense, yFormat := .dense }

/-- The evaluations of a model that memorizes its training examples. -/
def memorizerEvaluations (split : Split (List Nat)) (m : List Nat) : List (DataType × List Nat × List Bool) :=
  (if split.separated then [(.training, split.train, split.train.map fun e => m.contains e)] else []) ++
    [(if split.separated then .test else .training, split.test, split.test.map fun e => m.contains e)]

theorem memorizer_evaluate (split : Split (List Nat)) (m : List Nat) :
    memorizer.evaluate split { cls := 0, params := 7, model := some m } = .ok (memorizerEvaluations split m) := by
  have hp : ∀ d x, predictAndEvaluate (fun format => memorizer.predict 7 (some m) format d) x =
      .ok (d.map fun e => m.contains e) := by
    intro d x
    cases x <;> rw [predictAndEvaluate] <;> rfl
  unfold Setting.evaluate memorizerEvaluations
  simp only [hp, bind, Except.bind]
  cases split.separated <;> rfl

theorem memorizer_fresh {files : Files Nat (List Nat)} {split : Split (List Nat)}
    (h : files (memorizer.modelFile split) = none) :
    memorizer.trainAndEvaluate files split =
      .ok (memorizer.saveModel files split { cls := 0, params := 7, model := some split.train },
        { learner := { cls := 0, params := 7, model := some split.train }, trained := true,
          evaluations := memorizerEvaluations split split.train }) := by
  have ht : ∀ x y, train (fun x y => memorizer.fit 7 x y split.train) x y = .ok split.train := by
    intro x y
    have hd : ∀ x, train (fun x y => memorizer.fit 7 x y split.train) x .dense = .ok split.train := by
      intro x
      cases x <;> rw [train] <;> rfl
    cases y
    · exact hd x
    · cases x <;> rw [train] <;> exact hd _
  have hl : memorizer.loadModel files split = none := h
  have ha : memorizer.applyParameters split.fold memorizer.base.params = .ok 7 := rfl
  unfold Setting.trainAndEvaluate
  simp only [bind, Except.bind, ha, hl, ht]
  rw [show memorizer.base.cls = 0 from rfl, memorizer_evaluate]

theorem memorizer_stored {files : Files Nat (List Nat)} {split : Split (List Nat)} {m : List Nat}
    (h : files (memorizer.modelFile split) = some { cls := 0, params := 7, model := some m }) :
    memorizer.trainAndEvaluate files split =
      .ok (files,
        { learner := { cls := 0, params := 7, model := some m }, trained := false,
          evaluations := memorizerEvaluations split m }) := by
  have hl : memorizer.loadModel files split = some ⟨0, 7, some m⟩ := h
  have ha : memorizer.applyParameters split.fold memorizer.base.params = .ok 7 := rfl
  have hi : memorizer.isInstance 0 memorizer.base.cls = true := rfl
  unfold Setting.trainAndEvaluate
  simp only [bind, Except.bind, ha, hl, hi, if_true, memorizer_evaluate]

theorem memorizer_single {files files' : Files Nat (List Nat)} {split : Split (List Nat)} {o}
    (h : memorizer.trainAndEvaluate files split = .ok (files', o)) :
    memorizer.run files [split] = .ok (files', [o]) := by
  simp only [Setting.run, bind, Except.bind, h]

/-- The theorems above apply to a cross validation. -/
theorem crossValidation_run :
    (crossValidation.map Split.fold).Nodup ∧ ∃ files' outs,
      memorizer.run (fun _ => none) crossValidation = .ok (files', outs) ∧
      outs.map (fun o => (o.trained, o.learner.model, o.evaluations)) =
        [(true, some [1, 2], [(.training, [1, 2], [true, true]), (.test, [3], [false])]),
          (true, some [3], [(.training, [3], [true]), (.test, [1, 2], [false, false])])] := by
  refine ⟨by decide, ?_⟩
  simp only [crossValidation, Setting.run, bind, Except.bind]
  rw [memorizer_fresh rfl]
  dsimp only
  rw [memorizer_fresh rfl]
  exact ⟨_, _, rfl, rfl⟩

example : ∃ files' outs, memorizer.run (fun _ => none) crossValidation = .ok (files', outs) ∧
    List.Forall₂ (Faithful memorizer) crossValidation outs ∧
    memorizer.run files' crossValidation = .ok (files', outs.map fun o => { o with trained := false }) := by
  obtain ⟨hd, files', outs, h, -⟩ := crossValidation_run
  exact ⟨files', outs, h, fresh_run_partial hd (fun _ _ _ => rfl) h,
    second_run (s := memorizer) rfl rfl hd h⟩

example : ∃ m, train (fun x y => memorizer.fit 7 x y [1, 2]) .sparse .sparse = .ok m := by
  have ho : ∀ x y, memorizer.fit 7 x y [1, 2] ≠ .error .other := by
    intro x y
    cases y with
    | dense =>
      have h : memorizer.fit 7 x .dense [1, 2] = .ok [1, 2] := rfl
      rw [h]
      simp
    | sparse =>
      have h : memorizer.fit 7 x .sparse [1, 2] = .error .valueError := rfl
      rw [h]
      simp
  exact train_of_dense (fun x y => memorizer.fit 7 x y [1, 2]) .sparse .sparse (m := [1, 2]) rfl ho

/-- **Models that have been trained on other data are loaded**: an experiment that uses all examples for training, followed
by one that uses the same directory and splits the examples into a training and a test set.  The latter evaluates a model
on a test example it has been trained on, even though a model that is fit to the training set behaves differently. -/
theorem stale_model : ∃ files outs outs' fresh,
    memorizer.run (fun _ => none) [noSplit] = .ok (files, outs) ∧
    memorizer.run files [trainTestSplit] = .ok (files, outs') ∧
    (∃ files', memorizer.run (fun _ => none) [trainTestSplit] = .ok (files', fresh)) ∧
    outs'.map (fun o => (o.trained, o.evaluations)) =
      [(false, [(.training, [1, 2], [true, true]), (.test, [3], [true])])] ∧
    fresh.map (fun o => (o.trained, o.evaluations)) =
      [(true, [(.training, [1, 2], [true, true]), (.test, [3], [false])])] ∧
    ¬ List.Forall₂ (Faithful memorizer) [trainTestSplit] outs' := by
  refine ⟨_, _, _, _, memorizer_single (memorizer_fresh rfl), memorizer_single (memorizer_stored rfl),
    ⟨_, memorizer_single (memorizer_fresh rfl)⟩, rfl, rfl, fun h => ?_⟩
  cases h with
  | cons h _ => exact Bool.noConfusion h.trained

end MLRL.Experiment
