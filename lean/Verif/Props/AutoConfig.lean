import Verif.Lemma.AutoConfig

/-!
# C72, C73: The choices made by the automatic options of a boosting algorithm
-/

namespace MLRL.AutoConfig

/-! ### C72: default rule, format of statistics and type of heads -/

/-- **Every combination of options is accepted**, whatever the order of the calls: the statistics can be created and it
can be decided whether a default rule is learned.  In particular, the automatic default rule and the automatic statistics,
which consult each other, do so without running in circles. -/
theorem options_accepted {calls : List Call} {o : Options} (h : Asks calls o) (m : OutputMatrix) :
    ∃ p d, outcome calls m = .ok (p, d) := by
  exact ⟨_, _, outcome_eq h m⟩

/-- In regression problems, the combinations whose loss is a regression loss are accepted; otherwise, an exception is
thrown (no undefined behaviour occurs). -/
theorem regression_options_accepted {calls : List Call} {o : Options} (h : Asks calls o) (m : OutputMatrix) :
    (o.loss.isRegressionLoss = true → ∃ p d, regressionOutcome calls m = .ok (p, d)) ∧
    (o.loss.isRegressionLoss = false → regressionOutcome calls m = .error .exception) := by
  rw [regressionOutcome_eq h]
  exact ⟨fun hl => ⟨_, _, if_pos hl⟩, fun hl => if_neg (by simp [hl])⟩

/-- **The order of the calls does not matter**, nor do calls that are overridden by later ones. -/
theorem order_irrelevant {calls calls' : List Call} {o : Options} (h : Asks calls o) (h' : Asks calls' o)
    (m : OutputMatrix) :
    outcome calls m = outcome calls' m ∧ regressionOutcome calls m = regressionOutcome calls' m := by
  unfold outcome regressionOutcome
  rw [configure_eq h, configure_eq h']
  exact ⟨rfl, rfl⟩

section
attribute [local simp] usedOf preferOf partialOf bigOf Loss.isDecomposable Loss.isSparse Loss.overload
  Loss.regressionOverload Head.create denseProvider sparseProvider Loss.isRegressionLoss Evaluation.isPartial

/-- **Sparse statistics are used together with the automatic default rule exactly if they are used without a default
rule**: the automatic default rule never prevents a sparse format from being used. -/
theorem sparse_format_not_prevented {calls : List Call} {o : Options} (h : Asks calls o)
    (ha : o.defaultRule = .auto) (m : OutputMatrix) {p p' : Provider} {d d' : Bool}
    (hp : outcome calls m = .ok (p, d)) (hp' : outcome (calls ++ [.useDefaultRule .never]) m = .ok (p', d')) :
    p = p' ∧ d' = false := by
  have h' := h.append .never
  rw [outcome_eq h] at hp
  rw [outcome_eq h'] at hp'
  obtain ⟨rfl, rfl⟩ := Prod.mk.inj (Except.ok.inj hp)
  obtain ⟨rfl, rfl⟩ := Prod.mk.inj (Except.ok.inj hp')
  clear hp hp' h h'
  obtain ⟨l, f, hd, dr⟩ := o
  obtain ⟨sp, n⟩ := m
  subst ha
  by_cases hn : 120 < n <;> cases sp <;> cases l <;> cases f <;> cases hd <;> simp_all

/-- **No default rule is learned from sparse statistics**, if the automatic default rule is used. -/
theorem sparse_without_default_rule {calls : List Call} {o : Options} (h : Asks calls o)
    (ha : o.defaultRule = .auto) (m : OutputMatrix) {p : Provider} {d : Bool}
    (hp : outcome calls m = .ok (p, d)) (hs : p.sparse = true) : d = false := by
  rw [outcome_eq h] at hp
  obtain ⟨rfl, rfl⟩ := Prod.mk.inj (Except.ok.inj hp)
  clear hp h
  obtain ⟨l, f, hd, dr⟩ := o
  obtain ⟨sp, n⟩ := m
  subst ha
  by_cases hn : 120 < n <;> cases sp <;> cases l <;> cases f <;> cases hd <;> simp_all <;> grind

/-- The documented behaviour of the automatic default rule: it is learned unless it prevents a sparse format from being
used, i.e., unless sparse statistics are used when there is no default rule.  It holds for decomposable losses and heads
that support sparse statistics (i.e., partial heads, or automatic ones if there are several outputs).

What is missing: for the other losses and heads, no sparse statistics exist, but the default rule may be left out
nevertheless (`default_rule_omitted_iff`). -/
theorem default_rule_used_iff_partial {calls : List Call} {o : Options} (h : Asks calls o)
    (ha : o.defaultRule = .auto) (hl : o.loss.isDecomposable = true) (hc : o.head ≠ .complete) (m : OutputMatrix)
    (hn : o.head = .auto → 1 < m.numOutputs) {p p' : Provider} {d d' : Bool}
    (hp : outcome calls m = .ok (p, d)) (hp' : outcome (calls ++ [.useDefaultRule .never]) m = .ok (p', d')) :
    d = true ↔ p'.sparse = false := by
  have h' := h.append .never
  rw [outcome_eq h] at hp
  rw [outcome_eq h'] at hp'
  obtain ⟨rfl, rfl⟩ := Prod.mk.inj (Except.ok.inj hp)
  obtain ⟨rfl, rfl⟩ := Prod.mk.inj (Except.ok.inj hp')
  clear hp hp' h h'
  obtain ⟨l, f, hd, dr⟩ := o
  obtain ⟨sp, n⟩ := m
  subst ha
  by_cases hn : 120 < n <;> cases sp <;> cases l <;> cases f <;> cases hd <;> simp_all <;> grind

/-- **The documented behaviour is violated** for exactly the following configurations: the default rule is left out
although dense statistics are used (with or without a default rule, see `sparse_format_not_prevented`).

* If the sparse format has been chosen, this concerns all non-decomposable losses, which claim to support a sparse format
  (`loss_non_decomposable.hpp:150-152`), and the decomposable squared hinge loss together with complete heads, or with
  automatic heads if there is a single output.
* If the format is automatic, it concerns the non-decomposable losses together with partial heads, if the output matrix
  is sparse and has more than 120 columns. -/
theorem default_rule_omitted_iff {calls : List Call} {o : Options} (h : Asks calls o)
    (ha : o.defaultRule = .auto) (m : OutputMatrix) {p : Provider} {d : Bool} (hp : outcome calls m = .ok (p, d)) :
    (d = false ∧ p.sparse = false) ↔
      (o.format = .sparse ∧
        (o.loss.isDecomposable = false ∨
          o.loss = .decomposableSquaredHinge ∧ (o.head = .complete ∨ o.head = .auto ∧ m.numOutputs ≤ 1))) ∨
      (o.format = .auto ∧ m.isSparse = true ∧ 120 < m.numOutputs ∧ o.loss.isDecomposable = false ∧
        o.head ≠ .complete ∧ o.head ≠ .auto) := by
  rw [outcome_eq h] at hp
  obtain ⟨rfl, rfl⟩ := Prod.mk.inj (Except.ok.inj hp)
  clear hp h
  obtain ⟨l, f, hd, dr⟩ := o
  obtain ⟨sp, n⟩ := m
  subst ha
  by_cases hn : 120 < n <;> cases sp <;> cases l <;> cases f <;> cases hd <;> simp_all <;> grind

/-- **The default rule predicts for all outputs**, if it is automatic or if the sparse format has not been chosen.

What is missing: if a default rule and the sparse format are demanded, the default rule may predict for a part of the
outputs only (`default_rule_not_complete`). -/
theorem default_rule_complete_partial {calls : List Call} {o : Options} (h : Asks calls o) (m : OutputMatrix)
    {p : Provider} {d : Bool} (hp : outcome calls m = .ok (p, d))
    (ho : o.defaultRule = .auto ∨ o.format ≠ .sparse) (hu : d = true) : p.default = .complete := by
  rw [outcome_eq h] at hp
  obtain ⟨rfl, rfl⟩ := Prod.mk.inj (Except.ok.inj hp)
  clear hp h
  obtain ⟨l, f, hd, dr⟩ := o
  obtain ⟨sp, n⟩ := m
  by_cases hn : 120 < n <;> cases sp <;> cases l <;> cases f <;> cases hd <;> cases dr <;> simp_all <;> grind

/-- If a default rule and the sparse format are demanded, the squared hinge loss is minimised and heads are not complete,
then **the default rule is evaluated like any other rule**, i.e., it does not predict for all outputs. -/
theorem default_rule_not_complete {calls : List Call} {o : Options} (h : Asks calls o) (m : OutputMatrix)
    {p : Provider} {d : Bool} (hp : outcome calls m = .ok (p, d)) (hl : o.loss = .decomposableSquaredHinge)
    (hf : o.format = .sparse) (ho : o.defaultRule = .always) (hc : o.head ≠ .complete)
    (hn : o.head = .auto → 1 < m.numOutputs) :
    d = true ∧ p.sparse = true ∧ p.default.isPartial = true := by
  rw [outcome_eq h] at hp
  obtain ⟨rfl, rfl⟩ := Prod.mk.inj (Except.ok.inj hp)
  clear hp h
  obtain ⟨l, f, hd, dr⟩ := o
  obtain ⟨sp, n⟩ := m
  subst hl hf ho
  cases hd <;> simp_all <;> grind

/-- **The dense format is used if it has been chosen; a sparse format is used only for the decomposable squared hinge
loss**, and if it has been chosen together with heads that support it, it is used. -/
theorem format_respected {calls : List Call} {o : Options} (h : Asks calls o) (m : OutputMatrix)
    {p : Provider} {d : Bool} (hp : outcome calls m = .ok (p, d)) :
    (o.format = .dense → p.sparse = false) ∧
    (p.sparse = true → o.loss = .decomposableSquaredHinge ∧ o.head ≠ .complete) ∧
    (o.format = .sparse → o.loss = .decomposableSquaredHinge → o.head ≠ .complete →
      (o.head = .auto → 1 < m.numOutputs) → p.sparse = true) ∧
    (o.format = .auto → p.sparse = true → m.isSparse = true ∧ 120 < m.numOutputs ∧ d = false) := by
  rw [outcome_eq h] at hp
  obtain ⟨rfl, rfl⟩ := Prod.mk.inj (Except.ok.inj hp)
  clear hp h
  obtain ⟨l, f, hd, dr⟩ := o
  obtain ⟨sp, n⟩ := m
  by_cases hn : 120 < n <;> cases sp <;> cases l <;> cases f <;> cases hd <;> cases dr <;> simp_all <;> grind

/-- **The types of heads**: rules are refined and pruned with heads of the same kind; the kind is the one that has been
chosen, or in case of automatic heads, complete ones unless sparse statistics are used. -/
theorem head_respected {calls : List Call} {o : Options} (h : Asks calls o) (m : OutputMatrix)
    {p : Provider} {d : Bool} (hp : outcome calls m = .ok (p, d)) :
    p.pruning = p.regular ∧
    (o.head = .complete → p.regular = .complete) ∧ (o.head = .fixedPartial → p.regular = .fixedPartial) ∧
    (o.head = .dynamicPartial → p.regular = .dynamicPartial) ∧ (o.head = .single → p.regular = .single) ∧
    (o.head = .auto → p.regular = if p.sparse then .single else .complete) := by
  rw [outcome_eq h] at hp
  obtain ⟨rfl, rfl⟩ := Prod.mk.inj (Except.ok.inj hp)
  clear hp h
  obtain ⟨l, f, hd, dr⟩ := o
  obtain ⟨sp, n⟩ := m
  by_cases hn : 120 < n <;> cases sp <;> cases l <;> cases f <;> cases hd <;> cases dr <;> simp_all <;> grind

/-- **`isPartial` agrees with the heads that are used**, if the type of heads has been chosen explicitly.

What is missing: for automatic heads, only one direction holds (`automatic_heads_isPartial`). -/
theorem isPartial_agrees_partial {calls : List Call} {o : Options} (h : Asks calls o) (m : OutputMatrix)
    (hh : o.head ≠ .auto) {p : Provider} {d : Bool} (hp : outcome calls m = .ok (p, d)) :
    isPartial (configure calls State.init) o.head = .ok p.regular.isPartial ∧
      isSingleOutput (configure calls State.init) o.head = .ok (decide (p.regular = .single)) := by
  rw [outcome_eq h] at hp
  rw [configure_eq h]
  obtain ⟨rfl, rfl⟩ := Prod.mk.inj (Except.ok.inj hp)
  clear hp h
  obtain ⟨l, f, hd, dr⟩ := o
  cases hd
  case auto => exact absurd rfl hh
  all_goals
    cases hov : l.overload (preferOf _ (bigOf m)) <;>
      simp [isPartial, isSingleOutput]

/-- **`isPartial` of automatic heads**: if it is `false`, complete heads are used; but if the decomposable squared hinge
loss is minimised and dense statistics are used, then complete heads are used although it is `true`. -/
theorem automatic_heads_isPartial {calls : List Call} {o : Options} (h : Asks calls o) (m : OutputMatrix)
    (hh : o.head = .auto) {p : Provider} {d : Bool} (hp : outcome calls m = .ok (p, d)) :
    (isPartial (configure calls State.init) o.head = .ok false → p.regular = .complete) ∧
    (isPartial (configure calls State.init) o.head = .ok true ∧ p.regular = .complete ↔
      o.loss = .decomposableSquaredHinge ∧ p.sparse = false) := by
  rw [outcome_eq h] at hp
  rw [configure_eq h]
  obtain ⟨rfl, rfl⟩ := Prod.mk.inj (Except.ok.inj hp)
  clear hp h
  rw [isPartial_eq]
  obtain ⟨l, f, hd, dr⟩ := o
  obtain ⟨sp, n⟩ := m
  subst hh
  by_cases hn : 120 < n <;> cases sp <;> cases l <;> cases f <;> cases dr <;> simp_all <;> grind

/-- **In regression problems, dense statistics are used** and the heads are the chosen ones (complete ones, if they are
automatic). -/
theorem regression_dense {calls : List Call} {o : Options} (h : Asks calls o) (m : OutputMatrix)
    {p : Provider} {d : Bool} (hp : regressionOutcome calls m = .ok (p, d)) :
    p.sparse = false ∧ p.default = .complete ∧ (o.head = .auto ∨ o.head = .complete → p.regular = .complete) := by
  rw [regressionOutcome_eq h] at hp
  split at hp
  case isFalse => exact absurd hp (by simp)
  obtain ⟨rfl, rfl⟩ := Prod.mk.inj (Except.ok.inj hp)
  clear hp h
  obtain ⟨l, f, hd, dr⟩ := o
  obtain ⟨sp, n⟩ := m
  by_cases hn : 120 < n <;> cases sp <;> cases l <;> cases f <;> cases hd <;> cases dr <;> simp_all <;> grind

end

/-! ### C73: label vectors and hold-out set -/

/-- **A set of label vectors is available whenever it is needed**: if a learner claims to support binary (or probability)
predictions, the predictor can be created from the model it has learned, without an exception. -/
theorem predictors_created (c : Prediction) :
    (∀ p, c.binary.factory c.loss = some p → createPredictor (c.binary.factory c.loss) c.hasLabelVectorSet = .ok p) ∧
    (∀ p, c.probability.factory c.loss = some p →
      createPredictor (c.probability.factory c.loss) c.hasLabelVectorSet = .ok p) := by
  obtain ⟨l, b, pr, ma, jo, pu⟩ := c
  refine ⟨fun p hp => ?_, fun p hp => ?_⟩
  · rw [hp]
    rcases b with _ | ⟨_ | _⟩ | ⟨_ | _⟩ | _ | _ <;> cases l <;>
      simp_all [BinaryPredictor.factory, createPredictor, Predictor.create, Prediction.hasLabelVectorSet,
        BinaryPredictor.needsLabelVectors, Loss.hasMarginalProbabilities, Loss.hasJointProbabilities,
        Loss.isDecomposable] <;> subst hp <;> rfl
  · rw [hp]
    cases pr <;> cases l <;>
      simp_all [ProbabilityPredictor.factory, createPredictor, Predictor.create, Prediction.hasLabelVectorSet,
        ProbabilityPredictor.needsLabelVectors, Loss.hasMarginalProbabilities, Loss.hasJointProbabilities,
        Loss.isDecomposable] <;> subst hp <;> simp [Predictor.create]

/-- **Training never fails because of a missing set of label vectors.** -/
theorem joint_calibrator_created (c : Prediction) :
    ∃ k, createJointCalibrator c.loss c.hasLabelVectorSet c.joint = .ok k := by
  obtain ⟨l, b, pr, ma, jo, pu⟩ := c
  cases jo with
  | no => exact ⟨_, rfl⟩
  | isotonic h =>
    simp only [createJointCalibrator, Prediction.hasLabelVectorSet, Calibrator.needsLabelVectors, Bool.or_true, if_true]
    split
    · exact ⟨_, rfl⟩
    · exact ⟨_, rfl⟩

/-- **The automatic predictors**: binary labels can be predicted whatever the loss, output-wise if it is decomposable and
example-wise otherwise.  Probabilities can be predicted exactly for the logistic losses, output-wise or by marginalising
over label vectors. -/
theorem automatic_predictors (l : Loss) :
    (BinaryPredictor.auto.factory l = some (if l.isDecomposable then .outputWise else .exampleWise)) ∧
    (∀ p, ProbabilityPredictor.auto.factory l = some p ↔
      l = .decomposableLogistic ∧ p = .outputWise ∨ l = .nonDecomposableLogistic ∧ p = .marginalized) := by
  cases l <;> simp [BinaryPredictor.factory, ProbabilityPredictor.factory, Loss.isDecomposable,
    Loss.hasMarginalProbabilities, Loss.hasJointProbabilities, eq_comm]

/-- **The set of label vectors is not stored needlessly**: with automatic predictors and without a calibration of joint
probabilities, it is stored exactly if the loss is non-decomposable, i.e., if a predictor demands it. -/
theorem label_vectors_stored_iff (c : Prediction) (hb : c.binary = .auto) (hp : c.probability = .auto)
    (hj : c.joint = .no) :
    c.hasLabelVectorSet = true ↔ createPredictor (c.binary.factory c.loss) false = .error .exception := by
  obtain ⟨l, b, pr, ma, jo, pu⟩ := c
  subst hb hp hj
  cases l <;> simp [Prediction.hasLabelVectorSet, BinaryPredictor.needsLabelVectors,
    ProbabilityPredictor.needsLabelVectors, Calibrator.needsLabelVectors, Loss.isDecomposable, createPredictor,
    BinaryPredictor.factory, Predictor.create]

/-- **The automatic partition sampling provides a hold-out set whenever one is used.**

What is missing: the converse, which does not hold (`holdout_set_wasted`). -/
theorem holdout_set_provided_partial (c : Prediction) (h : holdoutSetUsed c) : usesBiPartition c = true := by
  obtain ⟨l, b, pr, ma, jo, pu⟩ := c
  unfold usesBiPartition
  rcases h with h | h | h | ⟨b', h⟩
  · simp only at h; subst h; rfl
  · simp only at h; subst h; simp [GlobalPruning.shouldUseHoldoutSet]
  · rcases ma with _ | ⟨_ | _⟩
    · simp [createMarginalCalibrator] at h
    · simp only [createMarginalCalibrator] at h
      split at h <;> simp at h
    · simp [Calibrator.shouldUseHoldoutSet]
  · rcases jo with _ | ⟨_ | _⟩
    · simp [createJointCalibrator] at h
    · simp only [createJointCalibrator] at h
      split at h
      · split at h <;> simp at h
      · simp at h
    · simp [Calibrator.shouldUseHoldoutSet]

/-- If the loss does not support probabilities, no calibration takes place; nevertheless, **examples are held out** if an
isotonic calibration has been configured, and nothing is learned from them. -/
theorem holdout_set_wasted (c : Prediction) (hl : c.loss.hasMarginalProbabilities = false)
    (hj : c.loss.hasJointProbabilities = false) (hm : c.marginal = .isotonic true)
    (hp : c.pruning = .no) : usesBiPartition c = true ∧ ¬ holdoutSetUsed c := by
  obtain ⟨l, b, pr, ma, jo, pu⟩ := c
  subst hm hp
  refine ⟨rfl, ?_⟩
  rintro (h | h | h | ⟨b', h⟩)
  · simp at h
  · simp at h
  · simp only [createMarginalCalibrator] at h
    simp_all
  · rcases jo with _ | ⟨h'⟩
    · simp [createJointCalibrator] at h
    · simp only [createJointCalibrator] at h
      simp_all

/-- For losses that support probabilities, the hold-out set is created exactly if it is used. -/
theorem holdout_set_iff (c : Prediction) (hl : c.loss.hasMarginalProbabilities = true)
    (hj : c.loss.hasJointProbabilities = true) : usesBiPartition c = true ↔ holdoutSetUsed c := by
  refine ⟨fun h => ?_, holdout_set_provided_partial c⟩
  obtain ⟨l, b, pr, ma, jo, pu⟩ := c
  simp only at hl hj
  simp only [usesBiPartition, Bool.or_eq_true] at h
  rcases h with (h | h) | h
  · rcases pu with _ | ⟨x⟩ | ⟨x⟩
    · simp [GlobalPruning.shouldUseHoldoutSet] at h
    · simp only [GlobalPruning.shouldUseHoldoutSet] at h; subst h; exact Or.inl rfl
    · simp only [GlobalPruning.shouldUseHoldoutSet] at h; subst h; exact Or.inr (Or.inl rfl)
  · rcases ma with _ | ⟨x⟩
    · simp [Calibrator.shouldUseHoldoutSet] at h
    · simp only [Calibrator.shouldUseHoldoutSet] at h; subst h
      exact Or.inr (Or.inr (Or.inl (by simp [createMarginalCalibrator, hl])))
  · rcases jo with _ | ⟨x⟩
    · simp [Calibrator.shouldUseHoldoutSet] at h
    · simp only [Calibrator.shouldUseHoldoutSet] at h; subst h
      exact Or.inr (Or.inr (Or.inr ⟨true, by simp [createJointCalibrator, hj]⟩))

/-! ### Concrete cases -/

/-- The default options of BOOMER (`learner_boomer_classifier.cpp:22-43`), followed by the choice of the squared hinge
loss: for a sparse matrix with 200 labels, single-output heads, sparse statistics and no default rule are used. -/
def hingeCalls : List Call :=
  [.useDefaultRule .auto, .useHead .auto, .useFormat .auto, .useLoss .decomposableLogistic,
    .useLoss .decomposableSquaredHinge]

example : Asks hingeCalls ⟨.decomposableSquaredHinge, .auto, .auto, .auto⟩ := ⟨rfl, rfl, rfl, rfl⟩

example : outcome hingeCalls ⟨true, 200⟩ = .ok (⟨true, .single, .single, .single⟩, false) := rfl

example : outcome hingeCalls ⟨false, 200⟩ = .ok (⟨false, .complete, .complete, .complete⟩, true) := rfl

/-- The same with a non-decomposable loss and single-output heads: dense statistics are used, but there is no default
rule. -/
def nonDecomposableCalls : List Call := hingeCalls ++ [.useLoss .nonDecomposableLogistic, .useHead .single]

example : Asks nonDecomposableCalls ⟨.nonDecomposableLogistic, .auto, .single, .auto⟩ := ⟨rfl, rfl, rfl, rfl⟩

example : outcome nonDecomposableCalls ⟨true, 200⟩ = .ok (⟨false, .complete, .single, .single⟩, false) := rfl

/-- A default rule and the sparse format are demanded: the default rule predicts for a single output. -/
example : outcome (hingeCalls ++ [.useFormat .sparse, .useDefaultRule .always]) ⟨true, 200⟩ =
    .ok (⟨true, .single, .single, .single⟩, true) := rfl

/-- A regressor that minimises the non-decomposable squared error. -/
example : regressionOutcome (hingeCalls ++ [.useLoss .nonDecomposableSquaredError]) ⟨false, 3⟩ =
    .ok (⟨false, .complete, .complete, .complete⟩, true) := rfl

example : regressionOutcome hingeCalls ⟨false, 3⟩ = .error .exception := rfl

/-- A classifier with a non-decomposable loss and isotonic calibration. -/
def gfmConfig : Prediction := ⟨.nonDecomposableLogistic, .gfm, .auto, .isotonic true, .isotonic false, .no⟩

example : gfmConfig.hasLabelVectorSet = true ∧ usesBiPartition gfmConfig = true ∧
    createPredictor (gfmConfig.binary.factory gfmConfig.loss) gfmConfig.hasLabelVectorSet = .ok .gfm :=
  ⟨rfl, rfl, rfl⟩

example : holdoutSetUsed gfmConfig := Or.inr (Or.inr (Or.inl rfl))

/-- A calibration that has no effect. -/
example : usesBiPartition ⟨.decomposableSquaredHinge, .auto, .auto, .isotonic true, .no, .no⟩ = true ∧
    ¬ holdoutSetUsed ⟨.decomposableSquaredHinge, .auto, .auto, .isotonic true, .no, .no⟩ :=
  holdout_set_wasted _ rfl rfl rfl rfl

end MLRL.AutoConfig
