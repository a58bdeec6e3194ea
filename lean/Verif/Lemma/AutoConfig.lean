import Verif.Spec.AutoConfig
import Mathlib.Data.List.Induction

/-! # Helper lemmas on the configuration of a boosting algorithm -/

namespace MLRL.AutoConfig

/-- The pointers after the calls described by `o`. -/
def stateOf (o : Options) : State :=
  ⟨some o.loss, if o.loss.isRegressionLoss then some o.loss else none, some o.format, some o.format, some o.head,
    some o.defaultRule⟩

private theorem lastOf_append (f : Call → Option α) (calls : List Call) (c : Call) :
    lastOf f (calls ++ [c]) = (f c).orElse (fun _ => lastOf f calls) := by
  unfold lastOf
  cases h : f c <;> simp [List.filterMap_append, List.filterMap_cons, h]

theorem configure_append (calls : List Call) (c : Call) (s : State) :
    configure (calls ++ [c]) s = Call.apply (configure calls s) c := by
  simp [configure]

/-- The pointers are those that have been set last. -/
theorem configure_fields (calls : List Call) :
    (configure calls State.init).classificationLoss = lastOf lossOf calls ∧
    (configure calls State.init).regressionLoss =
      (lastOf lossOf calls).bind (fun l => if l.isRegressionLoss then some l else none) ∧
    (configure calls State.init).classificationFormat = lastOf formatOf calls ∧
    (configure calls State.init).regressionFormat = lastOf formatOf calls ∧
    (configure calls State.init).head = lastOf headOf calls ∧
    (configure calls State.init).defaultRule = lastOf defaultRuleOf calls := by
  induction calls using List.reverseRecOn with
  | nil => simp [configure, State.init, lastOf]
  | append_singleton l c ih =>
    obtain ⟨h1, h2, h3, h4, h5, h6⟩ := ih
    rw [configure_append]
    simp only [lastOf_append]
    cases c with
    | useLoss loss =>
      simp only [Call.apply, setLoss, lossOf, formatOf, headOf, defaultRuleOf, Option.orElse_some, Option.orElse_none]
      cases hr : loss.isRegressionLoss <;> simp [hr, h1, h2, h3, h4, h5, h6]
    | useFormat f =>
      simp only [Call.apply, lossOf, formatOf, headOf, defaultRuleOf, Option.orElse_some, Option.orElse_none]
      simp_all
    | useHead h =>
      simp only [Call.apply, lossOf, formatOf, headOf, defaultRuleOf, Option.orElse_some, Option.orElse_none]
      simp_all
    | useDefaultRule d =>
      simp only [Call.apply, lossOf, formatOf, headOf, defaultRuleOf, Option.orElse_some, Option.orElse_none]
      simp_all

theorem configure_eq {calls : List Call} {o : Options} (h : Asks calls o) :
    configure calls State.init = stateOf o := by
  obtain ⟨h1, h2, h3, h4, h5, h6⟩ := configure_fields calls
  obtain ⟨a1, a2, a3, a4⟩ := h
  rw [a1] at h1 h2
  rw [a2] at h3 h4
  rw [a3] at h5
  rw [a4] at h6
  cases hc : configure calls State.init
  simp_all [stateOf]

theorem Asks.append {calls : List Call} {o : Options} (h : Asks calls o) (d : DefaultRule) :
    Asks (calls ++ [.useDefaultRule d]) { o with defaultRule := d } := by
  obtain ⟨a1, a2, a3, a4⟩ := h
  refine ⟨?_, ?_, ?_, ?_⟩ <;> rw [lastOf_append] <;>
    simp [lossOf, formatOf, headOf, defaultRuleOf, a1, a2, a3]

/-! ### The choices as total functions of the options -/

/-- The value of `isPartial`. -/
def partialOf (o : Options) : Bool :=
  match o.head with
  | .complete => false
  | .fixedPartial | .dynamicPartial | .single => true
  | .auto => o.loss.isDecomposable && o.loss.isSparse

/-- Whether a default rule is used, if `big` indicates that there are many outputs, most of which are irrelevant. -/
def usedOf (o : Options) (big : Bool) : Bool :=
  match o.defaultRule with
  | .always => true
  | .never => false
  | .auto =>
    match o.format with
    | .dense => true
    | .sparse => !o.loss.isSparse
    | .auto => !o.loss.isSparse || !(big && partialOf o)

/-- Whether sparse statistics are preferred. -/
def preferOf (o : Options) (big : Bool) : Bool :=
  match o.format with
  | .dense => false
  | .sparse => true
  | .auto => big && !usedOf o big && partialOf o

/-- Whether an output matrix is sparse and has many columns. -/
def bigOf (m : OutputMatrix) : Bool := m.isSparse && decide (m.numOutputs > 120)

theorem isPartial_eq (o : Options) : isPartial (stateOf o) o.head = .ok (partialOf o) := by
  obtain ⟨l, f, hd, d⟩ := o
  cases hd <;> rfl

theorem isDefaultRuleUsed_eq (o : Options) (m : OutputMatrix) :
    isDefaultRuleUsed (stateOf o) m = .ok (usedOf o (bigOf m)) := by
  have hp := isPartial_eq o
  obtain ⟨l, f, hd, d⟩ := o
  cases d
  · rfl
  · rfl
  · cases f
    · rfl
    · rfl
    · simp only at hp
      cases hl : l.isSparse
      · simp [isDefaultRuleUsed, isDefaultRuleUsedAuto, get, get₂, stateOf, State.lossConfig, State.statisticsConfig,
          Format.isDense, Format.isSparse, usedOf, hl, ok_bind, pure_eq_ok]
      · simp only [stateOf] at hp
        simp [isDefaultRuleUsed, isDefaultRuleUsedAuto, get, get₂, stateOf, State.lossConfig, State.statisticsConfig,
          Format.isDense, Format.isSparse, usedOf, hl, ok_bind, pure_eq_ok, hp, shouldSparseStatisticsBePreferred, bigOf]

theorem preferSparse_eq (o : Options) (m : OutputMatrix) :
    preferSparse (stateOf o) m o.format = .ok (preferOf o (bigOf m)) := by
  have hp := isPartial_eq o
  have hd := isDefaultRuleUsed_eq o m
  unfold preferOf
  cases hf : o.format
  · rfl
  · rfl
  · have hg : get (stateOf o).head = .ok o.head := rfl
    simp only [preferSparse, hd, hp, hg, ok_bind, pure_eq_ok, shouldSparseStatisticsBePreferred]
    rfl

/-- The outcome of a configuration. -/
theorem outcome_eq {calls : List Call} {o : Options} (h : Asks calls o) (m : OutputMatrix) :
    outcome calls m = .ok (o.head.create m (o.loss.overload (preferOf o (bigOf m))), usedOf o (bigOf m)) := by
  unfold outcome
  rw [configure_eq h]
  have h1 : get (stateOf o).head = .ok o.head := rfl
  have h2 : get (stateOf o).classificationFormat = .ok o.format := rfl
  have h3 : get (stateOf o).classificationLoss = .ok o.loss := rfl
  simp only [createClassification, isDefaultRuleUsed_eq, preferSparse_eq, h1, h2, h3, ok_bind, pure_eq_ok]

/-- The outcome of a configuration in a regression problem. -/
theorem regressionOutcome_eq {calls : List Call} {o : Options} (h : Asks calls o) (m : OutputMatrix) :
    regressionOutcome calls m = if o.loss.isRegressionLoss then
      .ok (o.head.create m o.loss.regressionOverload, usedOf o (bigOf m)) else .error .exception := by
  unfold regressionOutcome
  rw [configure_eq h]
  have h1 : get (stateOf o).head = .ok o.head := rfl
  have h2 : get (stateOf o).regressionFormat = .ok o.format := rfl
  have h3 : get (stateOf o).regressionLoss = if o.loss.isRegressionLoss then .ok o.loss else .error .exception := by
    simp only [stateOf]
    cases o.loss.isRegressionLoss <;> rfl
  simp only [createRegression, isDefaultRuleUsed_eq, preferSparse_eq, h1, h2, h3, ok_bind, pure_eq_ok]
  cases o.loss.isRegressionLoss <;> simp [ok_bind, pure_eq_ok, error_bind]

end MLRL.AutoConfig
