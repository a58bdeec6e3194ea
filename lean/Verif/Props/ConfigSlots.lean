import Verif.Lemma.ConfigSlots

/-!
# C111: The configuration of a rule learner is complete, and the last selection is used
-/

namespace MLRL.ConfigSlots

/-- **A model can be trained and predictions can be obtained with every configuration a client is able to create**: none of
the properties that are accessed, directly or by one of the selected parts, is missing, whichever functions have been called
in whichever order. -/
theorem accessed_ok (l : Learner) (calls : List Call) (h : ∀ c ∈ calls, c ∈ l.offered) {r : Ref}
    (hr : Accessed l (l.create.run calls) r) : ∃ p, (l.create.run calls).get r = .ok p := by
  have hf : ∀ s, Fine l s (l.create.run calls s) :=
    run_ind (Fine l) calls _ (create_fine l) fun c hc => offered_fine l c (h c hc)
  refine get_of_supports hf ?_
  induction hr with
  | root hr => exact roots_supported l _ hr
  | part _ hp hr' _ => exact refs_supported hf hp _ hr'

/-- **The alternative that has been selected last for an aspect is the one that is used**; selections made for other
aspects, before or after, have no effect on it.  If the client has made no selection, the learner's default is used. -/
theorem last_selection_used (l : Learner) (calls : List Call) (h : ∀ c ∈ calls, c ∈ l.offered) {a : Aspect} {r : Ref}
    (hr : r ∈ a.refs l.task) {p : Part} (hp : selection a (l.defaults ++ calls) = some p) :
    (l.create.run calls).get r = .ok p := by
  unfold Learner.create
  rw [← run_append, get_run (l.defaults ++ calls) (fun c hc => ?_) _ a hr, hp]
  rcases List.mem_append.1 hc with hc | hc
  · exact defaults_offered l c hc
  · exact h c hc

/-- The same statement for a particular call of a function. -/
theorem selected (l : Learner) (pre post : List Call) (c : Call) (h : ∀ d ∈ pre ++ c :: post, d ∈ l.offered)
    (hlast : ∀ d ∈ post, d.aspect ≠ c.aspect) {r : Ref} (hr : r ∈ c.aspect.refs l.task) :
    (l.create.run (pre ++ c :: post)).get r = .ok c.selects := by
  refine last_selection_used l _ h hr ?_
  unfold selection
  have h0 : (post.filter fun d => decide (d.aspect = c.aspect)) = [] := by
    rw [List.filter_eq_nil_iff]
    intro d hd
    simpa using hlast d hd
  simp [List.filter_append, List.filter_cons, h0]

/-- **Calling `useDefaults` once again undoes all selections**, as far as the learner has a default. -/
theorem defaults_restored (l : Learner) (calls : List Call) (h : ∀ c ∈ calls, c ∈ l.offered) {a : Aspect} {r : Ref}
    (hr : r ∈ a.refs l.task) {p : Part} (hp : selection a l.defaults = some p) :
    (l.create.run (calls ++ l.defaults)).get r = .ok p := by
  refine last_selection_used l _ (fun c hc => ?_) hr ?_
  · rcases List.mem_append.1 hc with hc | hc
    · exact h c hc
    · exact defaults_offered l c hc
  · unfold selection at hp ⊢
    rw [← List.append_assoc, List.filter_append, List.map_append, List.getLast?_append, hp]
    rfl

/-- Every aspect a learner allows to configure has a default. -/
theorem has_default (l : Learner) : ∀ c ∈ l.offered, (selection c.aspect l.defaults).isSome = true := by
  cases l <;> decide +kernel

/-- The pointer to a loss function for regression problems may be null when it comes to the classifier, whose default is the
logistic loss.  Consequently, training only succeeds because the pointer is never accessed. -/
theorem regression_loss_missing :
    (Learner.boomerClassifier.create.get (.one .regressionLoss)) = .error .nullPointer ∧
      ¬ Accessed .boomerClassifier Learner.boomerClassifier.create (.one .regressionLoss) := by
  refine ⟨rfl, fun h => ?_⟩
  obtain ⟨p, hp⟩ := accessed_ok .boomerClassifier [] (by simp) (r := .one .regressionLoss) h
  exact absurd (hp.symm.trans (show Learner.boomerClassifier.create.get (.one .regressionLoss) = .error .nullPointer from
    rfl)) (by simp)

/-! ### Examples -/

/-- The calls of a client that first selects the logistic loss, and then the squared error loss with partial heads. -/
def exampleCalls : List Call :=
  [.useNonDecomposableLogisticLoss, .useDynamicPartialHeads, .useOutputWiseStratifiedInstanceSampling,
    .useDecomposableSquaredErrorLoss, .useNoInstanceSampling]

example : ∀ c ∈ exampleCalls, c ∈ Learner.boomerClassifier.offered := by decide

/-- The loss is accessed via the chain of parts: statistics, loss. -/
example : Accessed .boomerClassifier (Learner.boomerClassifier.create.run exampleCalls) (.one .classificationLoss) :=
  .part (p := .automaticStatistics) (.root (r := .one .classificationStatistics) (by decide)) rfl (by decide)

/-- The regularization is accessed via the chain of parts: statistics, loss, heads, label binning. -/
example : Accessed .boomerClassifier (Learner.boomerClassifier.create.run exampleCalls) (.one .l2) :=
  .part (p := .automaticLabelBinning) (.part (p := .dynamicPartialHeads) (.part (p := .decomposableSquaredErrorLoss)
    (.part (p := .automaticStatistics) (.root (r := .one .classificationStatistics) (by decide)) rfl
      (r' := .one .classificationLoss) (by decide)) rfl (r' := .one .head) (by decide)) rfl (r' := .one .labelBinning)
        (by decide)) rfl (by decide)

example : selection .loss (Learner.boomerClassifier.defaults ++ exampleCalls) = some .decomposableSquaredErrorLoss := rfl

example : selection .statistics (Learner.boomerClassifier.defaults ++ exampleCalls) = some .automaticStatistics := rfl

/-- A function the regressor does not offer would break its configuration. -/
example : (Learner.boomerRegressor.create.run [.useDecomposableLogisticLoss]).get (.one .regressionLoss) =
    .error .nullPointer := rfl

end MLRL.ConfigSlots
