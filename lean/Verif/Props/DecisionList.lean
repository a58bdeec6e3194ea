import Verif.Lemma.DecisionList
import Verif.Props.RuleList

/-!
# C45: decision lists
-/

namespace MLRL.DecisionList

open Predictor Spec RuleList.Spec

variable {K : Type}

/-- **C45.** For sparse examples, arbitrary heads are applied in the same order and to the same rules as for the dense example it stands for. -/
theorem sparse_features_eq_dense {S : Type} (apply : Head K → S → Res S) (numFeatures : Nat) (row : SparseRow) (sparseValue : FVal)
    (hnd : (row.map Prod.fst).Nodup) (hlt : ∀ p ∈ row, p.1 < numFeatures) (rules : List (Rule K)) (s : S) :
    forSparse apply numFeatures row sparseValue rules s = forDense apply (Body.Spec.toDense numFeatures row sparseValue) rules s := by
  unfold forSparse
  exact forSparseLoop_eq apply numFeatures row sparseValue hnd hlt rules s _ 1 (by simp) (by simp) (by
    intro s hs
    have := List.eq_of_mem_replicate hs
    omega)

/-- **C45.** Every element of a dense prediction is determined by the first used rule that covers the example and predicts for the label. If there is no
such rule, the label is irrelevant (or the element is not initialised, if the model contains a default rule). -/
theorem dense_first_rule [Zero K] [LT K] [DecidableLT K] (numLabels : Nat) (model : RuleList (Rule K)) (maxRules : Nat) (row : List FVal)
    (rules : List (Rule K)) (hrules : model.usedToList maxRules = .ok rules) (covered : Rule K → Bool)
    (hc : ∀ r ∈ rules, r.body.coversDense row = .ok (covered r)) (hf : ∀ r ∈ rules, Predictor.Spec.HeadFits numLabels r.head) :
    ∃ prediction, predictDense numLabels model maxRules row = .ok prediction ∧ prediction.length = numLabels ∧
      ∀ j < numLabels, (∃ b, Decided covered rules j b ∧ prediction[j]? = some (some b)) ∨
        (Undecided covered rules j ∧ prediction[j]? = some (if model.defaultRule.isSome then none else some false)) := by
  obtain ⟨s, h1, h2, h3⟩ := forDense_spec (n := numLabels) (s := DenseState.init numLabels model) rules hc hf (by simp [DenseState.init])
    (by simp [DenseState.init])
  refine ⟨s.row, ?_, h2, ?_⟩
  · unfold predictDense
    rw [hrules, ok_bind, h1]
    rfl
  · intro j hj
    have := h3 j false (if !model.defaultRule.isSome then some false else none) (by simp [DenseState.init, hj]) (by simp [DenseState.init, hj])
    rw [this]
    cases hd : decision covered rules j with
    | none =>
      refine Or.inr ⟨decision_eq_none.mp hd, ?_⟩
      cases model.defaultRule <;> simp
    | some b => exact Or.inl ⟨b, decision_eq_some hd, by simp⟩

/-- The decision is unique if no head refers to a label more than once. -/
theorem decided_unique [Zero K] [LT K] {covered : Rule K → Bool} {rules : List (Rule K)} {j : Nat} (hd : ∀ r ∈ rules, HeadDistinct r.head) {b b' : Bool}
    (h : Decided covered rules j b) (h' : Decided covered rules j b') : b = b' := by
  obtain ⟨pre, r, post, v, e, hc, hp, hb, hn⟩ := h
  obtain ⟨pre', r', post', v', e', hc', hp', hb', hn'⟩ := h'
  have key : pre = pre' ∧ r :: post = r' :: post' := by
    have h0 := e.symm.trans e'
    rcases List.append_eq_append_iff.mp h0 with ⟨l, h1, h2⟩ | ⟨l, h1, h2⟩
    · cases l with
      | nil => exact ⟨by simpa using h1.symm, by simpa using h2⟩
      | cons a l =>
        simp only [List.cons_append, List.cons.injEq] at h2
        exact absurd hp (hn' r (by rw [h1, h2.1]; simp) hc v)
    · cases l with
      | nil => exact ⟨by simpa using h1, by simpa using h2.symm⟩
      | cons a l =>
        simp only [List.cons_append, List.cons.injEq] at h2
        exact absurd hp' (hn r' (by rw [h1, h2.1]; simp) hc' v')
  have hr : r = r' := by simpa using (List.cons.inj key.2).1
  subst hr
  have hv : v = v' := by
    have hdr := hd r (by rw [e]; simp)
    cases hh : r.head with
    | complete values =>
      rw [hh] at hp hp'
      simp only [Predicts] at hp hp'
      rw [hp] at hp'
      exact Option.some.inj hp'
    | partial_ es =>
      rw [hh] at hp hp' hdr
      simp only [Predicts, HeadDistinct] at hp hp' hdr
      have := List.inj_on_of_nodup_map hdr hp hp' rfl
      exact (Prod.mk.inj this).2
  subst hv
  rw [Bool.eq_iff_iff, hb, hb']

/-- **C45.** If the model has been created by `calls` and there is a default rule (with empty body and values for all labels), the default rule is
always among the used rules, regardless of `maxRules`, so that all elements of a dense prediction are initialised. -/
theorem dense_initialised [Zero K] [LT K] [DecidableLT K] (numLabels : Nat) (calls : List (RuleListCall (Rule K))) (defaultFirst : Bool)
    (maxRules : Nat) (row : List FVal) (values : List K) (hvalues : values.length = numLabels)
    (hdefault : lastDefault calls = some { body := .empty, head := .complete values }) (hlen : (addedRules calls).length + 1 < 2 ^ 32)
    (hused : lastUsed calls ≤ (allRules defaultFirst (lastDefault calls) (addedRules calls)).length)
    (hb : ∀ r ∈ addedRules calls, ∃ b, r.body.coversDense row = .ok b)
    (hf : ∀ r ∈ addedRules calls, Predictor.Spec.HeadFits numLabels r.head) :
    ∃ prediction, predictDense numLabels (calls.foldl RuleListCall.apply (RuleList.init defaultFirst)) maxRules row = .ok prediction ∧
      prediction.length = numLabels ∧ ∀ j < numLabels, ∃ b, prediction[j]? = some (some b) := by
  have hu := RuleList.iterate_used defaultFirst calls maxRules hlen hused
  simp only at hu
  generalize hk : (if maxRules = 0 then (if lastUsed calls = 0 then (allRules defaultFirst (lastDefault calls) (addedRules calls)).length
    else lastUsed calls) else min (if lastUsed calls = 0 then (allRules defaultFirst (lastDefault calls) (addedRules calls)).length
    else lastUsed calls) maxRules) = k at hu
  have hall : 0 < (allRules defaultFirst (lastDefault calls) (addedRules calls)).length := by
    rw [hdefault]; unfold allRules; cases defaultFirst <;> simp
  have hkpos : 0 < k := by
    rw [← hk]
    split <;> split <;> omega
  have hsub : ∀ r ∈ firstRules defaultFirst (lastDefault calls) (addedRules calls) k, r ∈ addedRules calls ∨
      r = { body := .empty, head := .complete values } := by
    intro r hr
    rw [hdefault] at hr
    unfold firstRules at hr
    cases defaultFirst
    · simp only [Bool.false_eq_true, if_false, List.mem_append, Option.toList_some, List.mem_singleton] at hr
      rcases hr with hr | hr
      · exact Or.inl (List.mem_of_mem_take hr)
      · exact Or.inr hr
    · simp only [if_true] at hr
      have := List.mem_of_mem_take hr
      simp only [List.mem_append, Option.toList_some, List.mem_singleton] at this
      tauto
  have hmem : ({ body := .empty, head := .complete values } : Rule K) ∈ firstRules defaultFirst (lastDefault calls) (addedRules calls) k := by
    rw [hdefault]
    unfold firstRules
    cases defaultFirst
    · simp
    · obtain ⟨k', rfl⟩ : ∃ k', k = k' + 1 := ⟨k - 1, by omega⟩
      simp
  obtain ⟨covered, hcov⟩ : ∃ covered : Rule K → Bool, ∀ r ∈ firstRules defaultFirst (lastDefault calls) (addedRules calls) k,
      r.body.coversDense row = .ok (covered r) := by
    refine ⟨fun r => match r.body.coversDense row with | .ok b => b | .error _ => false, ?_⟩
    intro r hr
    rcases hsub r hr with h | rfl
    · obtain ⟨b, h⟩ := hb r h
      simp only [h]
    · rfl
  obtain ⟨p, h1, h2, h3⟩ := dense_first_rule numLabels _ maxRules row _ hu covered hcov (by
    intro r hr
    rcases hsub r hr with h | rfl
    · exact hf r h
    · simp [Predictor.Spec.HeadFits, hvalues])
  refine ⟨p, h1, h2, ?_⟩
  intro j hj
  rcases h3 j hj with ⟨b, _, h⟩ | ⟨h, _⟩
  · exact ⟨b, h⟩
  · refine absurd ?_ (h _ hmem ?_ values[j])
    · exact List.getElem?_eq_getElem (by omega)
    · have := hcov _ hmem
      have h' : (Except.ok true : Res Bool) = .ok (covered { body := .empty, head := .complete values }) := this
      exact (Except.ok.inj h').symm

/-- **C45.** A sparse prediction is the increasing list of all labels for which *some* used rule that covers the example predicts a value other than
zero, provided that the indices of all heads are in increasing order. No access is out of bounds. -/
theorem sparse_some_rule [Zero K] [DecidableEq K] (numLabels : Nat) (model : RuleList (Rule K)) (maxRules : Nat) (row : List FVal)
    (rules : List (Rule K)) (hrules : model.usedToList maxRules = .ok rules) (covered : Rule K → Bool)
    (hc : ∀ r ∈ rules, r.body.coversDense row = .ok (covered r)) (hf : ∀ r ∈ rules, Predictor.Spec.HeadFits numLabels r.head)
    (hs : ∀ r ∈ rules, HeadSorted r.head) :
    ∃ prediction, predictSparse numLabels model maxRules row = .ok prediction ∧ prediction.Pairwise (· < ·) ∧
      ∀ j, j ∈ prediction ↔ SomeNonZero covered rules j := by
  obtain ⟨s, h1, h2, h3⟩ := forDense_sparse_spec (n := numLabels) (s := []) rules hc hf hs (by simp) (by simp)
  refine ⟨s, ?_, h2, ?_⟩
  · unfold predictSparse
    rw [hrules, ok_bind, h1]
  · intro j
    simpa using h3 j

/-- **C45 (partial).** The sparse and the dense predictor agree, if values are not negative and if a rule that covers the example and predicts `0` for a
label is only followed by rules that predict `0` for this label as well (or do not cover the example). This is the case, for example, if the default
rule comes last and predicts all labels as irrelevant, and if other rules predict only relevant labels. Without this condition, the predictors do not
agree (`predictors_disagree`). -/
theorem predictors_agree_partial [Ring K] [LinearOrder K] [IsStrictOrderedRing K] (numLabels : Nat) (model : RuleList (Rule K)) (maxRules : Nat)
    (row : List FVal) (rules : List (Rule K)) (hrules : model.usedToList maxRules = .ok rules) (covered : Rule K → Bool)
    (hc : ∀ r ∈ rules, r.body.coversDense row = .ok (covered r)) (hf : ∀ r ∈ rules, Predictor.Spec.HeadFits numLabels r.head)
    (hs : ∀ r ∈ rules, HeadSorted r.head) (hpos : ∀ r ∈ rules, ∀ j v, Predicts j v r.head → 0 ≤ v)
    (hzero : rules.Pairwise (fun r r' => covered r = true → covered r' = true → ∀ j v, Predicts j 0 r.head → Predicts j v r'.head → v = 0)) :
    ∃ dense sparse, predictDense numLabels model maxRules row = .ok dense ∧ predictSparse numLabels model maxRules row = .ok sparse ∧
      sparse.Pairwise (· < ·) ∧ ∀ j, dense[j]? = some (some true) ↔ j ∈ sparse := by
  obtain ⟨d, h1, h2, h3⟩ := dense_first_rule numLabels model maxRules row rules hrules covered hc hf
  obtain ⟨s, g1, g2, g3⟩ := sparse_some_rule numLabels model maxRules row rules hrules covered hc hf hs
  refine ⟨d, s, h1, g1, g2, ?_⟩
  intro j
  rw [g3]
  constructor
  · intro h
    have hj : j < numLabels := by
      obtain ⟨hj, _⟩ := List.getElem?_eq_some_iff.mp h
      omega
    rcases h3 j hj with ⟨b, ⟨pre, r, post, v, e, hcov, hp, hb, _⟩, h'⟩ | ⟨_, h'⟩
    · rw [h] at h'
      cases h'
      exact ⟨r, by rw [e]; simp, hcov, v, ne_of_gt (hb.mp rfl), hp⟩
    · rw [h] at h'
      split at h' <;> simp at h'
  · rintro ⟨r, hr, hcov, v, hv, hp⟩
    have hj : j < numLabels := entries_fit (hf r hr) (j, v) ((mem_entries _ _ _).mpr hp)
    rcases h3 j hj with ⟨b, ⟨pre, r', post, v', e, hcov', hp', hb, hn⟩, h'⟩ | ⟨h, _⟩
    · have hmem' : r' ∈ rules := by rw [e]; simp
      suffices hv' : v' ≠ 0 by
        have : 0 < v' := lt_of_le_of_ne (hpos r' hmem' j v' hp') (Ne.symm hv')
        rw [h', hb.mpr this]
      intro h0
      subst h0
      rw [e] at hr hzero
      rcases List.mem_append.mp hr with hr | hr
      · exact hn r hr hcov v hp
      · rw [List.pairwise_append] at hzero
        have hz := List.pairwise_cons.mp hzero.2.1
        rcases List.mem_cons.mp hr with rfl | hr
        · cases hh : r.head with
          | complete values =>
            rw [hh] at hp hp'
            simp only [Predicts] at hp hp'
            rw [hp] at hp'
            exact hv (Option.some.inj hp')
          | partial_ es =>
            have hso := hs r hmem'
            rw [hh] at hp hp' hso
            simp only [Predicts, HeadSorted] at hp hp' hso
            have hnd : (es.map Prod.fst).Nodup := hso.imp (fun h => Nat.ne_of_lt h)
            have := List.inj_on_of_nodup_map hnd hp hp' rfl
            exact hv (Prod.mk.inj this).2
        · exact hv (hz.1 r hr hcov' hcov j v hp' hp)
    · exact absurd hp (h r hr hcov v)

/-- A rule that covers all examples with `x_0 ≤ 2`. -/
def exampleRule (head : Head Int) : Rule Int := ⟨.conjunctive (fun k => if k = .numericalLeq then [some (0, .float 2)] else []), head⟩

example : predictDense 4 ⟨false, some ⟨.empty, .complete [0, 0, 0, 0]⟩,
      [exampleRule (.partial_ [(1, 1), (3, 1)]), exampleRule (.partial_ [(0, 1)])], 0⟩ 2 [some 1] =
      .ok [some false, some true, some false, some true] ∧
    predictSparse 4 ⟨false, some ⟨.empty, .complete [0, 0, 0, 0]⟩,
      [exampleRule (.partial_ [(1, 1), (3, 1)]), exampleRule (.partial_ [(0, 1)])], 0⟩ 0 [some 1] =
      .ok [0, 1, 3] := by decide +kernel

/-- **C45 (negation).** In general, the predictors do not agree: If the default rule predicts a label as relevant, and another rule predicts it as
irrelevant, the dense predictor follows the first rule, whereas the sparse predictor considers the label as relevant. -/
theorem predictors_disagree : ∃ (model : RuleList (Rule Int)) (row : List FVal),
    predictDense 2 model 0 row = .ok [some false, some true] ∧ predictSparse 2 model 0 row = .ok [0, 1] :=
  ⟨⟨false, some ⟨.empty, .complete [1, 1]⟩,
     [exampleRule (.partial_ [(0, 0)])], 0⟩, [some 1], by decide +kernel, by decide +kernel⟩

/-- **C45 (negation).** If the indices of heads are not in increasing order, the result of the sparse predictor contains labels more than once and is
not in increasing order. -/
theorem unsorted_heads : ∃ (model : RuleList (Rule Int)) (row : List FVal),
    predictSparse 4 model 0 row = .ok [1, 3, 1] :=
  ⟨⟨false, none,
     [exampleRule (.partial_ [(3, 1), (1, 1)]), exampleRule (.partial_ [(1, 1), (3, 1)])], 0⟩, [some 1],
    by decide +kernel⟩

/-- **C45.** The predictions for sparse and dense examples are the same, for both kinds of predictions. -/
theorem predict_csr_eq [Zero K] [LT K] [DecidableLT K] [DecidableEq K] (numLabels numFeatures : Nat) (model : RuleList (Rule K)) (maxRules : Nat)
    (row : SparseRow) (sparseValue : FVal) (hnd : (row.map Prod.fst).Nodup) (hlt : ∀ p ∈ row, p.1 < numFeatures) :
    predictDenseCsr numLabels numFeatures model maxRules row sparseValue =
        predictDense numLabels model maxRules (Body.Spec.toDense numFeatures row sparseValue) ∧
      predictSparseCsr numLabels numFeatures model maxRules row sparseValue =
        predictSparse numLabels model maxRules (Body.Spec.toDense numFeatures row sparseValue) := by
  constructor
  · unfold predictDenseCsr predictDense
    congr 1
    funext rules
    rw [sparse_features_eq_dense applyHeadDense numFeatures row sparseValue hnd hlt]
  · unfold predictSparseCsr predictSparse
    congr 1
    funext rules
    rw [sparse_features_eq_dense (applyHeadSparse numLabels) numFeatures row sparseValue hnd hlt]

example : predictSparseCsr 4 3 ⟨false, some ⟨.empty, .complete [0, 0, 1, 0]⟩,
      [exampleRule (.partial_ [(1, 1), (3, 1)])], 0⟩ 0 [(2, some 5)] (some 0) = .ok [1, 2, 3] := by decide +kernel

end MLRL.DecisionList
