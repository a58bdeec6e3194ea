import Verif.Lemma.Serialization
import Verif.Lemma.LabelVectors

/-!
# C97: models survive being saved and loaded
-/

namespace MLRL.Serialization

open Predictor

variable {K : Type}

/-! ### Rule models -/

/-- What is known about a rule model that was learned: the default rule has an empty body, the bodies of the other rules were
created from conditions, and the number of rules fits into 32 bits. -/
structure Learned (l : RuleList (Rule K)) : Prop where
  defaultBody : ∀ r, l.defaultRule = some r → r.body = .empty
  bodies : ∀ r ∈ l.rules, FromConditions r.body
  size : l.rules.length + 1 < 2 ^ 32

/-- Each rule predicts for at least one output. -/
def HeadsNonempty (l : RuleList (Rule K)) : Prop :=
  (∀ r, l.defaultRule = some r → 0 < headSize r.head) ∧ ∀ r ∈ l.rules, 0 < headSize r.head

/-- The bodies that are created by the search for refinements satisfy the assumption. -/
theorem fromConditions_of_create {l : ConditionList} (h : l.Consistent) (hw : ∀ c ∈ l.conditions, Body.Spec.WellTyped c)
    {b : Body} (hb : l.createConjunctiveBody = .ok b) : FromConditions b := by
  obtain ⟨vs, h1, h2⟩ := createConjunctiveBody_spec h hw
  rw [h1] at hb
  refine ⟨l.conditions, hw, ?_⟩
  rw [← Except.ok.inj hb, show vs = entries l.conditions from funext h2]

/-- **C97.** Saving a model that was learned succeeds if each rule predicts for at least one output. Loading what was saved
results in a model with the same default rule, the same rules in the same order, the same number of used rules and the same
precedence of the default rule. -/
theorem save_load (l : RuleList (Rule K)) (h : Learned l) (hh : HeadsNonempty l) :
    ∃ s l', serialize l = .ok s ∧ deserialize s = .ok l' ∧
      l'.defaultRule = l.defaultRule ∧ l'.rules = l.rules ∧
      l'.defaultRuleTakesPrecedence = l.defaultRuleTakesPrecedence ∧
      l'.getNumUsedRules = l.getNumUsedRules := by
  obtain ⟨ss, h1, h2⟩ := rules_roundTrip l.rules h.bodies hh.2
  have hused : ∀ l' : RuleList (Rule K), l'.rules = l.rules → l'.defaultRule = l.defaultRule →
      l'.numUsedRules = l.getNumUsedRules → l'.getNumUsedRules = l.getNumUsedRules := by
    intro l' e1 e2 e3
    unfold RuleList.getNumUsedRules at e3 ⊢
    unfold RuleList.getNumRules at e3 ⊢
    rw [e1, e2, e3]
    grind
  have key : ∃ state, (RuleList.Spec.allRules l.defaultRuleTakesPrecedence l.defaultRule l.rules).foldlM serializeRule [] =
        .ok state ∧
      state.foldlM deserializeRule (RuleList.init l.defaultRuleTakesPrecedence) =
        .ok ⟨l.defaultRuleTakesPrecedence, l.defaultRule, l.rules, 0⟩ := by
    unfold RuleList.Spec.allRules
    cases hd : l.defaultRule with
    | none =>
      refine ⟨ss, ?_, ?_⟩
      · simpa using h1 []
      · simpa [RuleList.init] using h2 (RuleList.init l.defaultRuleTakesPrecedence)
    | some r =>
      obtain ⟨s, h3, h4⟩ := default_roundTrip r (h.defaultBody r hd) (hh.1 r hd)
      cases hp : l.defaultRuleTakesPrecedence with
      | true =>
        refine ⟨s :: ss, ?_, ?_⟩
        · simp only [if_true, Option.toList_some, List.singleton_append, List.foldlM_cons]
          rw [h3, ok_bind, h1]; rfl
        · rw [List.foldlM_cons, h4, ok_bind, h2]
          simp [RuleList.init, RuleList.addDefaultRule]
      | false =>
        refine ⟨ss ++ [s], ?_, ?_⟩
        · simp only [Bool.false_eq_true, if_false, Option.toList_some, List.foldlM_append]
          rw [h1, ok_bind, List.foldlM_cons, h3, ok_bind]; rfl
        · rw [List.foldlM_append, h2, ok_bind, List.foldlM_cons, h4, ok_bind]
          simp [RuleList.init, RuleList.addDefaultRule, pure_eq_ok]
  obtain ⟨state, h5, h6⟩ := key
  refine ⟨⟨ruleVersion, state, l.defaultRuleTakesPrecedence, l.getNumUsedRules⟩,
    ⟨l.defaultRuleTakesPrecedence, l.defaultRule, l.rules, l.getNumUsedRules⟩, ?_, ?_, rfl, rfl, rfl, hused _ rfl rfl rfl⟩
  · unfold serialize
    rw [toList_eq l h.size, ok_bind, h5, ok_bind]
    rfl
  · unfold deserialize
    simp only [ne_eq, not_true_eq_false, if_false]
    rw [h6]; rfl

/-- **C97.** A model that is saved and loaded cannot be told apart from the original one by a predictor: all iterators over the
rules, with and without a limit, are the same. In particular, each way of predicting, including incremental prediction, leads to
the same results. -/
theorem save_load_predict (l : RuleList (Rule K)) (h : Learned l) (hh : HeadsNonempty l) :
    ∃ s l', serialize l = .ok s ∧ deserialize s = .ok l' ∧
      (∀ m, l'.cbegin m = l.cbegin m ∧ l'.cend m = l.cend m ∧ l'.usedCbegin m = l.usedCbegin m ∧ l'.usedCend m = l.usedCend m) ∧
      (∀ m, l'.toList m = l.toList m ∧ l'.usedToList m = l.usedToList m) ∧
      ∀ (S : Type) (m : Nat) (row : S), Incremental.create l' m row = Incremental.create l m row := by
  obtain ⟨s, l', h1, h2, h3, h4, h5, h6⟩ := save_load l h hh
  have hn : l'.getNumRules = l.getNumRules := by unfold RuleList.getNumRules; rw [h3, h4]
  have a1 : ∀ m, l'.cbegin m = l.cbegin m := by intro m; unfold RuleList.cbegin; rw [h3, h4, h5, hn]
  have a2 : ∀ m, l'.cend m = l.cend m := by intro m; unfold RuleList.cend; rw [h3, h4, h5, hn]
  have a3 : ∀ m, l'.usedCbegin m = l.usedCbegin m := by intro m; unfold RuleList.usedCbegin; rw [h3, h4, h5, h6]
  have a4 : ∀ m, l'.usedCend m = l.usedCend m := by intro m; unfold RuleList.usedCend; rw [h3, h4, h5, h6]
  refine ⟨s, l', h1, h2, fun m => ⟨a1 m, a2 m, a3 m, a4 m⟩, fun m => ⟨?_, ?_⟩, fun S m row => ?_⟩
  · unfold RuleList.toList; rw [a1, a2]
  · unfold RuleList.usedToList; rw [a3, a4]
  · unfold Incremental.create; rw [a3, a4]

/-- **C97.** Saving a model that was loaded results in the same state again. -/
theorem save_load_save (l : RuleList (Rule K)) (h : Learned l) (hh : HeadsNonempty l) :
    ∃ s l', serialize l = .ok s ∧ deserialize s = .ok l' ∧ serialize l' = .ok s := by
  obtain ⟨s, l', h1, h2, h3, h4, h5, h6⟩ := save_load l h hh
  refine ⟨s, l', h1, h2, ?_⟩
  have hn : l'.getNumRules = l.getNumRules := by unfold RuleList.getNumRules; rw [h3, h4]
  rw [← h1]
  unfold serialize RuleList.toList RuleList.cbegin RuleList.cend
  rw [h3, h4, h5, h6, hn]

theorem serializeRule_error (r : Rule K) (hb : r.body = .empty ∨ FromConditions r.body) (hh : headSize r.head = 0)
    (state : List (RuleState K)) : serializeRule state r = .error .exception := by
  have hhead : ∀ st : List (RuleState K), serializeHead st r.head = .error .exception := by
    intro st
    unfold serializeHead
    rw [headState_empty r.head hh, error_bind]
  unfold serializeRule
  rcases hb with hb | ⟨conds, hw, hb⟩
  · rw [hb]
    simp only [serializeBody]
    rw [ok_bind, hhead]
  · obtain ⟨bs, h1, _⟩ := body_roundTrip conds hw
    rw [hb]
    simp only [serializeBody]
    rw [h1, ok_bind, pure_eq_ok, ok_bind, hhead]

theorem serializeRules_error : ∀ (rules : List (Rule K)) (state : List (RuleState K)),
    (∀ r ∈ rules, r.body = .empty ∨ FromConditions r.body) → (∃ r ∈ rules, headSize r.head = 0) →
    rules.foldlM serializeRule state = .error .exception
  | [], _, _, h => by obtain ⟨r, hr, _⟩ := h; cases hr
  | r :: rules, state, hb, h => by
    rw [List.foldlM_cons]
    by_cases hr : headSize r.head = 0
    · rw [serializeRule_error r (hb r List.mem_cons_self) hr, error_bind]
    · have hs : ∃ s, serializeRule state r = .ok (state ++ [s]) := by
        rcases hb r List.mem_cons_self with h' | h'
        · obtain ⟨s, h1, _⟩ := default_roundTrip r h' (by omega); exact ⟨s, h1 state⟩
        · obtain ⟨s, h1, _⟩ := rule_roundTrip r h' (by omega); exact ⟨s, h1 state⟩
      obtain ⟨s, hs⟩ := hs
      rw [hs, ok_bind]
      obtain ⟨r', hr', h0⟩ := h
      rcases List.mem_cons.1 hr' with rfl | hr'
      · exact absurd h0 hr
      · exact serializeRules_error rules _ (fun r hr => hb r (List.mem_cons_of_mem _ hr)) ⟨r', hr', h0⟩

/-- **C97.** The restriction is necessary: a model that was learned can be saved if and only if each rule predicts for at least one
output. Otherwise, an exception is raised, because Cython does not support arrays without elements. -/
theorem save_iff (l : RuleList (Rule K)) (h : Learned l) :
    (HeadsNonempty l → ∃ s, serialize l = .ok s) ∧ (¬ HeadsNonempty l → serialize l = .error .exception) := by
  refine ⟨fun hh => ?_, fun hh => ?_⟩
  · obtain ⟨s, _, h1, _⟩ := save_load l h hh
    exact ⟨s, h1⟩
  · unfold serialize
    rw [toList_eq l h.size, ok_bind, serializeRules_error, error_bind]
    · intro r hr
      have : r ∈ l.rules ∨ l.defaultRule = some r := by
        unfold RuleList.Spec.allRules at hr
        cases hp : l.defaultRuleTakesPrecedence <;> cases hd : l.defaultRule <;> simp [hp, hd] at hr ⊢ <;> grind
      rcases this with hr | hr
      · exact .inr (h.bodies r hr)
      · exact .inl (h.defaultBody r hr)
    · by_contra hc
      apply hh
      have hm : ∀ r, (r ∈ l.rules ∨ l.defaultRule = some r) →
          r ∈ RuleList.Spec.allRules l.defaultRuleTakesPrecedence l.defaultRule l.rules := by
        intro r hr
        unfold RuleList.Spec.allRules
        cases hp : l.defaultRuleTakesPrecedence <;> cases hd : l.defaultRule <;> simp [hd] at hr ⊢ <;> grind
      exact ⟨fun r hr => Nat.pos_of_ne_zero (fun h0 => hc ⟨r, hm r (.inr hr), h0⟩),
        fun r hr => Nat.pos_of_ne_zero (fun h0 => hc ⟨r, hm r (.inl hr), h0⟩)⟩

/-- **C97.** A state that was saved by another version is rejected. -/
theorem load_version (s : RuleListState K) (h : s.version ≠ 4) : deserialize s = .error .exception := by
  unfold deserialize
  rw [if_pos (by simpa [ruleVersion] using h)]
  rfl

/-- A model with a default rule and two rules. -/
def exModel : RuleList (Rule Int) :=
  { defaultRuleTakesPrecedence := true
    defaultRule := some ⟨.empty, .complete [1, -1]⟩
    rules := [⟨.conjunctive (entries [⟨0, .numericalLeq, .float (1/2)⟩, ⟨1, .nominalEq, .int 3⟩, ⟨0, .numericalLeq, .float (1/4)⟩]), .partial_ [(1, 5)]⟩,
      ⟨.conjunctive (entries []), .complete [0, 2]⟩]
    numUsedRules := 2 }

/-- Instance: the hypotheses are met by a model with conditions of different types. -/
example : Learned exModel ∧ HeadsNonempty exModel := by
  refine ⟨⟨?_, ?_, by decide⟩, ?_, ?_⟩
  · intro r hr; cases hr; rfl
  · intro r hr
    simp only [exModel, List.mem_cons, List.not_mem_nil, or_false] at hr
    rcases hr with rfl | rfl
    · exact ⟨_, by simp [Body.Spec.WellTyped], rfl⟩
    · exact ⟨[], by simp, rfl⟩
  · intro r hr; cases hr; decide
  · intro r hr
    simp only [exModel, List.mem_cons, List.not_mem_nil, or_false] at hr
    rcases hr with rfl | rfl <;> decide

/-- What is saved for this model. -/
example : serialize exModel = .ok ⟨4,
    [⟨none, some ⟨[1, -1], none⟩⟩,
     ⟨some ⟨some [1/2, 1/4], some [0, 0], none, none, none, none, none, none, some [3], some [1], none, none⟩, some ⟨[5], some [1]⟩⟩,
     ⟨some ⟨none, none, none, none, none, none, none, none, none, none, none, none⟩, some ⟨[0, 2], none⟩⟩], true, 2⟩ := by
  decide +kernel

/-- Loading fixes the number of used rules: if it was not set, rules that are added to a loaded model are not used, whereas they
would be if they were added to the original model. The Python code never adds rules to a loaded model. -/
theorem load_fixes_used : ∃ l l' : RuleList (Rule Int), (∃ s, serialize l = .ok s ∧ deserialize s = .ok l') ∧
    (l.addRule ⟨.empty, .complete [7]⟩).getNumUsedRules = 2 ∧ (l'.addRule ⟨.empty, .complete [7]⟩).getNumUsedRules = 1 := by
  let l : RuleList (Rule Int) := ⟨true, some ⟨.empty, .complete [1]⟩, [], 0⟩
  exact ⟨l, ⟨true, some ⟨.empty, .complete [1]⟩, [], 1⟩, ⟨_, rfl, rfl⟩, rfl, rfl⟩

/-! ### Calibration models -/

theorem foldlM_serializeBin (i : Nat) : ∀ (bins : List (K × K)) (state : List (List (K × K))) (h : i < state.length),
    bins.foldlM (fun state bin => serializeBin state i bin) state = .ok (state.set i (state[i] ++ bins))
  | [], state, h => by simp [pure_eq_ok]
  | b :: bins, state, h => by
    rw [List.foldlM_cons]
    unfold serializeBin
    rw [readAt_of_lt h, ok_bind, writeAt_of_lt h, ok_bind]
    have := foldlM_serializeBin i bins (state.set i (state[i] ++ [b])) (by simpa using h)
    unfold serializeBin at this
    rw [this]
    simp

theorem loop_addBin (i : Nat) (bins : List (K × K)) (model : List (List (K × K))) (h : i < model.length) :
    loop bins.length (fun j model => do
      let bin ← readAt bins j
      Isotonic.addBin model i bin) model = .ok (model.set i (model[i] ++ bins)) := by
  obtain ⟨m, h1, h2⟩ := loop_rule (body := fun j model => do
      let bin ← readAt bins j
      Isotonic.addBin model i bin) (P := fun j m => m = model.set i (model[i] ++ bins.take j)) bins.length model (by simp) (by
    intro j m hj hm
    subst hm
    refine ⟨_, ?_, rfl⟩
    unfold Isotonic.addBin
    rw [readAt_of_lt hj, ok_bind, readAt_of_lt (by simpa using h), ok_bind, writeAt_of_lt (by simpa using h)]
    simp)
  rw [h1, h2]
  simp

/-- Filling the lists one after the other. -/
theorem loop_fill (lists : List (List (K × K))) (body : Nat → List (List (K × K)) → Res (List (List (K × K))))
    (hb : ∀ i (hi : i < lists.length) (v : List (List (K × K))) (hv : i < v.length), body i v = .ok (v.set i (v[i] ++ lists[i]))) :
    loop lists.length body (List.replicate lists.length []) = .ok lists := by
  obtain ⟨v, h1, h2⟩ := loop_rule (body := body) (P := fun i v => v = lists.take i ++ List.replicate (lists.length - i) [])
    lists.length (List.replicate lists.length []) (by simp) (by
      intro i v hi hv
      refine ⟨_, hb i hi v (by rw [hv]; simp; omega), ?_⟩
      subst hv
      apply List.ext_getElem
      · simp; omega
      · intro j h1 h2
        rw [List.getElem_set]
        split
        · rename_i e
          subst e
          simp [List.getElem_append, hi]
        · rename_i hne
          simp only [List.getElem_append, List.length_take, List.getElem_take, List.getElem_replicate]
          by_cases hj : j < i
          · rw [dif_pos (by omega), dif_pos (by omega)]
          · rw [dif_neg (by omega), dif_neg (by omega)])
  rw [h1, h2]
  simp

/-- **C97.** A calibration model that is saved and loaded has the same bins. -/
theorem calibration_save_load (model : List (List (K × K))) :
    ∃ s, serializeCalibration model = .ok s ∧ deserializeCalibration s = .ok model := by
  refine ⟨⟨calibrationVersion, model⟩, ?_, ?_⟩
  · unfold serializeCalibration
    rw [loop_fill model _ (by
      intro i hi v hv
      rw [readAt_of_lt hi, ok_bind]
      exact foldlM_serializeBin i _ v hv), ok_bind]
    rfl
  · unfold deserializeCalibration
    simp only [ne_eq, not_true_eq_false, if_false]
    exact loop_fill model _ (by
      intro i hi v hv
      rw [readAt_of_lt hi, ok_bind]
      exact loop_addBin i _ v hv)

/-- **C97.** A calibration model that was saved by another version is rejected. -/
theorem calibration_version (s : CalibrationState K) (h : s.version ≠ 0) : deserializeCalibration s = .error .exception := by
  unfold deserializeCalibration
  rw [if_pos (by simpa [calibrationVersion] using h)]
  rfl

/-- Instance: two lists of bins, one of them empty. -/
example : serializeCalibration [[], [((1 : Int), (2 : Int)), (3, 4)]] = .ok ⟨0, [[], [(1, 2), (3, 4)]]⟩ := by decide

/-! ### Label vectors -/

theorem serializeLabelVector_eq (v : List Nat) : serializeLabelVector v = .ok v := by
  obtain ⟨m, h1, h2⟩ := loop_rule (body := fun i state => do
      let labelIndex ← readAt v i
      return state ++ [labelIndex]) (P := fun i state => state = v.take i) v.length ([] : List Nat) (by simp) (by
    intro i state hi hs
    subst hs
    refine ⟨_, by rw [readAt_of_lt hi, ok_bind]; rfl, by simp⟩)
  unfold serializeLabelVector
  rw [h1, h2, List.take_length]

theorem deserializeLabelVector_eq (v : List Nat) : deserializeLabelVector v = .ok v := by
  unfold deserializeLabelVector
  rw [loop_write v id _ (by intro i hi w; rw [readAt_of_lt hi, ok_bind]; rfl), ok_bind]
  exact mapM_useInit v

/-- **C97.** A set of label vectors that is saved and loaded consists of the same label vectors, in the same order, with the same
frequencies. -/
theorem labels_save_load (set : LabelVectors.LabelVectorSet) (h : set.vectors.length = set.frequencies.length) :
    ∃ s, serializeLabelVectors set = .ok s ∧ deserializeLabelVectors s = .ok set := by
  refine ⟨⟨labelVersion, set.vectors.zip set.frequencies⟩, ?_, ?_⟩
  · obtain ⟨m, h1, h2⟩ := loop_rule (body := fun i state => do
        let labelVector ← readAt set.vectors i
        let frequency ← readAt set.frequencies i
        let labelVectorState ← serializeLabelVector labelVector
        return state ++ [(labelVectorState, frequency)]) (P := fun i state => state = (set.vectors.zip set.frequencies).take i)
        set.vectors.length [] (by simp) (by
      intro i state hi hs
      subst hs
      refine ⟨_, by rw [readAt_of_lt hi, ok_bind, readAt_of_lt (by omega), ok_bind, serializeLabelVector_eq, ok_bind]; rfl, ?_⟩
      rw [List.take_add_one, List.getElem?_eq_getElem (by simpa using ⟨hi, h ▸ hi⟩)]
      simp)
    unfold serializeLabelVectors
    rw [h1, h2, ok_bind, List.take_of_length_le (by simp)]
    rfl
  · unfold deserializeLabelVectors
    simp only [ne_eq, not_true_eq_false, if_false]
    obtain ⟨m, h1, h2⟩ := loop_rule (body := fun i (s : LabelVectors.LabelVectorSet) => do
        let e ← readAt (set.vectors.zip set.frequencies) i
        let labelVector ← deserializeLabelVector e.1
        return addLabelVector s labelVector e.2)
        (P := fun i s => s = ⟨set.vectors.take i, set.frequencies.take i⟩)
        (set.vectors.zip set.frequencies).length ⟨[], []⟩ (by simp) (by
      intro i s hi hs
      subst hs
      have hi' : i < set.vectors.length := by simp at hi; omega
      refine ⟨_, by rw [readAt_of_lt hi, ok_bind, deserializeLabelVector_eq, ok_bind]; rfl, ?_⟩
      unfold addLabelVector
      rw [List.take_add_one, List.take_add_one, List.getElem?_eq_getElem hi', List.getElem?_eq_getElem (by omega)]
      simp)
    refine Eq.trans h1 ?_
    rw [h2, List.take_of_length_le (by simp; omega), List.take_of_length_le (by simp; omega)]

/-- **C97.** This applies to each set of label vectors that is created from the training data. -/
theorem labels_save_load_created {H : Type} [DecidableEq H] (hash : List Nat → H) (rows : List (List Nat)) :
    ∃ set s, LabelVectors.createLabelVectorSet hash rows = .ok set ∧ serializeLabelVectors set = .ok s ∧
      deserializeLabelVectors s = .ok set := by
  obtain ⟨c, h1, h2⟩ := LabelVectors.createLabelVectorSet_ok hash rows
  obtain ⟨s, h3, h4⟩ := labels_save_load c.2 (by rw [h2.frequencies]; simp)
  exact ⟨c.2, s, h1, h3, h4⟩

/-- **C97.** A set of label vectors that was saved by another version is rejected. -/
theorem labels_version (s : LabelState) (h : s.version ≠ 3) : deserializeLabelVectors s = .error .exception := by
  unfold deserializeLabelVectors
  rw [if_pos (by simpa [labelVersion] using h)]
  rfl

/-- Instance: label vectors, one of them without relevant labels. -/
example : serializeLabelVectors ⟨[[0, 2], []], [3, 1]⟩ = .ok ⟨3, [([0, 2], 3), ([], 1)]⟩ := by decide

end MLRL.Serialization
