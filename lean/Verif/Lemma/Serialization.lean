import Verif.Model.Serialization
import Verif.Lemma.RuleList
import Verif.Lemma.Body

/-!
# Lemmas about serialisation
-/

namespace MLRL.Serialization

open Predictor

variable {K : Type}

theorem mapM_ok {α β γ : Type} (f : β → Res γ) (g : α → β) (h : α → γ) (hf : ∀ a, f (g a) = .ok (h a)) :
    ∀ l : List α, (l.map g).mapM f = .ok (l.map h)
  | [] => rfl
  | a :: l => by
    rw [List.map_cons, List.mapM_cons, hf a, ok_bind, mapM_ok f g h hf l, ok_bind]
    rfl

/-- A loop that writes each element of an array once. -/
theorem loop_write {α β : Type} (l : List α) (f : α → β) (body : Nat → List (Option β) → Res (List (Option β)))
    (hb : ∀ i (hi : i < l.length) v, body i v = writeAt v i (some (f l[i]))) :
    loop l.length body (List.replicate l.length none) = .ok (l.map (fun a => some (f a))) := by
  obtain ⟨v, h1, h2⟩ := loop_rule (P := fun i v => v.length = l.length ∧ ∀ j (hj : j < l.length), j < i → v[j]? = some (some (f l[j])))
    l.length (List.replicate l.length none) ⟨by simp, by intro j hj h; omega⟩ (by
      intro i v hi ⟨e1, e2⟩
      rw [hb i hi v, writeAt_of_lt (by omega)]
      refine ⟨_, rfl, by simp [e1], ?_⟩
      intro j hj hj'
      by_cases hij : i = j
      · subst hij; rw [List.getElem?_set_self (by omega)]
      · rw [List.getElem?_set_ne hij]
        exact e2 j hj (by omega)) (body := body)
  rw [h1]
  congr 1
  apply List.ext_getElem? 
  intro j
  by_cases hj : j < l.length
  · rw [h2.2 j hj hj]
    simp [hj]
  · rw [List.getElem?_eq_none (by omega), List.getElem?_eq_none (by simpa using Nat.not_lt.1 hj)]

/-- The vector of conditions that consists of the given pairs. -/
def vectorOf {T : Type} (make : T → Threshold) (es : List (Nat × T)) : ConditionVector :=
  es.map (fun e => some (e.1, make e.2))

theorem thresholdArray_eq {T : Type} (get : Threshold → Res T) (make : T → Threshold) (h : ∀ t, get (make t) = .ok t)
    (es : List (Nat × T)) :
    thresholdArray get (vectorOf make es) = .ok (if es.length > 0 then some (es.map Prod.snd) else none) := by
  unfold thresholdArray vectorOf
  rw [List.length_map, mapM_ok _ _ Prod.snd (by intro a; simp [useInit, ok_bind, h]), ok_bind]
  split <;> rfl

theorem indexArray_eq {T : Type} (make : T → Threshold) (es : List (Nat × T)) :
    indexArray (vectorOf make es) = .ok (if es.length > 0 then some (es.map Prod.fst) else none) := by
  unfold indexArray vectorOf
  rw [List.length_map, mapM_ok _ _ Prod.fst (by intro a; simp [useInit, ok_bind, pure_eq_ok]), ok_bind]
  split <;> rfl

theorem view_ite {α β : Type} (es : List α) (f : α → β) : view (if es.length > 0 then some (es.map f) else none) = es.map f := by
  cases es <;> simp [view]

theorem deserializeVector_eq {T : Type} (make : T → Threshold) (es : List (Nat × T)) :
    deserializeVector make (if es.length > 0 then some (es.map Prod.snd) else none)
      (if es.length > 0 then some (es.map Prod.fst) else none) = .ok (vectorOf make es) := by
  unfold deserializeVector
  rw [view_ite, view_ite, List.length_map]
  exact loop_write es (fun e => (e.1, make e.2)) _ (by
    intro i hi v
    rw [readAt_of_lt (by simpa using hi), ok_bind, readAt_of_lt (by simpa using hi), ok_bind]
    simp)

/-- The conditions with a given comparator are the ones of a vector with thresholds of type `float32`. -/
theorem entries_float (conds : List Condition) (hw : ∀ c ∈ conds, Body.Spec.WellTyped c) (k : Comparator)
    (hk : k = .numericalLeq ∨ k = .numericalGr) : ∃ es : List (Nat × Rat), entries conds k = vectorOf .float es := by
  unfold entries
  induction conds with
  | nil => exact ⟨[], rfl⟩
  | cons c conds ih =>
    obtain ⟨es, h⟩ := ih (fun c hc => hw c (List.mem_cons_of_mem _ hc))
    by_cases hc : c.comparator = k
    · have hc' := hw c List.mem_cons_self
      unfold Body.Spec.WellTyped at hc'
      cases ht : c.threshold with
      | float t =>
        refine ⟨(c.featureIndex, t) :: es, ?_⟩
        simp only [List.filter_cons, hc, decide_true, if_true, List.map_cons, h, ht]
        rfl
      | int t => rcases hk with rfl | rfl <;> simp [hc, ht] at hc'
    · exact ⟨es, by simpa [List.filter_cons, hc] using h⟩

/-- The conditions with a given comparator are the ones of a vector with thresholds of type `int32`. -/
theorem entries_int (conds : List Condition) (hw : ∀ c ∈ conds, Body.Spec.WellTyped c) (k : Comparator)
    (hk : k ≠ .numericalLeq) (hk' : k ≠ .numericalGr) : ∃ es : List (Nat × Int), entries conds k = vectorOf .int es := by
  unfold entries
  induction conds with
  | nil => exact ⟨[], rfl⟩
  | cons c conds ih =>
    obtain ⟨es, h⟩ := ih (fun c hc => hw c (List.mem_cons_of_mem _ hc))
    by_cases hc : c.comparator = k
    · have hc' := hw c List.mem_cons_self
      unfold Body.Spec.WellTyped at hc'
      cases ht : c.threshold with
      | int t =>
        refine ⟨(c.featureIndex, t) :: es, ?_⟩
        simp only [List.filter_cons, hc, decide_true, if_true, List.map_cons, h, ht]
        rfl
      | float t => cases k <;> simp_all
    · exact ⟨es, by simpa [List.filter_cons, hc] using h⟩

theorem body_roundTrip (conds : List Condition) (hw : ∀ c ∈ conds, Body.Spec.WellTyped c) :
    ∃ s, conjunctiveBodyState (entries conds) = .ok s ∧
      deserializeConjunctiveBody s = .ok (.conjunctive (entries conds)) := by
  obtain ⟨e1, h1⟩ := entries_float conds hw .numericalLeq (.inl rfl)
  obtain ⟨e2, h2⟩ := entries_float conds hw .numericalGr (.inr rfl)
  obtain ⟨e3, h3⟩ := entries_int conds hw .ordinalLeq (by decide) (by decide)
  obtain ⟨e4, h4⟩ := entries_int conds hw .ordinalGr (by decide) (by decide)
  obtain ⟨e5, h5⟩ := entries_int conds hw .nominalEq (by decide) (by decide)
  obtain ⟨e6, h6⟩ := entries_int conds hw .nominalNeq (by decide) (by decide)
  have hf : ∀ t, floatThreshold (.float t) = .ok t := fun _ => rfl
  have hi : ∀ t, intThreshold (.int t) = .ok t := fun _ => rfl
  have hs : conjunctiveBodyState (entries conds) = .ok
      ⟨if e1.length > 0 then some (e1.map Prod.snd) else none, if e1.length > 0 then some (e1.map Prod.fst) else none,
       if e2.length > 0 then some (e2.map Prod.snd) else none, if e2.length > 0 then some (e2.map Prod.fst) else none,
       if e3.length > 0 then some (e3.map Prod.snd) else none, if e3.length > 0 then some (e3.map Prod.fst) else none,
       if e4.length > 0 then some (e4.map Prod.snd) else none, if e4.length > 0 then some (e4.map Prod.fst) else none,
       if e5.length > 0 then some (e5.map Prod.snd) else none, if e5.length > 0 then some (e5.map Prod.fst) else none,
       if e6.length > 0 then some (e6.map Prod.snd) else none, if e6.length > 0 then some (e6.map Prod.fst) else none⟩ := by
    unfold conjunctiveBodyState
    rw [h1, h2, h3, h4, h5, h6]
    simp only [thresholdArray_eq _ _ hf, thresholdArray_eq _ _ hi, indexArray_eq, ok_bind]
    rfl
  refine ⟨_, hs, ?_⟩
  unfold deserializeConjunctiveBody
  simp only [deserializeVector_eq, ok_bind]
  rw [pure_eq_ok]
  congr 2
  funext k
  cases k <;> simp only [h1, h2, h3, h4, h5, h6]

/-- The number of outputs a head predicts for. -/
def headSize : Head K → Nat
  | .complete values => values.length
  | .partial_ entries => entries.length

theorem mapM_useInit {α : Type} (l : List α) : (l.map some).mapM useInit = .ok l := by
  simpa using mapM_ok useInit some id (fun _ => rfl) l

theorem head_roundTrip (h : Head K) (hn : 0 < headSize h) :
    ∃ s, headState h = .ok s ∧ deserializeHead (some s) = .ok h := by
  cases h with
  | complete values =>
    refine ⟨⟨values, none⟩, ?_, ?_⟩
    · simp only [headState, arrayCast]
      rw [if_pos (by simpa [headSize] using hn)]; rfl
    · simp only [deserializeHead, copyScores]
      rw [loop_write values id _ (by intro i hi v; rw [readAt_of_lt hi, ok_bind]; rfl), ok_bind]
      rw [show (values.map (fun a => some (id a))) = values.map some from rfl, mapM_useInit, ok_bind]
      rfl
  | partial_ entries =>
    refine ⟨⟨entries.map Prod.snd, some (entries.map Prod.fst)⟩, ?_, ?_⟩
    · simp only [headState, arrayCast, List.length_map]
      rw [if_pos (by simpa [headSize] using hn), if_pos (by simpa [headSize] using hn)]; rfl
    · simp only [deserializeHead, copyEntries, List.length_map]
      rw [loop_write entries id _ (by
        intro i hi v
        rw [readAt_of_lt (by simpa using hi), ok_bind, readAt_of_lt (by simpa using hi), ok_bind]
        simp), ok_bind]
      rw [show (entries.map (fun a => some (id a))) = entries.map some from rfl, mapM_useInit, ok_bind]
      rfl

theorem headState_empty (h : Head K) (hn : headSize h = 0) : headState h = .error .exception := by
  cases h with
  | complete values =>
    simp only [headSize] at hn
    simp [headState, arrayCast, hn, error_bind]
  | partial_ entries =>
    simp only [headSize] at hn
    simp [headState, arrayCast, hn, error_bind]

theorem serializeHead_last (state : List (RuleState K)) (b : Option BodyState) (h : Head K) (s : HeadState K)
    (hs : headState h = .ok s) : serializeHead (state ++ [⟨b, none⟩]) h = .ok (state ++ [⟨b, some s⟩]) := by
  unfold serializeHead
  rw [hs, ok_bind]
  have hlen : (state ++ [(⟨b, none⟩ : RuleState K)]).length - 1 = state.length := by simp
  rw [hlen, readAt_of_getElem? (x := ⟨b, none⟩) (by simp), ok_bind, writeAt_of_lt (by simp)]
  simp

/-- The body of a rule was created from well-typed conditions. -/
def FromConditions (b : Body) : Prop := ∃ conds : List Condition, (∀ c ∈ conds, Body.Spec.WellTyped c) ∧ b = .conjunctive (entries conds)

theorem rule_roundTrip (r : Rule K) (hb : FromConditions r.body) (hh : 0 < headSize r.head) :
    ∃ s : RuleState K, (∀ state, serializeRule state r = .ok (state ++ [s])) ∧
      ∀ m : RuleList (Rule K), deserializeRule m s = .ok (m.addRule r) := by
  obtain ⟨conds, hw, e⟩ := hb
  obtain ⟨bs, h1, h2⟩ := body_roundTrip conds hw
  obtain ⟨hs, h3, h4⟩ := head_roundTrip r.head hh
  refine ⟨⟨some bs, some hs⟩, ?_, ?_⟩
  · intro state
    unfold serializeRule
    rw [e]
    simp only [serializeBody]
    rw [h1, ok_bind, pure_eq_ok, ok_bind]
    exact serializeHead_last state _ _ _ h3
  · intro m
    unfold deserializeRule
    simp only [deserializeBody]
    rw [h2, ok_bind, pure_eq_ok, ok_bind, h4, ok_bind, ← e]
    rfl

theorem default_roundTrip (r : Rule K) (hb : r.body = .empty) (hh : 0 < headSize r.head) :
    ∃ s : RuleState K, (∀ state, serializeRule state r = .ok (state ++ [s])) ∧
      ∀ m : RuleList (Rule K), deserializeRule m s = .ok (m.addDefaultRule r) := by
  obtain ⟨hs, h3, h4⟩ := head_roundTrip r.head hh
  refine ⟨⟨none, some hs⟩, ?_, ?_⟩
  · intro state
    unfold serializeRule
    rw [hb]
    simp only [serializeBody]
    rw [ok_bind]
    exact serializeHead_last state _ _ _ h3
  · intro m
    unfold deserializeRule
    simp only [deserializeBody]
    rw [ok_bind, h4, ok_bind, pure_eq_ok]
    unfold addDeserialized
    rw [← hb]

theorem rules_roundTrip : ∀ (rules : List (Rule K)), (∀ r ∈ rules, FromConditions r.body) → (∀ r ∈ rules, 0 < headSize r.head) →
    ∃ ss : List (RuleState K), (∀ state, rules.foldlM serializeRule state = .ok (state ++ ss)) ∧
      ∀ m : RuleList (Rule K), ss.foldlM deserializeRule m = .ok { m with rules := m.rules ++ rules }
  | [], _, _ => ⟨[], by intro state; simp [pure_eq_ok], by intro m; simp [pure_eq_ok]⟩
  | r :: rules, hb, hh => by
    obtain ⟨s, h1, h2⟩ := rule_roundTrip r (hb r List.mem_cons_self) (hh r List.mem_cons_self)
    obtain ⟨ss, h3, h4⟩ := rules_roundTrip rules (fun r hr => hb r (List.mem_cons_of_mem _ hr))
      (fun r hr => hh r (List.mem_cons_of_mem _ hr))
    refine ⟨s :: ss, ?_, ?_⟩
    · intro state
      rw [List.foldlM_cons, h1, ok_bind, h3]
      simp
    · intro m
      rw [List.foldlM_cons, h2, ok_bind, h4]
      simp [RuleList.addRule]

/-- Iterating over all rules. -/
theorem toList_eq (l : RuleList (Rule K)) (hlen : l.rules.length + 1 < 2 ^ 32) :
    l.toList 0 = .ok (RuleList.Spec.allRules l.defaultRuleTakesPrecedence l.defaultRule l.rules) := by
  have hlen' : (RuleList.Spec.allRules l.defaultRuleTakesPrecedence l.defaultRule l.rules).length = l.getNumRules := by
    unfold RuleList.Spec.allRules RuleList.getNumRules
    cases l.defaultRule <;> cases l.defaultRuleTakesPrecedence <;> simp
  have hn : l.getNumRules ≤ l.rules.length + 1 := by
    unfold RuleList.getNumRules
    split <;> omega
  unfold RuleList.toList RuleList.cbegin RuleList.cend
  rw [show RuleList.limit l.getNumRules 0 = l.getNumRules by simp [RuleList.limit]]
  rw [RuleList.iterate_eq _ _ _ _ (by omega) (by
    intro h
    unfold RuleList.getNumRules
    simp [h]) (by omega)]
  congr 1
  unfold RuleList.Spec.firstRules RuleList.Spec.allRules RuleList.getNumRules
  cases l.defaultRule <;> cases l.defaultRuleTakesPrecedence <;> simp

end MLRL.Serialization
