import Verif.Spec.Training
import Verif.Props.Induction
import Verif.Props.Stopping
import Verif.Props.RuleList
import Verif.Props.Predictor

/-! # Lemmas about training -/

namespace MLRL.Training

open Predictor Induction Stopping Stopping.Spec Refinement

variable {σ Cond K Q R S : Type}

/-! ### Evaluation -/

/-- `evaluate` calculates the average of the scores of the examples. -/
theorem evaluate_eq [Field K] [LinearOrder K] [IsStrictOrderedRing K] (indices : List Nat) (measure : Nat → R → Res K)
    (cells : List (Update.Cell R S)) (f : Nat → K)
    (h : ∀ i ∈ indices, ∃ c, cells[i]? = some c ∧ measure i c.scores = .ok (f i)) :
    evaluate indices measure cells = .ok ((indices.map f).sum / (indices.length : K)) := by
  obtain ⟨s, h1, h2, h3⟩ := loop_rule (body := evaluateStep indices measure cells)
    (fun i mean => (i = 0 → mean = 0) ∧ mean * (i : K) = ((indices.take i).map f).sum) indices.length 0 (by simp) (by
      intro i mean hi ⟨_, p2⟩
      obtain ⟨c, g1, g2⟩ := h indices[i] (List.getElem_mem hi)
      refine ⟨iterativeArithmeticMean (i + 1) (f indices[i]) mean, ?_, by omega, ?_⟩
      · unfold evaluateStep
        rw [readAt_of_lt hi, ok_bind, readAt_of_getElem? g1, ok_bind, g2, ok_bind]
        rfl
      · rw [List.take_succ, List.getElem?_eq_getElem hi]
        simp only [Option.toList_some, List.map_append, List.map_cons, List.map_nil, List.sum_append, List.sum_cons, List.sum_nil, add_zero]
        rw [← p2]
        unfold iterativeArithmeticMean
        have : ((i : K) + 1) ≠ 0 := by exact_mod_cast Nat.succ_ne_zero i
        push_cast
        field_simp
        ring)
  unfold evaluate
  rw [h1]
  congr 1
  rw [List.take_length] at h3
  by_cases h0 : indices.length = 0
  · rw [h2 h0, h0]
    simp
  · have : (indices.length : K) ≠ 0 := by exact_mod_cast h0
    rw [← h3]
    field_simp

/-! ### Histories of calls to criteria -/

theorem runTests_map {α β ι κ : Type} {test : α → ι → Res (Result × α)} {test' : β → κ → Res (Result × β)} (e : β → α) (f : ι → κ)
    (history : List ι) (h : ∀ x ∈ history, ∀ b, test (e b) x = (test' b (f x) >>= fun p => .ok (p.1, e p.2))) :
    ∀ b, runTests test (e b) history = (runTests test' b (history.map f) >>= fun p => .ok (p.1, e p.2)) := by
  induction history with
  | nil => intro b; rfl
  | cons x xs ih =>
    intro b
    rw [List.map_cons]
    unfold runTests
    rw [h x List.mem_cons_self b]
    cases ht : test' b (f x) with
    | error e' => rfl
    | ok p =>
      simp only [ok_bind]
      rw [ih (fun y hy => h y (List.mem_cons_of_mem _ hy)) p.2]
      cases runTests test' p.2 (xs.map f) <;> rfl

/-- A criterion that limits the number of rules or the time. -/
def Limits : CriterionState K → Prop
  | .size _ => True
  | .time _ _ _ => True
  | _ => False

theorem limits_test [Field K] [LinearOrder K] {env : Environment K R} {state state' : CriterionState K} {cells : List (Update.Cell R S)}
    {n : Nat} {r : Result} (hs : Limits state) (h : env.test state cells n = .ok (r, state')) : Limits state' ∧ r.numUsedRules = 0 := by
  cases state with
  | size maxRules =>
    cases h
    refine ⟨trivial, ?_⟩
    unfold sizeTest
    split <;> rfl
  | time timeLimit k timer =>
    cases h
    refine ⟨trivial, ?_⟩
    unfold timeTest
    split
    · simp only; split <;> rfl
    · rfl
  | pre p => cases hs
  | post p => cases hs

/-- The criteria that are used by a boosting algorithm. -/
structure Chain [Field K] [LinearOrder K] (env : Environment K R) (others : List (Criterion (CriterionState K) (List (Update.Cell R S)))) :
    Prop where
  limits : ∀ c ∈ others, Limits c.state
  test : ∀ c ∈ others, c.test = env.test

theorem lastNonZero_zeros_append (l : List Nat) (h : ∀ x ∈ l, x = 0) (x : Nat) : lastNonZero (l ++ [x]) = x := by
  unfold lastNonZero
  rw [List.filter_append, List.filter_eq_nil_iff.2 (fun y hy => by simp [h y hy]), List.nil_append]
  by_cases hx : x = 0 <;> simp [hx]

theorem lastNonZero_zeros (l : List Nat) (h : ∀ x ∈ l, x = 0) : lastNonZero l = 0 := by
  unfold lastNonZero
  rw [List.filter_eq_nil_iff.2 (fun y hy => by simp [h y hy])]
  rfl

theorem chain_calls [Field K] [LinearOrder K] {env : Environment K R} {others : List (Criterion (CriterionState K) (List (Update.Cell R S)))}
    (hc : Chain env others) {cells : List (Update.Cell R S)} {n : Nat}
    {calls : List (Result × Criterion (CriterionState K) (List (Update.Cell R S)))}
    (h : List.Forall₂ (fun c p => c.call cells n = .ok p) others calls) :
    Chain env (calls.map Prod.snd) ∧ ∀ x ∈ calls.map (fun p => p.1.numUsedRules), x = 0 := by
  have key : ∀ p ∈ calls, Limits p.2.state ∧ p.2.test = env.test ∧ p.1.numUsedRules = 0 := by
    intro p hp
    obtain ⟨c, hc1, hc2⟩ := forall₂_mem_right h p hp
    obtain ⟨g1, g2⟩ := Criterion.call_test hc2
    rw [hc.test c hc1] at g1 g2
    obtain ⟨g3, g4⟩ := limits_test (hc.limits c hc1) g2
    exact ⟨g3, g1, g4⟩
  refine ⟨⟨?_, ?_⟩, ?_⟩
  · intro c hc'
    obtain ⟨p, hp, rfl⟩ := List.mem_map.1 hc'
    exact (key p hp).1
  · intro c hc'
    obtain ⟨p, hp, rfl⟩ := List.mem_map.1 hc'
    exact (key p hp).2.1
  · intro x hx
    obtain ⟨p, hp, rfl⟩ := List.mem_map.1 hx
    exact (key p hp).2.2

/-- Testing criteria without global pruning. -/
theorem listTest_limits [Field K] [LinearOrder K] {env : Environment K R}
    {others cs' : List (Criterion (CriterionState K) (List (Update.Cell R S)))} (hc : Chain env others) {cells : List (Update.Cell R S)}
    {n : Nat} {r : Result} (h : listTest others cells n = .ok (r, cs')) : Chain env cs' ∧ r.numUsedRules = 0 := by
  obtain ⟨calls, h1, h2, _, h4⟩ := listTest_forall₂ h
  obtain ⟨g1, g2⟩ := chain_calls hc h1
  rw [h2, h4]
  exact ⟨g1, lastNonZero_zeros _ g2⟩

theorem forall₂_append_split {α β : Type} {r : α → β → Prop} {a b : List α} {l : List β} (h : List.Forall₂ r (a ++ b) l) :
    ∃ l1 l2, List.Forall₂ r a l1 ∧ List.Forall₂ r b l2 ∧ l = l1 ++ l2 := by
  induction a generalizing l with
  | nil => exact ⟨[], l, .nil, h, rfl⟩
  | cons x xs ih =>
    cases h with
    | cons hx hxs =>
      obtain ⟨l1, l2, h1, h2, rfl⟩ := ih hxs
      exact ⟨_ :: l1, l2, .cons hx h1, h2, rfl⟩

/-- Testing criteria, the last of which is responsible for global pruning. -/
theorem listTest_pruning [Field K] [LinearOrder K] {env : Environment K R}
    {others cs' : List (Criterion (CriterionState K) (List (Update.Cell R S)))} (hc : Chain env others) {state : CriterionState K}
    {cells : List (Update.Cell R S)} {n : Nat} {r : Result} (h : listTest (others ++ [⟨state, env.test⟩]) cells n = .ok (r, cs')) :
    ∃ others' result state', cs' = others' ++ [⟨state', env.test⟩] ∧ Chain env others' ∧ env.test state cells n = .ok (result, state') ∧
      r.numUsedRules = result.numUsedRules ∧ (result.stop = true → r.stop = true) := by
  obtain ⟨calls, h1, h2, h3, h4⟩ := listTest_forall₂ h
  obtain ⟨l1, l2, k1, k2, rfl⟩ := forall₂_append_split h1
  cases k2 with
  | cons hcall hnil =>
    rename_i p l2'
    cases hnil
    obtain ⟨result, c'⟩ := p
    obtain ⟨g1, g2⟩ := Criterion.call_test hcall
    simp only at g1 g2
    obtain ⟨m1, m2⟩ := chain_calls hc k1
    refine ⟨l1.map Prod.snd, result, c'.state, ?_, m1, g2, ?_, ?_⟩
    · rw [h2, List.map_append]
      simp only [List.map_cons, List.map_nil]
      rw [← g1]
    · rw [h4, List.map_append]
      exact lastNonZero_zeros_append _ m2 _
    · intro hs
      exact h3.2 ⟨_, List.mem_append_right _ List.mem_cons_self, hs⟩

/-! ### The assemblage of a model -/

/-- The statistics belong to the given rules. -/
def Trained [AddCommGroup K] (numExamples numOutputs : Nat) (holds : Cond → Nat → Bool) (Valid : R → Prop) (value : R → Nat → K)
    (Consistent : Nat → R → S → Prop) (rules : List (Rule Cond K)) (cells : List (Update.Cell R S)) : Prop :=
  cells.length = numExamples ∧ Matches numOutputs holds Valid value Consistent (fun _ _ => 0) ⟨cells, rules⟩

/-- What is assumed of the components of a setup. -/
structure Setup.Ok [AddCommGroup K] (t : Setup σ Cond K Q R S) (numOutputs : Nat) (holds : Cond → Nat → Bool) (Valid : R → Prop)
    (value : R → Nat → K) (Consistent : Nat → R → S → Prop) : Prop where
  learner : t.learner.Ok t.numExamples numOutputs holds Valid value Consistent
  rounds : ∀ n, (t.rounds n).Ok t.learner t.numExamples numOutputs
  defaultHead : ∀ cells h, t.defaultHead cells = .ok h → Update.Fits numOutputs h
  /-- Rules are not pruned. -/
  unpruned : ∀ n, (t.rounds n).hasZeroWeights = false ∨ t.learner.pruning = none

theorem trained_append [AddCommGroup K] {l : Learner σ Cond K Q R S} {numExamples numOutputs : Nat} {holds : Cond → Nat → Bool}
    {Valid : R → Prop} {value : R → Nat → K} {Consistent : Nat → R → S → Prop}
    (hl : l.Ok numExamples numOutputs holds Valid value Consistent) {round : Round σ Cond K Q R S} (hr : round.Ok l numExamples numOutputs)
    (hp : round.hasZeroWeights = false ∨ l.pruning = none) {fuel : Nat} {cells cells' : List (Update.Cell R S)} {rules : List (Rule Cond K)}
    {rule : Rule Cond K} (ht : Trained numExamples numOutputs holds Valid value Consistent rules cells)
    (h : l.induceRule round fuel cells = Run.done (some (cells', rule))) :
    Trained numExamples numOutputs holds Valid value Consistent (rules ++ [rule]) cells' := by
  obtain ⟨hlen, hm⟩ := ht
  obtain ⟨g1, g2, g3⟩ := induceRule_matches hl hr hp hlen hm.1 h
  refine ⟨g2, ?_, ?_, ?_⟩
  · intro i c hi
    obtain ⟨_, _, k, _⟩ := g3 i c hi
    exact k
  · intro x hx
    rcases List.mem_append.1 hx with hx | hx
    · exact hm.2.1 x hx
    · rw [List.mem_singleton] at hx; subst hx; exact g1
  · intro i c hi j hj
    obtain ⟨c0, k1, _, k3⟩ := g3 i c hi
    rw [k3 j hj, hm.2.2 i c0 k1 j hj, List.map_append, List.sum_append]
    simp

section
variable [Field K] [LinearOrder K]

/-- The number of used rules after a sequence of results, if it has been `used` before. -/
def usedAfter (used : Nat) (results : List Result) : Nat := ((results.map Result.numUsedRules).filter (· ≠ 0)).getLast?.getD used

theorem usedAfter_cons (used : Nat) (r : Result) (rs : List Result) : usedAfter used (r :: rs) = usedAfter (updateUsed used r) rs := by
  unfold usedAfter updateUsed
  by_cases h : r.numUsedRules = 0
  · simp [h]
  · simp [h, List.getLast?_cons]

theorem assemble_run {t : Setup σ Cond K Q R S} {numOutputs : Nat} {holds : Cond → Nat → Bool} {Valid : R → Prop} {value : R → Nat → K}
    {Consistent : Nat → R → S → Prop} (ht : t.Ok numOutputs holds Valid value Consistent) (growFuel : Nat) :
    ∀ (fuel : Nat) (criteria : List (Criterion (CriterionState K) (List (Update.Cell R S)))) (numRules used : Nat)
      (st st' : State Cond K R S),
    Trained t.numExamples numOutputs holds Valid value Consistent (st.builder.defaultRule.toList ++ st.builder.rules) st.cells →
    t.assemble growFuel fuel criteria numRules used st = Run.done st' →
    ∃ (new : List (Rule Cond K)) (hist : List (List (Update.Cell R S))), hist.length = new.length + 1 ∧ hist.getLast? = some st'.cells ∧
      st'.builder.rules = st.builder.rules ++ new ∧ st'.builder.defaultRule = st.builder.defaultRule ∧
      (∀ (m : Nat) cells, hist[m]? = some cells → Trained t.numExamples numOutputs holds Valid value Consistent
        (st.builder.defaultRule.toList ++ st.builder.rules ++ new.take m) cells) ∧
      (Chain t.environment criteria → st'.builder.numUsedRules = used) ∧
      (∀ others state, criteria = others ++ [⟨state, t.environment.test⟩] → Chain t.environment others →
        ∃ results state', runTests (fun s x => t.environment.test s x.1 x.2) state (hist.zipIdx numRules) = .ok (results, state') ∧
          st'.builder.numUsedRules = usedAfter used results) := by
  intro fuel
  induction fuel with
  | zero => intro criteria numRules used st st' _ h; exact absurd h.symm Run.done_ne_unfinished
  | succ fuel ih =>
    intro criteria numRules used st st' htr h
    simp only [Setup.assemble] at h
    obtain ⟨⟨result, criteria'⟩, h1, h⟩ := lift_bind_done h
    simp only at h
    -- the loop is left
    have leave : st' = st.setNumUsedRules (updateUsed used result) → ∃ (new : List (Rule Cond K)) (hist : List (List (Update.Cell R S))),
        hist.length = new.length + 1 ∧ hist.getLast? = some st'.cells ∧
        st'.builder.rules = st.builder.rules ++ new ∧ st'.builder.defaultRule = st.builder.defaultRule ∧
        (∀ (m : Nat) cells, hist[m]? = some cells → Trained t.numExamples numOutputs holds Valid value Consistent
          (st.builder.defaultRule.toList ++ st.builder.rules ++ new.take m) cells) ∧
        (Chain t.environment criteria → st'.builder.numUsedRules = used) ∧
        (∀ others state, criteria = others ++ [⟨state, t.environment.test⟩] → Chain t.environment others →
          ∃ results state', runTests (fun s x => t.environment.test s x.1 x.2) state (hist.zipIdx numRules) = .ok (results, state') ∧
            st'.builder.numUsedRules = usedAfter used results) := by
      rintro rfl
      refine ⟨[], [st.cells], rfl, rfl, by simp [State.setNumUsedRules], rfl, ?_, ?_, ?_⟩
      · intro m cells hm
        cases m with
        | zero => cases hm; simpa using htr
        | succ m => simp at hm
      · intro hc
        obtain ⟨_, g⟩ := listTest_limits hc h1
        simp [State.setNumUsedRules, updateUsed, g]
      · intro others state hcr hc
        rw [hcr] at h1
        obtain ⟨others', r, state', _, _, g3, g4, _⟩ := listTest_pruning hc h1
        refine ⟨[r], state', ?_, ?_⟩
        · exact runTests_cons (test := fun s (x : List (Update.Cell R S) × Nat) => t.environment.test s x.1 x.2) [] g3 rfl
        · rw [usedAfter_cons]
          simp only [State.setNumUsedRules, updateUsed, g4]
          rfl
    cases hs : result.stop with
    | true =>
      rw [hs] at h
      exact leave (Run.done_inj h).symm
    | false =>
      rw [hs] at h
      simp only at h
      obtain ⟨r, h2, h⟩ := run_bind_done h
      match r with
      | none => exact leave (Run.done_inj h).symm
      | some (cells, rule) =>
        simp only at h
        have htr' : Trained t.numExamples numOutputs holds Valid value Consistent
            ((st.addRule cells rule).builder.defaultRule.toList ++ (st.addRule cells rule).builder.rules) (st.addRule cells rule).cells := by
          simp only [State.addRule, ← List.append_assoc]
          exact trained_append ht.learner (ht.rounds numRules) (ht.unpruned numRules) htr h2
        obtain ⟨new, hist, k1, k2, k3, k4, k5, k6, k7⟩ := ih criteria' (numRules + 1) (updateUsed used result) _ st' htr' h
        simp only [State.addRule] at k3 k4 k5
        refine ⟨rule :: new, st.cells :: hist, by simp [k1], ?_, by simp [k3], k4, ?_, ?_, ?_⟩
        · rw [List.getLast?_cons, k2]; rfl
        · intro m cells' hm
          cases m with
          | zero => cases hm; simpa using htr
          | succ m =>
            have := k5 m cells' hm
            simpa using this
        · intro hc
          obtain ⟨g1, g2⟩ := listTest_limits hc h1
          rw [k6 g1]
          simp [updateUsed, g2]
        · intro others state hcr hc
          rw [hcr] at h1
          obtain ⟨others', r, state', g1, g2, g3, g4, _⟩ := listTest_pruning hc h1
          obtain ⟨results, state'', m1, m2⟩ := k7 others' state' g1 g2
          refine ⟨r :: results, state'', ?_, ?_⟩
          · rw [List.zipIdx_cons]
            exact runTests_cons (test := fun s (x : List (Update.Cell R S) × Nat) => t.environment.test s x.1 x.2) _ g3 m1
          · rw [usedAfter_cons, m2]
            simp only [updateUsed, g4]

end

/-! ### The default rule -/

theorem defaultSteps_interleaving (ops : Update.Ops K R S) (head : Head K) (n : Nat) :
    Interleaving (Update.Call.tasks ops ⟨fun _ => true, head, false⟩ n) (defaultSteps ops head n) := by
  have h := sequentially_interleaving (Update.Call.tasks ops ⟨fun _ => true, head, false⟩ n)
  have e : sequentially (Update.Call.tasks ops ⟨fun _ => true, head, false⟩ n) = defaultSteps ops head n := by
    unfold sequentially defaultSteps Update.Call.tasks
    simp only [if_true]
    have hz : ((List.range n).map (fun i => Update.steps ops head false i)).zipIdx =
        (List.range n).map (fun i => (Update.steps ops head false i, i)) := by
      apply List.ext_getElem
      · simp
      · intro i h1 h2
        simp
    rw [hz, List.flatMap_map]
  rw [← e]
  exact h

/-- The initial statistics: all scores are zero. -/
def Initial [AddCommGroup K] (numExamples numOutputs : Nat) (Valid : R → Prop) (value : R → Nat → K) (Consistent : Nat → R → S → Prop)
    (cells : List (Update.Cell R S)) : Prop :=
  cells.length = numExamples ∧ ∀ i c, cells[i]? = some c → Update.CellOk Valid Consistent i c ∧ ∀ j < numOutputs, value c.scores j = 0

theorem start_trained [AddCommGroup K] {t : Setup σ Cond K Q R S} {numOutputs : Nat} {holds : Cond → Nat → Bool} {Valid : R → Prop}
    {value : R → Nat → K} {Consistent : Nat → R → S → Prop} (ht : t.Ok numOutputs holds Valid value Consistent)
    {cells : List (Update.Cell R S)} (hi : Initial t.numExamples numOutputs Valid value Consistent cells) {st : State Cond K R S}
    (h : t.start cells = .ok st) :
    Trained t.numExamples numOutputs holds Valid value Consistent st.builder.defaultRule.toList st.cells ∧ st.builder.rules = [] ∧
      st.builder.defaultRule.toList.length = if t.useDefaultRule then 1 else 0 := by
  unfold Setup.start at h
  cases hd : t.useDefaultRule with
  | false =>
    rw [hd] at h
    cases h
    refine ⟨⟨hi.1, fun i c hc => (hi.2 i c hc).1, by simp, ?_⟩, rfl, rfl⟩
    intro i c hc j hj
    simpa using (hi.2 i c hc).2 j hj
  | true =>
    rw [hd] at h
    simp only [Setup.induceDefaultRule] at h
    cases hh : t.defaultHead cells with
    | error e => rw [hh] at h; cases h
    | ok head =>
      rw [hh, ok_bind] at h
      have hfits := ht.defaultHead cells head hh
      obtain ⟨cells1, e1, e2, e3⟩ := Update.exec_exact ht.learner.updates ⟨fun _ => true, head, false⟩ hfits cells
        (fun i c hc => (hi.2 i c hc).1) (defaultSteps t.learner.updates head t.numExamples) (by
          rw [hi.1]; exact defaultSteps_interleaving _ _ _)
      rw [e1, ok_bind] at h
      cases h
      have back : ∀ i c', cells1[i]? = some c' → ∃ c, cells[i]? = some c ∧ Update.CellOk Valid Consistent i c' ∧
          ∀ j < numOutputs, value c'.scores j = value c.scores j + Predictor.Spec.contribution j head := by
        intro i c' hc'
        have hlt : i < cells.length := by
          have := (List.getElem?_eq_some_iff.1 hc').1
          omega
        obtain ⟨c1, g1, g2, _, g4⟩ := e3 i _ (List.getElem?_eq_getElem hlt)
        rw [hc'] at g1
        cases g1
        refine ⟨_, List.getElem?_eq_getElem hlt, g2, fun j hj => ?_⟩
        rw [g4 j hj]
        simp [Update.Call.effect]
      refine ⟨⟨by rw [e2, hi.1], ?_, ?_, ?_⟩, rfl, rfl⟩
      · intro i c' hc'
        obtain ⟨_, _, g, _⟩ := back i c' hc'
        exact g
      · intro rule hr
        simp only [Option.toList_some, List.mem_singleton] at hr
        subst hr
        exact hfits
      · intro i c' hc' j hj
        obtain ⟨c, g1, _, g3⟩ := back i c' hc'
        rw [g3 j hj, (hi.2 i c g1).2 j hj]
        simp [Rule.contribution]

/-- All rules of a model builder, the default rule comes first. -/
def State.allRules (st : State Cond K R S) : List (Rule Cond K) := st.builder.defaultRule.toList ++ st.builder.rules

section
variable [Field K] [LinearOrder K]

/-- Runs of `induceRules`: the statistics the stopping criteria are tested with are those of the first rules of the model. -/
theorem induceRules_run {t : Setup σ Cond K Q R S} {numOutputs : Nat} {holds : Cond → Nat → Bool} {Valid : R → Prop} {value : R → Nat → K}
    {Consistent : Nat → R → S → Prop} (ht : t.Ok numOutputs holds Valid value Consistent) {cells : List (Update.Cell R S)}
    (hi : Initial t.numExamples numOutputs Valid value Consistent cells) {fuel : Nat} {st : State Cond K R S}
    (h : t.induceRules fuel cells = Run.done st) :
    ∃ (first : Nat) (hist : List (List (Update.Cell R S))), first = (if t.useDefaultRule then 1 else 0) ∧
      first + hist.length = st.allRules.length + 1 ∧ st.builder.defaultRule.toList.length = first ∧ hist.getLast? = some st.cells ∧
      (∀ (m : Nat) cells, hist[m]? = some cells →
        Trained t.numExamples numOutputs holds Valid value Consistent (st.allRules.take (first + m)) cells) ∧
      (t.stopping.globalPruning = none → st.builder.numUsedRules = 0) ∧
      (∀ state, t.stopping.globalPruning = some state →
        ∃ results state', runTests (fun s x => t.environment.test s x.1 x.2) state (hist.zipIdx first) = .ok (results, state') ∧
          st.builder.numUsedRules = lastNonZero (results.map Result.numUsedRules)) := by
  unfold Setup.induceRules at h
  obtain ⟨st0, h1, h⟩ := lift_bind_done h
  obtain ⟨s1, s2, s3⟩ := start_trained ht hi h1
  obtain ⟨new, hist, k1, k2, k3, k4, k5, k6, k7⟩ := assemble_run ht fuel fuel _ _ 0 st0 st (by rw [s2, List.append_nil]; exact s1) h
  rw [s2, List.nil_append] at k3
  rw [s2, List.append_nil] at k5
  have hall : st.allRules = st0.builder.defaultRule.toList ++ new := by
    unfold State.allRules
    rw [k4, k3]
  refine ⟨_, hist, rfl, ?_, by rw [k4]; exact s3, k2, ?_, ?_, ?_⟩
  · rw [hall, List.length_append, s3]
    omega
  · intro m cells' hm
    have := k5 m cells' hm
    rw [hall, ← s3, List.take_length_add_append]
    exact this
  · intro hn
    apply k6
    constructor
    · intro c hc
      obtain ⟨state, hs, rfl⟩ := List.mem_map.1 hc
      rw [hn] at hs
      simp only [Option.toList_none, List.append_nil, List.mem_append, List.mem_map] at hs
      rcases hs with ⟨_, _, rfl⟩ | ⟨_, _, rfl⟩ <;> trivial
    · intro c hc
      obtain ⟨state, hs, rfl⟩ := List.mem_map.1 hc
      rfl
  · intro state hs
    obtain ⟨results, state', g1, g2⟩ := k7 ((t.stopping.maxRules.toList.map CriterionState.size ++
        t.stopping.timeLimit.toList.map (fun t => CriterionState.time t 0 ⟨0, false⟩)).map (fun state => ⟨state, t.environment.test⟩)) state (by
          unfold StoppingConfig.create
          rw [hs]
          simp) ⟨by
            intro c hc
            obtain ⟨state, hs, rfl⟩ := List.mem_map.1 hc
            simp only [List.mem_append, List.mem_map] at hs
            rcases hs with ⟨_, _, rfl⟩ | ⟨_, _, rfl⟩ <;> trivial, by
            intro c hc
            obtain ⟨state, hs, rfl⟩ := List.mem_map.1 hc
            rfl⟩
    exact ⟨results, state', g1, g2⟩

end

end MLRL.Training
