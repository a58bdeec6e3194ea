import Verif.Lemma.Assemble

/-! # C05: The number of rules that are learned by the complete training procedure -/

namespace MLRL.Training

open Predictor Induction Stopping

section
variable {σ Cond K Q R S : Type} [Field K] [LinearOrder K]
variable {induce : Nat → List (Update.Cell R S) → Run (Option (List (Update.Cell R S) × Rule Cond K))}

theorem assembleWith_size (env : Environment K R) (maxRules : Nat) :
    ∀ (fuel : Nat) criteria (numRules used : Nat) (st st' : State Cond K R S),
      (∃ c ∈ criteria, c.state = CriterionState.size maxRules ∧ c.test = env.test) →
      st.allRules.length = numRules → assembleWith induce fuel criteria numRules used st = Run.done st' →
      st'.allRules.length ≤ max maxRules numRules := by
  intro fuel
  induction fuel with
  | zero => intro criteria numRules used st st' _ _ h; exact absurd h.symm Run.done_ne_unfinished
  | succ fuel ih =>
    intro criteria numRules used st st' hc hn h
    simp only [assembleWith] at h
    obtain ⟨⟨result, criteria'⟩, h1, h⟩ := lift_bind_done h
    obtain ⟨calls, hf, rfl, hstop, -⟩ := listTest_forall₂ h1
    obtain ⟨c, hm, hs, ht⟩ := hc
    obtain ⟨⟨r, c'⟩, hb, hcb⟩ := forall₂_mem_left hf c hm
    obtain ⟨e1, e2⟩ := Criterion.call_test hcb
    rw [hs, ht] at e2
    simp only [Environment.test, Except.ok.injEq, Prod.mk.injEq] at e2
    simp only at h
    cases hst : result.stop with
    | true =>
      rw [hst] at h
      rw [← Run.done_inj h]
      exact le_trans (le_of_eq hn) (Nat.le_max_right _ _)
    | false =>
      have hlt : numRules < maxRules := by
        by_contra hge
        have : result.stop = true := hstop.2 ⟨(r, c'), hb, by
          show r.stop = true
          rw [← e2.1]
          simp [sizeTest, Nat.le_of_not_lt hge]⟩
        rw [this] at hst
        exact Bool.noConfusion hst
      rw [hst] at h
      simp only at h
      obtain ⟨o, h2, h⟩ := run_bind_done h
      match o with
      | none =>
        rw [← Run.done_inj h]
        exact le_trans (le_of_eq hn) (Nat.le_max_right _ _)
      | some (cells, rule) =>
        simp only at h
        have := ih (calls.map Prod.snd) (numRules + 1) (updateUsed used result) (st.addRule cells rule) st'
          ⟨c', List.mem_map.2 ⟨_, hb, rfl⟩, e2.2.symm, by rw [e1, ht]⟩
          (by simp [State.allRules, State.addRule] at hn ⊢; omega) h
        omega

theorem start_size {t : Setup σ Cond K Q R S} {cells : List (Update.Cell R S)} {st : State Cond K R S} (h : t.start cells = .ok st) :
    st.allRules.length = if t.useDefaultRule then 1 else 0 := by
  unfold Setup.start at h
  cases hd : t.useDefaultRule with
  | false =>
    rw [hd] at h
    cases h
    rfl
  | true =>
    rw [hd] at h
    simp only [Setup.induceDefaultRule, bind, Except.bind] at h
    cases h1 : t.defaultHead cells with
    | error e => simp [h1] at h
    | ok head =>
      simp only [h1] at h
      cases h2 : Update.exec (defaultSteps t.learner.updates head t.numExamples) cells with
      | error e => simp [h2] at h
      | ok cells' =>
        simp only [h2] at h
        cases h
        rfl

/-- **C05**, for the complete training procedure: If a model should consist of at most `maxRules ≥ 1` rules, the default rule and all other rules
that are learned are at most `maxRules` many, whatever implementation of the rule induction and whatever other stopping criteria are used. -/
theorem induceRulesWith_size (t : Setup σ Cond K Q R S) {maxRules : Nat} (hm : t.stopping.maxRules = some maxRules) (h1 : 1 ≤ maxRules)
    {fuel : Nat} {cells : List (Update.Cell R S)} {st : State Cond K R S} (h : t.induceRulesWith induce fuel cells = Run.done st) :
    st.builder.defaultRule.toList.length + st.builder.rules.length ≤ maxRules := by
  unfold Setup.induceRulesWith at h
  obtain ⟨st0, h0, h⟩ := lift_bind_done h
  have := assembleWith_size t.environment maxRules fuel _ _ 0 st0 st
    ⟨⟨CriterionState.size maxRules, t.environment.test⟩, by simp [StoppingConfig.create, hm], rfl, rfl⟩ (start_size h0) h
  simp only [State.allRules, List.length_append] at this
  split at this <;> omega

/-- **C05**, for the training procedure that uses a greedy search. -/
theorem induceRules_size (t : Setup σ Cond K Q R S) {maxRules : Nat} (hm : t.stopping.maxRules = some maxRules) (h1 : 1 ≤ maxRules)
    {fuel : Nat} {cells : List (Update.Cell R S)} {st : State Cond K R S} (h : t.induceRules fuel cells = Run.done st) :
    st.builder.defaultRule.toList.length + st.builder.rules.length ≤ maxRules := by
  rw [induceRules_eq] at h
  exact induceRulesWith_size t hm h1 h

end

end MLRL.Training
