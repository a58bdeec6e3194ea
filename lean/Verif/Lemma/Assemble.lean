import Verif.Lemma.TrainingTermination

/-! # Lemmas about the loop that induces rules, for arbitrary implementations of the rule induction -/

namespace MLRL.Training

open Predictor Induction Stopping

section
variable {σ Cond K Q R S : Type} [Field K] [LinearOrder K]

/-- The model of the loop is the same as the one that is used for greedy searches. -/
theorem assemble_eq (t : Setup σ Cond K Q R S) (growFuel : Nat) : ∀ (fuel : Nat) criteria (numRules used : Nat) (st : State Cond K R S),
    t.assemble growFuel fuel criteria numRules used st =
      assembleWith (fun k cells => t.learner.induceRule (t.rounds k) growFuel cells) fuel criteria numRules used st := by
  intro fuel
  induction fuel with
  | zero => intro criteria numRules used st; rfl
  | succ fuel ih =>
    intro criteria numRules used st
    simp only [Setup.assemble, assembleWith, ih]

theorem induceRules_eq (t : Setup σ Cond K Q R S) (fuel : Nat) (cells : List (Update.Cell R S)) :
    t.induceRules fuel cells = t.induceRulesWith (fun k cells => t.learner.induceRule (t.rounds k) fuel cells) fuel cells := by
  unfold Setup.induceRules Setup.induceRulesWith
  simp only [assemble_eq]

variable {induce : Nat → List (Update.Cell R S) → Run (Option (List (Update.Cell R S) × Rule Cond K))}

/-- Invariants of the loop that induces rules. -/
theorem assembleWith_invariant (I : List (Rule Cond K) → List (Update.Cell R S) → Prop)
    (step : ∀ n rules cells cells' rule, I rules cells → induce n cells = Run.done (some (cells', rule)) → I (rules ++ [rule]) cells') :
    ∀ (fuel : Nat) criteria (numRules used : Nat) (st st' : State Cond K R S), I st.allRules st.cells →
      assembleWith induce fuel criteria numRules used st = Run.done st' → I st'.allRules st'.cells := by
  intro fuel
  induction fuel with
  | zero => intro criteria numRules used st st' _ h; exact absurd h.symm Run.done_ne_unfinished
  | succ fuel ih =>
    intro criteria numRules used st st' hI h
    simp only [assembleWith] at h
    obtain ⟨⟨result, criteria'⟩, h1, h⟩ := lift_bind_done h
    simp only at h
    cases hs : result.stop with
    | true =>
      rw [hs] at h
      rw [← Run.done_inj h]
      exact hI
    | false =>
      rw [hs] at h
      simp only at h
      obtain ⟨r, h2, h⟩ := run_bind_done h
      match r with
      | none =>
        rw [← Run.done_inj h]
        exact hI
      | some (cells, rule) =>
        simp only at h
        have hall : (st.addRule cells rule).allRules = st.allRules ++ [rule] := by
          simp [State.allRules, State.addRule]
        refine ih criteria' (numRules + 1) (updateUsed used result) _ st' ?_ h
        rw [hall]
        exact step numRules _ _ _ _ hI h2

/-- The loop ends if there is a limit on the number of rules or a time limit. -/
theorem assembleWith_total [IsStrictOrderedRing K] {env : Environment K R} {numExamples : Nat} {Valid : R → Prop} {Consistent : Nat → R → S → Prop}
    (he : env.Total numExamples Valid) (growBound : Nat)
    {induce : Nat → Nat → List (Update.Cell R S) → Run (Option (List (Update.Cell R S) × Rule Cond K))}
    (hi : ∀ n cells, CellsOk numExamples Valid Consistent cells → ∃ o, (∀ growFuel, growBound ≤ growFuel → induce growFuel n cells = Run.done o) ∧
      ∀ cells' rule, o = some (cells', rule) → CellsOk numExamples Valid Consistent cells') : ∀ (d : Nat)
    (criteria : List (Criterion (CriterionState K) (List (Update.Cell R S)))) (numRules used : Nat) (st : State Cond K R S),
    CriteriaOk env d numRules criteria → CellsOk numExamples Valid Consistent st.cells →
    ∃ st', ∀ growFuel fuel, growBound ≤ growFuel → d + 1 ≤ fuel → assembleWith (induce growFuel) fuel criteria numRules used st = Run.done st' := by
  intro d
  induction d with
  | zero =>
    intro criteria numRules used st hcr hst
    obtain ⟨r, criteria', h1, h2, _⟩ := criteria_total he hst hcr
    refine ⟨st.setNumUsedRules (updateUsed used r), fun growFuel fuel _ hf => ?_⟩
    obtain ⟨fuel, rfl⟩ : ∃ f, fuel = f + 1 := ⟨fuel - 1, by omega⟩
    unfold assembleWith
    rw [h1, Run.lift_ok, Run.done_bind]
    simp only
    rw [h2 rfl]
  | succ d ih =>
    intro criteria numRules used st hcr hst
    obtain ⟨r, criteria', h1, _, h3⟩ := criteria_total he hst hcr
    have hcr' := h3 d rfl
    cases hstop : r.stop with
    | true =>
      refine ⟨st.setNumUsedRules (updateUsed used r), fun growFuel fuel _ hf => ?_⟩
      obtain ⟨fuel, rfl⟩ : ∃ f, fuel = f + 1 := ⟨fuel - 1, by omega⟩
      unfold assembleWith
      rw [h1, Run.lift_ok, Run.done_bind]
      simp only
      rw [hstop]
    | false =>
      obtain ⟨o, g1, g2⟩ := hi numRules st.cells hst
      cases o with
      | none =>
        refine ⟨st.setNumUsedRules (updateUsed used r), fun growFuel fuel hg hf => ?_⟩
        obtain ⟨fuel, rfl⟩ : ∃ f, fuel = f + 1 := ⟨fuel - 1, by omega⟩
        unfold assembleWith
        rw [h1, Run.lift_ok, Run.done_bind]
        simp only
        rw [hstop]
        simp only
        rw [g1 growFuel hg, Run.done_bind]
      | some p =>
        obtain ⟨st', e2⟩ := ih criteria' (numRules + 1) (updateUsed used r) (st.addRule p.1 p.2) hcr' (g2 p.1 p.2 rfl)
        refine ⟨st', fun growFuel fuel hg hf => ?_⟩
        obtain ⟨fuel, rfl⟩ : ∃ f, fuel = f + 1 := ⟨fuel - 1, by omega⟩
        rw [← e2 growFuel fuel hg (by omega)]
        conv_lhs => unfold assembleWith
        rw [h1, Run.lift_ok, Run.done_bind]
        simp only
        rw [hstop]
        simp only
        rw [g1 growFuel hg, Run.done_bind]

end

end MLRL.Training
