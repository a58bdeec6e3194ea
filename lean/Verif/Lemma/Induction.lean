import Verif.Spec.Induction
import Verif.Props.Refinement
import Verif.Props.Update

set_option linter.unusedSectionVars false

namespace MLRL.Induction

open Refinement Predictor

/-! ### growing rules -/

section
variable {σ Cond H Q : Type} {ops : SubspaceOps σ Cond} {better : Q → Q → Bool} {sortHead : H → H} {cfg : GrowConfig}
  {search : Search σ Cond H Q} {minQuality : Q}

theorem lift_bind_done {α β : Type} {r : Res α} {f : α → Run β} {b : β} (h : (Run.lift r >>= f) = Run.done b) :
    ∃ a, r = .ok a ∧ f a = Run.done b := by
  cases r with
  | error e => cases h
  | ok a => exact ⟨a, rfl, h⟩

theorem run_bind_done {α β : Type} {r : Run α} {f : α → Run β} {b : β} (h : (r >>= f) = Run.done b) :
    ∃ a, r = Run.done a ∧ f a = Run.done b := by
  cases r with
  | none => cases h
  | some r =>
    cases r with
    | error e => cases h
    | ok a => exact ⟨a, rfl, h⟩

/-- The local variables of `growRule` after the given refinements have been chosen. -/
structure Corresponds (sortHead : H → H) (st : GrowState σ Cond H Q) (chosen : List (Scored (Found Cond H) Q)) (s : σ) (q : Q)
    (outputs : Option H) : Prop where
  conditions : st.conditions = chosen.map (fun x => x.refinement.condition)
  subspace : st.subspace = s
  outputs : st.outputs = outputs
  quality : st.comparator.quality = q
  best : st.comparator.best =
    chosen.getLast?.map (fun x => { x with refinement := { x.refinement with head := sortHead x.refinement.head } })

theorem addBest_ok {st : GrowState σ Cond H Q} {chosen : List (Scored (Found Cond H) Q)} {s s' : σ} {q : Q} {outputs : Option H}
    (hc : Corresponds sortHead st chosen s q outputs) (x : Scored (Found Cond H) Q)
    (hf : ops.filter s x.refinement.condition = .ok s') :
    ∃ st', st.addBest ops sortHead cfg ⟨some x, x.quality⟩ = .ok (st', x.refinement.numCovered) ∧
      Corresponds sortHead st' (chosen ++ [x]) s' x.quality
        (if cfg.maxHeadRefinements ≠ 0 ∧ chosen.length + 1 ≥ cfg.maxHeadRefinements then some (sortHead x.refinement.head) else outputs) := by
  refine ⟨⟨st.conditions ++ [x.refinement.condition], s',
    if 0 < cfg.maxHeadRefinements ∧ cfg.maxHeadRefinements ≤ (st.conditions ++ [x.refinement.condition]).length then
      some (sortHead x.refinement.head) else st.outputs,
    ⟨some { x with refinement := { x.refinement with head := sortHead x.refinement.head } }, x.quality⟩⟩, ?_, ?_⟩
  · unfold GrowState.addBest
    simp only [useInit, ok_bind]
    rw [hc.subspace, hf, ok_bind]
    rfl
  · refine ⟨by simp [hc.conditions], rfl, ?_, rfl, by simp⟩
    simp only [hc.conditions, hc.outputs, List.length_append, List.length_map, List.length_cons, List.length_nil, Nat.zero_add, ge_iff_le,
      Nat.pos_iff_ne_zero]

theorem findRefinement_cases (h : StrictWeak better) (hv : search.Valid) (n : Nat) (candidates : List (List (Scored (Found Cond H) Q)))
    (s : Single (Found Cond H) Q) :
    ((∀ x ∈ candidates.flatten, better x.quality s.quality = false) ∧
      findRefinement (singleOps better) candidates.length (search.schedule n candidates) s = .ok (s, false)) ∨
    ∃ x, FirstBest better candidates.flatten x ∧ better x.quality s.quality = true ∧
      findRefinement (singleOps better) candidates.length (search.schedule n candidates) s = .ok (⟨some x, x.quality⟩, true) :=
  findRefinement_first_best h candidates _ (hv n candidates) s

theorem growLoop_spec (h : StrictWeak better) (hv : search.Valid) (fuel : Nat) : ∀ (st st' : GrowState σ Cond H Q)
    (chosen : List (Scored (Found Cond H) Q)) (s : σ) (q : Q) (outputs : Option H), Corresponds sortHead st chosen s q outputs →
    Greedy ops better sortHead cfg search minQuality chosen s q outputs →
    (cfg.maxConditions ≠ 0 → chosen.length ≤ cfg.maxConditions) →
    (∀ y, chosen.getLast? = some y → cfg.minCoverage < y.refinement.numCovered) →
    growLoop ops better sortHead cfg search fuel st = Run.done st' →
    ∃ chosen' s' q' outputs', Corresponds sortHead st' chosen' s' q' outputs' ∧
      Greedy ops better sortHead cfg search minQuality chosen' s' q' outputs' ∧ Finished better cfg search chosen' s' q' outputs' := by
  induction fuel with
  | zero => intro st st' _ _ _ _ _ _ _ _ hr; cases hr
  | succ fuel ih =>
    intro st st' chosen s q outputs hc hg hl hm hr
    have hlen : st.conditions.length = chosen.length := by rw [hc.conditions, List.length_map]
    simp only [growLoop] at hr
    by_cases hlim : cfg.maxConditions = 0 ∨ st.conditions.length < cfg.maxConditions
    · rw [if_pos hlim] at hr
      obtain ⟨candidates, h1, hr⟩ := lift_bind_done hr
      obtain ⟨⟨comparator, found⟩, h2, hr⟩ := lift_bind_done hr
      rw [hlen, hc.subspace, hc.outputs] at h1
      rcases findRefinement_cases h hv st.conditions.length candidates st.comparator with ⟨g1, g2⟩ | ⟨x, g1, g2, g3⟩
      · rw [h2] at g2
        cases g2
        simp only [Bool.false_eq_true, if_false] at hr
        have hr := Run.done_inj hr
        refine ⟨chosen, s, q, outputs, by rw [← hr]; exact hc, hg, Or.inr (Or.inr ⟨candidates, h1, ?_⟩)⟩
        rw [← hc.quality]
        exact g1
      · rw [h2] at g3
        cases g3
        simp only [if_true] at hr
        obtain ⟨⟨st1, k⟩, h3, hr⟩ := lift_bind_done hr
        have hfilter : ∃ s1, ops.filter s x.refinement.condition = .ok s1 := by
          unfold GrowState.addBest at h3
          simp only [useInit, ok_bind] at h3
          rw [hc.subspace] at h3
          cases hf : ops.filter s x.refinement.condition with
          | error e => rw [hf] at h3; cases h3
          | ok s1 => exact ⟨s1, rfl⟩
        obtain ⟨s1, hf⟩ := hfilter
        obtain ⟨st2, k1, k2⟩ := addBest_ok (cfg := cfg) hc x hf
        rw [h3] at k1
        cases k1
        rw [hc.quality] at g2
        have hg' := Greedy.step hg (fun hne => by rw [← hlen]; exact hlim.resolve_left hne) hm h1 g1 g2 hf
        by_cases hcov : x.refinement.numCovered ≤ cfg.minCoverage
        · simp only [hcov, if_true] at hr
          have hr := Run.done_inj hr
          subst hr
          exact ⟨_, _, _, _, k2, hg', Or.inr (Or.inl ⟨x, by simp, hcov⟩)⟩
        · simp only [hcov, if_false] at hr
          refine ih _ _ _ _ _ _ k2 hg' ?_ ?_ hr
          · intro hne
            have := hlim.resolve_left hne
            simp only [List.length_append, List.length_cons, List.length_nil]
            omega
          · intro y hy
            simp only [List.getLast?_append, List.getLast?_singleton, Option.some_or, Option.some.injEq] at hy
            subst hy
            omega
    · rw [if_neg hlim] at hr
      have hr := Run.done_inj hr
      subst hr
      have hne : cfg.maxConditions ≠ 0 := fun h => hlim (Or.inl h)
      have hge : ¬ st.conditions.length < cfg.maxConditions := fun h => hlim (Or.inr h)
      exact ⟨chosen, s, q, outputs, hc, hg, Or.inl ⟨hne, by have := hl hne; omega⟩⟩

/-- Nothing fails as long as candidates can be determined and the subspace can be filtered by them. -/
def Succeeds (ops : SubspaceOps σ Cond) (better : Q → Q → Bool) (sortHead : H → H) (cfg : GrowConfig) (search : Search σ Cond H Q)
    (minQuality : Q) : Prop :=
  ∀ chosen s q outputs, Greedy ops better sortHead cfg search minQuality chosen s q outputs →
    ∃ candidates, search.candidates chosen.length s outputs = .ok candidates ∧
      ∀ x ∈ candidates.flatten, ∃ s', ops.filter s x.refinement.condition = .ok s'

theorem FirstBest.mem {better : Q → Q → Bool} {A : Type} {l : List (Scored A Q)} {x : Scored A Q} (h : FirstBest better l x) : x ∈ l := by
  obtain ⟨b, a, rfl, _⟩ := h
  simp

theorem growLoop_terminates (h : StrictWeak better) (hv : search.Valid) (hs : Succeeds ops better sortHead cfg search minQuality)
    (size : List (Scored (Found Cond H) Q) → σ → Nat)
    (hsize : ∀ chosen s q outputs candidates x s', Greedy ops better sortHead cfg search minQuality chosen s q outputs →
      (cfg.maxConditions ≠ 0 → chosen.length < cfg.maxConditions) →
      search.candidates chosen.length s outputs = .ok candidates → x ∈ candidates.flatten → better x.quality q = true →
      ops.filter s x.refinement.condition = .ok s' → size (chosen ++ [x]) s' < size chosen s) (fuel : Nat) :
    ∀ (st : GrowState σ Cond H Q) (chosen : List (Scored (Found Cond H) Q)) (s : σ) (q : Q) (outputs : Option H),
    Corresponds sortHead st chosen s q outputs → Greedy ops better sortHead cfg search minQuality chosen s q outputs →
    (∀ y, chosen.getLast? = some y → cfg.minCoverage < y.refinement.numCovered) → size chosen s < fuel →
    ∃ st', growLoop ops better sortHead cfg search fuel st = Run.done st' := by
  induction fuel with
  | zero => intro _ _ _ _ _ _ _ _ hlt; omega
  | succ fuel ih =>
    intro st chosen s q outputs hc hg hm hlt
    have hlen : st.conditions.length = chosen.length := by rw [hc.conditions, List.length_map]
    simp only [growLoop]
    by_cases hlim : cfg.maxConditions = 0 ∨ st.conditions.length < cfg.maxConditions
    · rw [if_pos hlim]
      obtain ⟨candidates, h1, h2⟩ := hs chosen s q outputs hg
      rw [hlen, hc.subspace, hc.outputs, h1, Run.lift_ok, Run.done_bind]
      rcases findRefinement_cases h hv chosen.length candidates st.comparator with ⟨g1, g2⟩ | ⟨x, g1, g2, g3⟩
      · rw [g2, Run.lift_ok, Run.done_bind]
        exact ⟨_, rfl⟩
      · rw [g3, Run.lift_ok, Run.done_bind]
        obtain ⟨s', hf⟩ := h2 x (FirstBest.mem g1)
        obtain ⟨st1, k1, k2⟩ := addBest_ok (cfg := cfg) hc x hf
        simp only [if_true]
        rw [k1, Run.lift_ok, Run.done_bind]
        by_cases hcov : x.refinement.numCovered ≤ cfg.minCoverage
        · simp only [hcov, if_true]
          exact ⟨_, rfl⟩
        · simp only [hcov, if_false]
          rw [hc.quality] at g2
          have hlim' : cfg.maxConditions ≠ 0 → chosen.length < cfg.maxConditions := fun hne => by
            rw [← hlen]; exact hlim.resolve_left hne
          have hg' := Greedy.step hg hlim' hm h1 g1 g2 hf
          have := hsize chosen s q outputs candidates x s' hg hlim' h1 (FirstBest.mem g1) g2 hf
          refine ih _ _ _ _ _ k2 hg' ?_ (by omega)
          intro y hy
          simp only [List.getLast?_append, List.getLast?_singleton, Option.some_or, Option.some.injEq] at hy
          subst hy
          omega
    · rw [if_neg hlim]
      exact ⟨_, rfl⟩

theorem corresponds_start : Corresponds sortHead (⟨[], ops.create, none, Single.new minQuality⟩ : GrowState σ Cond H Q) [] ops.create
    minQuality none := ⟨rfl, rfl, rfl, rfl, rfl⟩

/-- The subspace has been filtered by all conditions. -/
theorem Greedy.filtered {chosen : List (Scored (Found Cond H) Q)} {s : σ} {q : Q} {outputs : Option H}
    (h : Greedy ops better sortHead cfg search minQuality chosen s q outputs) :
    (chosen.map (fun x => x.refinement.condition)).foldlM ops.filter ops.create = .ok s := by
  induction h with
  | start => rfl
  | step _ _ _ _ _ _ hf ih =>
    rw [List.map_append, List.foldlM_append, ih, ok_bind]
    simp only [List.map_cons, List.map_nil, List.foldlM_cons, List.foldlM_nil]
    rw [hf]
    rfl

theorem foldlM_filter_covers {numExamples : Nat} {holds : Cond → Nat → Bool} (laws : SubspaceLaws ops numExamples holds)
    (conditions : List Cond) : ∀ (s s' : σ), conditions.foldlM ops.filter s = .ok s' →
      ∀ e, ops.covers s' e = (ops.covers s e && conditions.all (fun c => holds c e)) := by
  induction conditions with
  | nil =>
    intro s s' h e
    cases h
    simp
  | cons c cs ih =>
    intro s s' h e
    rw [List.foldlM_cons] at h
    cases hf : ops.filter s c with
    | error e => rw [hf] at h; cases h
    | ok s1 =>
      rw [hf, ok_bind] at h
      rw [ih s1 s' h e, laws.filter s c s1 hf e, List.all_cons, Bool.and_assoc]

theorem create_covers {numExamples : Nat} {holds : Cond → Nat → Bool} (laws : SubspaceLaws ops numExamples holds)
    {conditions : List Cond} {s : σ} (h : conditions.foldlM ops.filter ops.create = .ok s) :
    ops.covers s = coverage numExamples holds conditions := by
  funext e
  rw [foldlM_filter_covers laws conditions _ _ h, laws.create]
  rfl

theorem reset_covers {numExamples : Nat} {holds : Cond → Nat → Bool} (laws : SubspaceLaws ops numExamples holds)
    {conditions : List Cond} {s0 s : σ} (h : conditions.foldlM ops.filter (ops.reset s0) = .ok s) :
    ops.covers s = coverage numExamples holds conditions := by
  funext e
  rw [foldlM_filter_covers laws conditions _ _ h, laws.reset]
  rfl

/-! ### pruning -/

/-- The invariant of the loop in `prune` after the first `m` prefixes have been considered; `N` is the number of conditions, `q j` is
the quality of the first `j` conditions and `b` is the number of conditions that are to be retained. -/
structure PruneInv (ops : SubspaceOps σ Cond) (better : Q → Q → Bool) (numExamples : Nat) (holds : Cond → Nat → Bool)
    (conditions : List Cond) (s0 : σ) (q : Nat → Q) (m : Nat) (st : PruneState σ Q) (b : Nat) : Prop where
  filtered : (conditions.take m).foldlM ops.filter (ops.reset s0) = .ok st.subspace
  quality : st.quality = q b
  mask : st.mask = coverage numExamples holds (conditions.take b)
  le : b ≤ conditions.length
  pos : 1 ≤ b
  numPruned : st.numPruned = conditions.length - b
  notBetter : ∀ j, 1 ≤ j → (j ≤ m ∨ j = conditions.length) → better (q j) (q b) = false
  strictlyWorse : ∀ j, 1 ≤ j → j ≤ m → j < b → better (q b) (q j) = true
  seen : b ≤ m ∨ b = conditions.length

theorem pruneStep_ok (h : StrictWeak better) {numExamples : Nat} {holds : Cond → Nat → Bool} (laws : SubspaceLaws ops numExamples holds)
    {conditions : List Cond} {s0 : σ} {q : Nat → Q} {eval : (Nat → Bool) → Res Q} {m : Nat} {st : PruneState σ Q} {b : Nat}
    (hm : m + 1 < conditions.length) (hinv : PruneInv ops better numExamples holds conditions s0 q m st b)
    (hq : eval (coverage numExamples holds (conditions.take (m + 1))) = .ok (q (m + 1)))
    (hf : ∃ s, (conditions.take (m + 1)).foldlM ops.filter (ops.reset s0) = .ok s) :
    ∃ st' b', pruneStep ops better eval conditions (m + 1) st = .ok st' ∧
      PruneInv ops better numExamples holds conditions s0 q (m + 1) st' b' := by
  obtain ⟨s, hs⟩ := hf
  have htake : conditions.take (m + 1) = conditions.take m ++ [conditions[m]] := by
    rw [List.take_succ, List.getElem?_eq_getElem (by omega)]
    rfl
  have hfilter : ops.filter st.subspace conditions[m] = .ok s := by
    have := hs
    rw [htake, List.foldlM_append, hinv.filtered, ok_bind] at this
    simp only [List.foldlM_cons, List.foldlM_nil] at this
    cases hx : ops.filter st.subspace conditions[m] with
    | error e => rw [hx] at this; cases this
    | ok s2 => rw [hx, ok_bind] at this; exact this
  have hcov := reset_covers laws hs
  have hstep : pruneStep ops better eval conditions (m + 1) st =
      if better (q (m + 1)) (q b) || (decide (st.numPruned = 0) && !better (q b) (q (m + 1))) then
        .ok ⟨s, q (m + 1), coverage numExamples holds (conditions.take (m + 1)), conditions.length - (m + 1)⟩
      else .ok { st with subspace := s } := by
    unfold pruneStep
    rw [Nat.add_sub_cancel, readAt_of_lt (by omega : m < conditions.length), ok_bind, hfilter, ok_bind, hcov, hq, ok_bind, hinv.quality]
    rfl
  rw [hstep]
  by_cases hb : (better (q (m + 1)) (q b) || (decide (st.numPruned = 0) && !better (q b) (q (m + 1)))) = true
  · rw [if_pos hb]
    refine ⟨_, m + 1, rfl, hs, rfl, rfl, by omega, by omega, rfl, ?_, ?_, Or.inl (Nat.le_refl _)⟩
    · intro j hj1 hj2
      -- the new prefix is not worse than the previous one
      have hle : better (q b) (q (m + 1)) = false := by
        rw [Bool.or_eq_true] at hb
        rcases hb with hb | hb
        · exact h.asymm hb
        · rw [Bool.and_eq_true] at hb
          simpa using hb.2
      rcases hj2 with hj2 | hj2
      · by_cases hjm : j = m + 1
        · subst hjm; exact h.irrefl _
        · exact h.not_trans (hinv.notBetter j hj1 (Or.inl (by omega))) hle
      · exact h.not_trans (hinv.notBetter j hj1 (Or.inr hj2)) hle
    · intro j hj1 hj2 hj3
      rw [Bool.or_eq_true] at hb
      rcases hb with hb | hb
      · rcases h.comparable _ (q j) _ hb with hc | hc
        · exact hc
        · exact absurd hc (by rw [hinv.notBetter j hj1 (Or.inl (by omega))]; simp)
      · rw [Bool.and_eq_true] at hb
        have hbn : b = conditions.length := by
          have h0 := of_decide_eq_true hb.1
          rw [hinv.numPruned] at h0
          have := hinv.le
          omega
        have h1 := hinv.strictlyWorse j hj1 (by omega) (by omega)
        rcases h.comparable _ (q (m + 1)) _ h1 with hc | hc
        · rw [hc] at hb; simp at hb
        · exact hc
  · rw [if_neg hb]
    rw [Bool.not_eq_true, Bool.or_eq_false_iff] at hb
    refine ⟨_, b, rfl, hs, hinv.quality, hinv.mask, hinv.le, hinv.pos, hinv.numPruned, ?_, ?_, ?_⟩
    · intro j hj1 hj2
      by_cases hjm : j = m + 1
      · subst hjm; exact hb.1
      · exact hinv.notBetter j hj1 (hj2.imp (fun _ => by omega) id)
    · intro j hj1 hj2 hj3
      by_cases hjm : j = m + 1
      · subst hjm
        have hbn : b = conditions.length := by
          rcases hinv.seen with hse | hse
          · omega
          · exact hse
        have h0 : st.numPruned = 0 := by rw [hinv.numPruned]; omega
        have := hb.2
        simpa [h0] using this
      · exact hinv.strictlyWorse j hj1 (by omega) hj3
    · exact hinv.seen.imp (fun _ => by omega) id

theorem prune_ok (h : StrictWeak better) {numExamples : Nat} {holds : Cond → Nat → Bool} (laws : SubspaceLaws ops numExamples holds)
    {conditions : List Cond} {s0 : σ} (hn : 1 < conditions.length) (hcov : ops.covers s0 = coverage numExamples holds conditions)
    {q : Nat → Q} {eval : (Nat → Bool) → Res Q}
    (hq : ∀ j, 1 ≤ j → j ≤ conditions.length → eval (coverage numExamples holds (conditions.take j)) = .ok (q j))
    (hf : ∀ j, j < conditions.length → ∃ s, (conditions.take j).foldlM ops.filter (ops.reset s0) = .ok s) :
    ∃ st b, prune ops better eval conditions s0 = .ok ⟨conditions.take b, some st.mask, st.subspace⟩ ∧
      PruneInv ops better numExamples holds conditions s0 q (conditions.length - 1) st b := by
  have hN : eval (ops.covers s0) = .ok (q conditions.length) := by
    have := hq conditions.length (by omega) (Nat.le_refl _)
    rwa [List.take_length, ← hcov] at this
  have h0 : PruneInv ops better numExamples holds conditions s0 q 0
      ⟨ops.reset s0, q conditions.length, ops.covers s0, 0⟩ conditions.length := by
    refine ⟨rfl, rfl, by rw [List.take_length]; exact hcov, Nat.le_refl _, by omega, by simp, ?_, ?_, Or.inr rfl⟩
    · intro j hj1 hj2
      rcases hj2 with hj2 | hj2
      · omega
      · subst hj2; exact h.irrefl _
    · intro j hj1 hj2; omega
  obtain ⟨st, hst, b, hb⟩ := loopFrom_rule (body := pruneStep ops better eval conditions)
    (fun n st => ∃ b, PruneInv ops better numExamples holds conditions s0 q (n - 1) st b) 1 (conditions.length - 1)
    ⟨ops.reset s0, q conditions.length, ops.covers s0, 0⟩ ⟨_, h0⟩ (by
      rintro n st hn1 hn2 ⟨b, hb⟩
      obtain ⟨m, rfl⟩ : ∃ m, n = m + 1 := ⟨n - 1, by omega⟩
      rw [Nat.add_sub_cancel] at hb
      obtain ⟨st', b', g1, g2⟩ := pruneStep_ok h laws (by omega) hb (hq (m + 1) (by omega) (by omega)) (hf (m + 1) (by omega))
      exact ⟨st', g1, b', by rw [Nat.add_sub_cancel]; exact g2⟩)
  refine ⟨st, b, ?_, by rw [Nat.add_sub_cancel_left] at hb; exact hb⟩
  unfold prune
  rw [if_pos hn, hN, ok_bind, hst, ok_bind, hb.numPruned]
  have : conditions.length - (conditions.length - b) = b := by have := hb.le; omega
  rw [this]
  rfl

end

end MLRL.Induction
