import Verif.Lemma.Induction
import Verif.Props.Predictor

/-!
# C23, C26, C51, C56: induction of rules, pruning and post-optimisation
-/

namespace MLRL.Induction

open Refinement Predictor

set_option linter.unusedSectionVars false

/-! ### C26: greedy induction -/

section
variable {σ Cond H Q : Type} {ops : SubspaceOps σ Cond} {better : Q → Q → Bool} {sortHead : H → H} {cfg : GrowConfig}
  {search : Search σ Cond H Q} {minQuality : Q}

/-- **C26**: a rule that is grown results from a sequence of greedy choices that cannot be continued; its head is that of the last
refinement that has been chosen. -/
theorem growRule_greedy (h : StrictWeak better) (hv : search.Valid) {fuel : Nat} {g : Grown σ Cond H}
    (hg : growRule ops better sortHead cfg search minQuality fuel = Run.done g) :
    ∃ chosen s q outputs, Greedy ops better sortHead cfg search minQuality chosen s q outputs ∧
      Finished better cfg search chosen s q outputs ∧
      g = ⟨chosen.map (fun x => x.refinement.condition), s, chosen.getLast?.map (fun x => sortHead x.refinement.head)⟩ := by
  unfold growRule at hg
  obtain ⟨st, h1, h2⟩ := run_bind_done hg
  obtain ⟨chosen, s, q, outputs, k1, k2, k3⟩ := growLoop_spec h hv fuel _ st [] _ _ _ corresponds_start
    (Greedy.start (minQuality := minQuality)) (by simp) (by simp) h1
  refine ⟨chosen, s, q, outputs, k2, k3, ?_⟩
  have h2 := Run.done_inj h2
  rw [← h2, k1.conditions, k1.subspace, k1.best]
  simp [Option.map_map, Function.comp_def]

/-- **C26**: each refinement is better than all previous ones and better than the minimum quality. -/
theorem greedy_improves (h : StrictWeak better) {chosen : List (Scored (Found Cond H) Q)} {s : σ} {q : Q} {outputs : Option H}
    (hg : Greedy ops better sortHead cfg search minQuality chosen s q outputs) :
    chosen.Pairwise (fun x y => better y.quality x.quality = true) ∧ (∀ x ∈ chosen, better x.quality minQuality = true) ∧
      q = (chosen.getLast?.map (fun x => x.quality)).getD minQuality := by
  have main : chosen.Pairwise (fun x y => better y.quality x.quality = true) ∧ (∀ x ∈ chosen, better x.quality minQuality = true) ∧
      q = (chosen.getLast?.map (fun x => x.quality)).getD minQuality ∧
      (∀ x ∈ chosen, better x.quality q = false) ∧ (chosen ≠ [] → better q minQuality = true) := by
    induction hg with
    | start => simp
    | @step chosen s q outputs candidates x s' hprev _ _ _ _ hx _ ih =>
      obtain ⟨i1, i2, i3, i4, i5⟩ := ih
      have hxm : better x.quality minQuality = true := by
        by_cases hne : chosen = []
        · subst hne; simp only [List.getLast?_nil, Option.map_none, Option.getD_none] at i3; rw [← i3]; exact hx
        · exact h.trans _ _ _ hx (i5 hne)
      have hall : ∀ y ∈ chosen, better x.quality y.quality = true := by
        intro y hy
        rcases h.comparable _ y.quality _ hx with hc | hc
        · exact hc
        · rw [i4 y hy] at hc; cases hc
      refine ⟨?_, ?_, by simp, ?_, fun _ => hxm⟩
      · rw [List.pairwise_append]
        exact ⟨i1, List.pairwise_singleton _ _, fun y hy z hz => by rw [List.mem_singleton] at hz; subst hz; exact hall y hy⟩
      · intro y hy
        rcases List.mem_append.1 hy with hy | hy
        · exact i2 y hy
        · rw [List.mem_singleton] at hy; subst hy; exact hxm
      · intro y hy
        rcases List.mem_append.1 hy with hy | hy
        · exact h.asymm (hall y hy)
        · rw [List.mem_singleton] at hy; subst hy; exact h.irrefl _
  exact ⟨main.1, main.2.1, main.2.2.1⟩

/-- **C26**: there are at most as many conditions as allowed, and all but the last one cover more than the minimum number of examples. -/
theorem greedy_limits {chosen : List (Scored (Found Cond H) Q)} {s : σ} {q : Q} {outputs : Option H}
    (hg : Greedy ops better sortHead cfg search minQuality chosen s q outputs) :
    (cfg.maxConditions ≠ 0 → chosen.length ≤ cfg.maxConditions) ∧
      ∀ x ∈ chosen.dropLast, cfg.minCoverage < x.refinement.numCovered := by
  induction hg with
  | start => simp
  | @step chosen s q outputs candidates x s' hprev hlim hmin _ _ _ _ ih =>
    refine ⟨fun hne => by have := hlim hne; simp only [List.length_append, List.length_cons, List.length_nil]; omega, ?_⟩
    rw [List.dropLast_concat]
    intro y hy
    rcases List.eq_nil_or_concat chosen with rfl | ⟨l, z, rfl⟩
    · cases hy
    · rw [List.concat_eq_append] at *
      rcases List.mem_append.1 hy with hy | hy
      · exact ih.2 y (by rw [List.dropLast_concat]; exact hy)
      · rw [List.mem_singleton] at hy; subst hy
        exact hmin y (by simp)

/-- **C26**: whatever holds of all candidates (e.g., that they cover the minimum number of examples) holds of all refinements that are
chosen. -/
theorem greedy_candidates {chosen : List (Scored (Found Cond H) Q)} {s : σ} {q : Q} {outputs : Option H}
    (hg : Greedy ops better sortHead cfg search minQuality chosen s q outputs) (P : Scored (Found Cond H) Q → Prop)
    (hP : ∀ n s o candidates, search.candidates n s o = .ok candidates → ∀ x ∈ candidates.flatten, P x) : ∀ x ∈ chosen, P x := by
  induction hg with
  | start => simp
  | step _ _ _ hc hx _ _ ih =>
    intro y hy
    rcases List.mem_append.1 hy with hy | hy
    · exact ih y hy
    · rw [List.mem_singleton] at hy; subst hy
      exact hP _ _ _ _ hc _ (FirstBest.mem hx)

/-- **C26**: no rule is returned only if there is no initial candidate that is better than the minimum quality. -/
theorem growRule_none (h : StrictWeak better) (hv : search.Valid) {fuel : Nat} {g : Grown σ Cond H}
    (hg : growRule ops better sortHead cfg search minQuality fuel = Run.done g) (hn : g.head = none) :
    g = ⟨[], ops.create, none⟩ ∧
      ∃ candidates, search.candidates 0 ops.create none = .ok candidates ∧ ∀ x ∈ candidates.flatten, better x.quality minQuality = false := by
  obtain ⟨chosen, s, q, outputs, k1, k2, rfl⟩ := growRule_greedy h hv hg
  have hc : chosen = [] := by
    rcases List.eq_nil_or_concat chosen with rfl | ⟨l, z, rfl⟩
    · rfl
    · simp at hn
  subst hc
  generalize hl : ([] : List (Scored (Found Cond H) Q)) = l at k1
  cases k1 with
  | start =>
    refine ⟨rfl, ?_⟩
    rcases k2 with ⟨h1, h2⟩ | ⟨y, h1, _⟩ | h1
    · simp only [List.length_nil] at h2; omega
    · cases h1
    · exact h1
  | step => simp at hl

/-- **C26**, termination if the number of conditions is limited. -/
theorem growRule_terminates_limited (h : StrictWeak better) (hv : search.Valid) (hs : Succeeds ops better sortHead cfg search minQuality)
    (hm : cfg.maxConditions ≠ 0) :
    ∃ g, growRule ops better sortHead cfg search minQuality (cfg.maxConditions + 1) = Run.done g := by
  obtain ⟨st, h1⟩ := growLoop_terminates h hv hs (fun chosen _ => cfg.maxConditions - chosen.length)
    (by
      intro chosen s q outputs candidates x s' _ hlim _ _ _ _
      have := hlim hm
      simp only [List.length_append, List.length_cons, List.length_nil]
      omega) (cfg.maxConditions + 1) _ [] _ _ _ corresponds_start (Greedy.start (minQuality := minQuality)) (by simp) (by simp)
  exact ⟨_, by unfold growRule; rw [h1, Run.done_bind]; rfl⟩

/-- Each refinement that is better than the previous one decreases a measure, which may depend on the refinements so far and on the subspace. -/
def Shrinks (ops : SubspaceOps σ Cond) (better : Q → Q → Bool) (sortHead : H → H) (cfg : GrowConfig) (search : Search σ Cond H Q) (minQuality : Q)
    (size : List (Scored (Found Cond H) Q) → σ → Nat) : Prop :=
  ∀ chosen s q outputs candidates x s', Greedy ops better sortHead cfg search minQuality chosen s q outputs →
    search.candidates chosen.length s outputs = .ok candidates → x ∈ candidates.flatten → better x.quality q = true →
    ops.filter s x.refinement.condition = .ok s' → size (chosen ++ [x]) s' < size chosen s

/-- **C26**, termination if each refinement that is better than the previous one decreases a measure. -/
theorem growRule_terminates_shrinking (h : StrictWeak better) (hv : search.Valid) (hs : Succeeds ops better sortHead cfg search minQuality)
    {size : List (Scored (Found Cond H) Q) → σ → Nat} (hdec : Shrinks ops better sortHead cfg search minQuality size) :
    ∃ g, growRule ops better sortHead cfg search minQuality (size [] ops.create + 1) = Run.done g := by
  obtain ⟨st, h1⟩ := growLoop_terminates h hv hs size
    (by
      intro chosen s q outputs candidates x s' hg _ hc hx hb hf
      exact hdec _ _ _ _ _ _ _ hg hc hx hb hf) (size [] ops.create + 1) _ [] _ _ _ corresponds_start (Greedy.start (minQuality := minQuality))
    (by simp) (Nat.lt_succ_self _)
  exact ⟨_, by unfold growRule; rw [h1, Run.done_bind]; rfl⟩

/-- **C26**, termination if each condition excludes at least one covered example. -/
theorem growRule_terminates (h : StrictWeak better) (hv : search.Valid) (hs : Succeeds ops better sortHead cfg search minQuality)
    (numCovered : σ → Nat)
    (hdec : ∀ n s o candidates x s', search.candidates n s o = .ok candidates → x ∈ candidates.flatten →
      ops.filter s x.refinement.condition = .ok s' → numCovered s' < numCovered s) :
    ∃ g, growRule ops better sortHead cfg search minQuality (numCovered ops.create + 1) = Run.done g := by
  obtain ⟨st, h1⟩ := growLoop_terminates h hv hs (fun _ s => numCovered s)
    (by
      intro chosen s q outputs candidates x s' _ _ hc hx _ hf
      exact hdec _ _ _ _ _ _ hc hx hf) (numCovered ops.create + 1) _ [] _ _ _ corresponds_start (Greedy.start (minQuality := minQuality)) (by simp)
    (Nat.lt_succ_self _)
  exact ⟨_, by unfold growRule; rw [h1, Run.done_bind]; rfl⟩

/-! ### C56: pruning -/

/-- **C56**: pruning retains the first `k` conditions, at least one of them, where `k` is the smallest number for which the quality on the
pruning set is best; the mask that is returned tells which examples satisfy these conditions. The subspace, however, is left as if the rule
consisted of all conditions but the last one. -/
theorem prune_optimal (h : StrictWeak better) {numExamples : Nat} {holds : Cond → Nat → Bool} (laws : SubspaceLaws ops numExamples holds)
    {conditions : List Cond} {s0 : σ} (hn : 1 < conditions.length) (hcov : ops.covers s0 = coverage numExamples holds conditions)
    {q : Nat → Q} {eval : (Nat → Bool) → Res Q}
    (hq : ∀ j, 1 ≤ j → j ≤ conditions.length → eval (coverage numExamples holds (conditions.take j)) = .ok (q j))
    (hf : ∀ j, j < conditions.length → ∃ s, (conditions.take j).foldlM ops.filter (ops.reset s0) = .ok s) :
    ∃ k s, prune ops better eval conditions s0 =
        .ok ⟨conditions.take k, some (coverage numExamples holds (conditions.take k)), s⟩ ∧ 1 ≤ k ∧ k ≤ conditions.length ∧
      (∀ j, 1 ≤ j → j ≤ conditions.length → better (q j) (q k) = false) ∧
      (∀ j, 1 ≤ j → j < k → better (q k) (q j) = true) ∧
      ops.covers s = coverage numExamples holds conditions.dropLast := by
  obtain ⟨st, b, h1, h2⟩ := prune_ok h laws hn hcov hq hf
  refine ⟨b, st.subspace, by rw [h1, h2.mask], h2.pos, h2.le, ?_, ?_, ?_⟩
  · intro j hj1 hj2
    exact h2.notBetter j hj1 (by omega)
  · intro j hj1 hj2
    exact h2.strictlyWorse j hj1 (by have := h2.le; omega) hj2
  · rw [reset_covers laws h2.filtered, List.dropLast_eq_take]

/-- **C56**: rules with a single condition are not pruned. -/
theorem prune_single {eval : (Nat → Bool) → Res Q} {conditions : List Cond} {s0 : σ} (hn : conditions.length ≤ 1) :
    prune ops better eval conditions s0 = .ok ⟨conditions, none, s0⟩ := by
  unfold prune
  rw [if_neg (by omega)]
  rfl

end

/-! ### C23: the statistics and the model -/

section
variable {σ Cond K Q R S : Type} [AddCommGroup K]

/-- What is assumed of the components of a learner. -/
structure Learner.Ok (l : Learner σ Cond K Q R S) (numExamples numOutputs : Nat) (holds : Cond → Nat → Bool) (Valid : R → Prop)
    (value : R → Nat → K) (Consistent : Nat → R → S → Prop) : Prop where
  better : StrictWeak l.better
  subspaces : SubspaceLaws l.subspaces numExamples holds
  updates : Update.Laws l.updates numOutputs Valid value Consistent
  postProcess : ∀ h, Update.Fits numOutputs h → Update.Fits numOutputs (l.postProcess h)
  recalculate : ∀ f, l.recalculate = some f → ∀ cells mask h h', Update.Fits numOutputs h → f cells mask h = .ok h' → Update.Fits numOutputs h'

/-- What is assumed of a call to `induceRule`. -/
structure Round.Ok (l : Learner σ Cond K Q R S) (numExamples numOutputs : Nat) (round : Round σ Cond K Q R S) : Prop where
  search : ∀ cells, (round.search cells).Valid
  heads : ∀ cells n s o candidates, (round.search cells).candidates n s o = .ok candidates →
    ∀ x ∈ candidates.flatten, Update.Fits numOutputs (l.sortHead x.refinement.head)
  applied : ∀ call, Interleaving (Update.Call.tasks l.updates call numExamples) (round.applySchedule call)

/-- Partial correctness of counting loops. -/
theorem loopFrom_inv {τ : Type} {body : Nat → τ → Res τ} (P : Nat → τ → Prop) : ∀ (count start : Nat) (s s' : τ), P start s →
    (∀ i t t', start ≤ i → i < start + count → P i t → body i t = .ok t' → P (i + 1) t') → loopFrom body start count s = .ok s' →
    P (start + count) s' := by
  intro count
  induction count with
  | zero => intro start s s' h0 _ h; cases h; exact h0
  | succ k ih =>
    intro start s s' h0 step h
    rw [loopFrom_succ] at h
    cases hb : body start s with
    | error e => rw [hb] at h; cases h
    | ok t =>
      rw [hb, ok_bind] at h
      have := ih (start + 1) t s' (step start s t (Nat.le_refl _) (by omega) h0 hb)
        (fun i t t' h1 h2 => step i t t' (by omega) (by omega)) h
      rwa [show start + 1 + k = start + (k + 1) by omega] at this

/-- Whatever the evaluation, pruning retains a prefix of the conditions and leaves the subspace as if the rule consisted of all conditions
but the last one. -/
theorem prune_subspace {ops : SubspaceOps σ Cond} {better : Q → Q → Bool} {numExamples : Nat} {holds : Cond → Nat → Bool}
    (laws : SubspaceLaws ops numExamples holds) {conditions : List Cond} {s0 : σ} {eval : (Nat → Bool) → Res Q} {r : Pruned σ Cond}
    (hn : 1 < conditions.length) (hr : prune ops better eval conditions s0 = .ok r) :
    (∃ k, 1 ≤ k ∧ k ≤ conditions.length ∧ r.conditions = conditions.take k) ∧
      ops.covers r.subspace = coverage numExamples holds conditions.dropLast := by
  unfold prune at hr
  rw [if_pos hn] at hr
  cases hq : eval (ops.covers s0) with
  | error e => rw [hq] at hr; cases hr
  | ok q0 =>
    rw [hq, ok_bind] at hr
    cases hl : loopFrom (pruneStep ops better eval conditions) 1 (conditions.length - 1) ⟨ops.reset s0, q0, ops.covers s0, 0⟩ with
    | error e => rw [hl] at hr; cases hr
    | ok st =>
      rw [hl, ok_bind] at hr
      cases hr
      have := loopFrom_inv (body := pruneStep ops better eval conditions)
        (fun n st => st.numPruned < conditions.length ∧ (conditions.take (n - 1)).foldlM ops.filter (ops.reset s0) = .ok st.subspace)
        (conditions.length - 1) 1 _ st ⟨(by simp; omega), rfl⟩ (by
          rintro n t t' hn1 hn2 ⟨p1, p2⟩ hb
          obtain ⟨m, rfl⟩ : ∃ m, n = m + 1 := ⟨n - 1, by omega⟩
          rw [Nat.add_sub_cancel] at p2
          unfold pruneStep at hb
          rw [Nat.add_sub_cancel, readAt_of_lt (by omega : m < conditions.length), ok_bind] at hb
          cases hf : ops.filter t.subspace conditions[m] with
          | error e => rw [hf] at hb; cases hb
          | ok s1 =>
            rw [hf, ok_bind] at hb
            have hs1 : (conditions.take (m + 1)).foldlM ops.filter (ops.reset s0) = .ok s1 := by
              rw [List.take_succ, List.getElem?_eq_getElem (by omega), List.foldlM_append, p2, ok_bind]
              simp only [Option.toList_some, List.foldlM_cons, List.foldlM_nil]
              rw [hf]
              rfl
            cases he : eval (ops.covers s1) with
            | error e => rw [he] at hb; cases hb
            | ok q1 =>
              rw [he, ok_bind] at hb
              rw [Nat.add_sub_cancel]
              split at hb
              · cases hb; exact ⟨by simp only; omega, hs1⟩
              · cases hb; exact ⟨p1, hs1⟩) hl
      refine ⟨⟨conditions.length - st.numPruned, by omega, by omega, rfl⟩, ?_⟩
      have h2 := this.2
      rw [Nat.add_sub_cancel_left] at h2
      rw [reset_covers laws h2, List.dropLast_eq_take]

/-- The effect of adding a rule with the given conditions and head, see `induceRule_effect`. -/
theorem finishRule_effect {l : Learner σ Cond K Q R S} {numExamples numOutputs : Nat} {holds : Cond → Nat → Bool} {Valid : R → Prop}
    {value : R → Nat → K} {Consistent : Nat → R → S → Prop} (hl : l.Ok numExamples numOutputs holds Valid value Consistent)
    {round : Round σ Cond K Q R S} (happlied : ∀ call, Interleaving (Update.Call.tasks l.updates call numExamples) (round.applySchedule call))
    {cells cells' : List (Update.Cell R S)} {rule : Rule Cond K} (hlen : cells.length = numExamples)
    (hcells : ∀ i c, cells[i]? = some c → Update.CellOk Valid Consistent i c) {found : List Cond} {s : σ} {head0 : Head K} (hfne : found ≠ [])
    (hs : l.subspaces.covers s = coverage numExamples holds found) (hhead : Update.Fits numOutputs head0)
    (h2 : l.finishRule round cells found s head0 = .ok (cells', rule)) :
    Update.Fits numOutputs rule.head ∧ cells'.length = numExamples ∧
    ∃ found applied, rule.conditions <+: found ∧ found ≠ [] ∧
      ((round.hasZeroWeights = false ∨ l.pruning = none ∨ found.length ≤ 1) → rule.conditions = found ∧ applied = found) ∧
      ((round.hasZeroWeights = true ∧ l.pruning ≠ none ∧ 1 < found.length) → applied = found.dropLast) ∧
      ∀ i c, cells[i]? = some c → ∃ c', cells'[i]? = some c' ∧ Update.CellOk Valid Consistent i c' ∧
        ∀ j < numOutputs, value c'.scores j = value c.scores j + (Rule.mk applied rule.head).contribution holds i j := by
  unfold Learner.finishRule at h2
  cases hp : l.pruneRule round cells found head0 s with
  | error e => rw [hp] at h2; cases h2
  | ok pruned =>
    rw [hp, ok_bind] at h2
    cases hrec : l.recalculateHead round cells pruned head0 with
    | error e => rw [hrec] at h2; cases h2
    | ok head =>
      rw [hrec, ok_bind] at h2
      have hfits : Update.Fits numOutputs (l.postProcess head) := by
        apply hl.postProcess
        unfold Learner.recalculateHead at hrec
        split at hrec
        · exact hl.recalculate _ ‹_› _ _ _ _ hhead hrec
        · cases hrec; exact hhead
      have hexec := Update.exec_exact hl.updates ⟨l.subspaces.covers pruned.subspace, l.postProcess head, false⟩ hfits cells hcells
        (round.applySchedule ⟨l.subspaces.covers pruned.subspace, l.postProcess head, false⟩) (by rw [hlen]; exact happlied _)
      obtain ⟨cells1, e1, e2, e3⟩ := hexec
      simp only at h2
      rw [e1, ok_bind] at h2
      cases h2
      -- the examples the prediction is applied to
      have hcase : ∃ applied, pruned.conditions <+: found ∧
          ((round.hasZeroWeights = false ∨ l.pruning = none ∨ found.length ≤ 1) → pruned.conditions = found ∧ applied = found) ∧
          ((round.hasZeroWeights = true ∧ l.pruning ≠ none ∧ 1 < found.length) → applied = found.dropLast) ∧
          l.subspaces.covers pruned.subspace = coverage numExamples holds applied := by
        unfold Learner.pruneRule at hp
        split at hp
        · rename_i eval hz hpr
          by_cases hn : 1 < found.length
          · obtain ⟨⟨k, _, _, hk⟩, hcov⟩ := prune_subspace hl.subspaces hn hp
            refine ⟨found.dropLast, by rw [hk]; exact List.take_prefix _ _, ?_, fun _ => rfl, hcov⟩
            rintro (h' | h' | h')
            · rw [hz] at h'; cases h'
            · rw [hpr] at h'; cases h'
            · omega
          · rw [prune_single (by omega)] at hp
            cases hp
            exact ⟨found, List.prefix_rfl, fun _ => ⟨rfl, rfl⟩, fun h' => absurd h'.2.2 hn, hs⟩
        · rename_i hno
          cases hp
          refine ⟨found, List.prefix_rfl, fun _ => ⟨rfl, rfl⟩, ?_, hs⟩
          rintro ⟨g1, g2, _⟩
          cases hpr : l.pruning with
          | none => exact absurd hpr g2
          | some eval => exact absurd hpr (hno eval g1)
      obtain ⟨applied, c1, c2, c3, c4⟩ := hcase
      refine ⟨hfits, by rw [e2, hlen], found, applied, c1, hfne, c2, c3, ?_⟩
      intro i c hi
      obtain ⟨c', d1, d2, _, d4⟩ := e3 i c hi
      refine ⟨c', d1, d2, fun j hj => ?_⟩
      rw [d4 j hj]
      have hi' : i < numExamples := by
        have := (List.getElem?_eq_some_iff.1 hi).1
        omega
      simp only [Update.Call.effect, Rule.contribution, c4, coverage, hi', decide_true, Bool.true_and, Bool.false_eq_true, if_false]

/-- The effect of inducing a rule on the statistics: the prediction is applied to the examples that satisfy the conditions `applied`, which
are all conditions that have been found if no pruning takes place and all but the last one if it does (and there are several). The
conditions of the rule itself are a prefix of those that have been found. -/
theorem induceRule_effect {l : Learner σ Cond K Q R S} {numExamples numOutputs : Nat} {holds : Cond → Nat → Bool} {Valid : R → Prop}
    {value : R → Nat → K} {Consistent : Nat → R → S → Prop} (hl : l.Ok numExamples numOutputs holds Valid value Consistent)
    {round : Round σ Cond K Q R S} (hr : round.Ok l numExamples numOutputs) {fuel : Nat} {cells cells' : List (Update.Cell R S)}
    {rule : Rule Cond K} (hlen : cells.length = numExamples) (hcells : ∀ i c, cells[i]? = some c → Update.CellOk Valid Consistent i c)
    (h : l.induceRule round fuel cells = Run.done (some (cells', rule))) :
    Update.Fits numOutputs rule.head ∧ cells'.length = numExamples ∧
    ∃ found applied, rule.conditions <+: found ∧ found ≠ [] ∧
      ((round.hasZeroWeights = false ∨ l.pruning = none ∨ found.length ≤ 1) → rule.conditions = found ∧ applied = found) ∧
      ((round.hasZeroWeights = true ∧ l.pruning ≠ none ∧ 1 < found.length) → applied = found.dropLast) ∧
      ∀ i c, cells[i]? = some c → ∃ c', cells'[i]? = some c' ∧ Update.CellOk Valid Consistent i c' ∧
        ∀ j < numOutputs, value c'.scores j = value c.scores j + (Rule.mk applied rule.head).contribution holds i j := by
  unfold Learner.induceRule at h
  obtain ⟨g, h1, h⟩ := run_bind_done h
  obtain ⟨chosen, s, q, outputs, k1, k2, rfl⟩ := growRule_greedy hl.better (hr.search cells) h1
  cases hlast : chosen.getLast? with
  | none =>
    rw [hlast] at h
    cases h
  | some x =>
    have hne : chosen ≠ [] := by
      intro hn; rw [hn] at hlast; cases hlast
    rw [hlast] at h
    simp only [Option.map_some] at h
    obtain ⟨r, h2, h⟩ := lift_bind_done h
    cases Run.done_inj h
    have hhead : Update.Fits numOutputs (l.sortHead x.refinement.head) :=
      greedy_candidates k1 (fun x => Update.Fits numOutputs (l.sortHead x.refinement.head)) (hr.heads cells) x
        (List.mem_of_getLast? hlast)
    have hs := create_covers hl.subspaces k1.filtered
    exact finishRule_effect hl hr.applied hlen hcells (by simpa using hne) hs hhead h2

/-- The scores of all examples are those that result from adding the contributions of the rules to initial scores. -/
def Matches (numOutputs : Nat) (holds : Cond → Nat → Bool) (Valid : R → Prop) (value : R → Nat → K) (Consistent : Nat → R → S → Prop)
    (base : Nat → Nat → K) (st : State Cond K R S) : Prop :=
  (∀ i c, st.cells[i]? = some c → Update.CellOk Valid Consistent i c) ∧
  (∀ rule ∈ st.rules, Update.Fits numOutputs rule.head) ∧
  ∀ i c, st.cells[i]? = some c → ∀ j < numOutputs,
    value c.scores j = base i j + (st.rules.map (fun rule => rule.contribution holds i j)).sum

theorem induceRule_matches {l : Learner σ Cond K Q R S} {numExamples numOutputs : Nat} {holds : Cond → Nat → Bool} {Valid : R → Prop}
    {value : R → Nat → K} {Consistent : Nat → R → S → Prop} (hl : l.Ok numExamples numOutputs holds Valid value Consistent)
    {round : Round σ Cond K Q R S} (hr : round.Ok l numExamples numOutputs)
    (hp : round.hasZeroWeights = false ∨ l.pruning = none) {fuel : Nat} {cells cells' : List (Update.Cell R S)}
    {rule : Rule Cond K} (hlen : cells.length = numExamples) (hcells : ∀ i c, cells[i]? = some c → Update.CellOk Valid Consistent i c)
    (h : l.induceRule round fuel cells = Run.done (some (cells', rule))) :
    Update.Fits numOutputs rule.head ∧ cells'.length = numExamples ∧
      ∀ i c', cells'[i]? = some c' → ∃ c, cells[i]? = some c ∧ Update.CellOk Valid Consistent i c' ∧
        ∀ j < numOutputs, value c'.scores j = value c.scores j + rule.contribution holds i j := by
  obtain ⟨h1, h2, found, applied, _, _, h3, _, h4⟩ := induceRule_effect hl hr hlen hcells h
  obtain ⟨h5, h6⟩ := h3 (hp.imp id Or.inl)
  refine ⟨h1, h2, fun i c' hi => ?_⟩
  have hlt : i < cells.length := by
    have := (List.getElem?_eq_some_iff.1 hi).1
    omega
  obtain ⟨c1, g1, g2, g3⟩ := h4 i _ (List.getElem?_eq_getElem hlt)
  rw [hi] at g1
  cases g1
  refine ⟨_, List.getElem?_eq_getElem hlt, g2, fun j hj => ?_⟩
  rw [g3 j hj, h6, ← h5]

/-- **C23**, what holds of it: without pruning, after any number of rounds the scores that are maintained for each example are the initial
scores plus the predictions of the rules that cover the example. Missing is the case in which rules are pruned, for which this is false,
see `pruning_updates_wrong_examples`. -/
theorem train_scores_partial {l : Learner σ Cond K Q R S} {numExamples numOutputs : Nat} {holds : Cond → Nat → Bool} {Valid : R → Prop}
    {value : R → Nat → K} {Consistent : Nat → R → S → Prop} (hl : l.Ok numExamples numOutputs holds Valid value Consistent)
    (base : Nat → Nat → K) (fuel : Nat) (rounds : List (Round σ Cond K Q R S)) :
    ∀ (st st' : State Cond K R S), (∀ round ∈ rounds, round.Ok l numExamples numOutputs) →
    (∀ round ∈ rounds, round.hasZeroWeights = false ∨ l.pruning = none) → st.cells.length = numExamples →
    Matches numOutputs holds Valid value Consistent base st → l.train fuel rounds st = Run.done st' →
    st'.cells.length = numExamples ∧ Matches numOutputs holds Valid value Consistent base st' := by
  induction rounds with
  | nil =>
    intro st st' _ _ hlen hm h
    cases Run.done_inj h
    exact ⟨hlen, hm⟩
  | cons round rounds ih =>
    intro st st' hr hp hlen hm h
    simp only [Learner.train] at h
    obtain ⟨r, h1, h2⟩ := run_bind_done h
    match r with
    | none =>
      simp only at h2
      cases Run.done_inj h2
      exact ⟨hlen, hm⟩
    | some (cells, rule) =>
      simp only at h2
      obtain ⟨g1, g2, g3⟩ := induceRule_matches hl (hr round List.mem_cons_self) (hp round List.mem_cons_self) hlen hm.1 h1
      refine ih ⟨cells, st.rules ++ [rule]⟩ st' (fun x hx => hr x (List.mem_cons_of_mem _ hx)) (fun x hx => hp x (List.mem_cons_of_mem _ hx)) g2
        ⟨?_, ?_, ?_⟩ h2
      · intro i c hi
        obtain ⟨_, _, k, _⟩ := g3 i c hi
        exact k
      · intro x hx
        rcases List.mem_append.1 hx with hx | hx
        · exact hm.2.1 x hx
        · rw [List.mem_singleton] at hx; subst hx; exact g1
      · intro i c hi j hj
        obtain ⟨c0, k1, _, k3⟩ := g3 i c hi
        rw [k3 j hj, hm.2.2 i c0 k1 j hj, List.map_append, List.sum_append]
        simp [add_assoc]

/-- **C23**, what holds of it, in terms of the predictor: without pruning, the scores that are maintained for a training example are those
the predictor computes for it, starting with the initial scores, provided that the bodies of the rules cover the example if and only if its
feature values satisfy the conditions. -/
theorem train_predictor_partial {l : Learner σ Cond K Q R S} {numExamples numOutputs : Nat} {holds : Cond → Nat → Bool} {Valid : R → Prop}
    {value : R → Nat → K} {Consistent : Nat → R → S → Prop} (hl : l.Ok numExamples numOutputs holds Valid value Consistent)
    (base : Nat → Nat → K) (fuel : Nat) (rounds : List (Round σ Cond K Q R S)) (st st' : State Cond K R S)
    (hr : ∀ round ∈ rounds, round.Ok l numExamples numOutputs) (hp : ∀ round ∈ rounds, round.hasZeroWeights = false ∨ l.pruning = none)
    (hlen : st.cells.length = numExamples) (hm : Matches numOutputs holds Valid value Consistent base st)
    (h : l.train fuel rounds st = Run.done st') (body : List Cond → Body) (i : Nat) (row : List FVal)
    (hbody : ∀ rule ∈ st'.rules, (body rule.conditions).coversDense row = .ok (rule.conditions.all (fun c => holds c i)))
    (scores : List K) (hs : scores.length = numOutputs) (hb : ∀ j (x : K), scores[j]? = some x → base i j = x)
    (c : Update.Cell R S) (hc : st'.cells[i]? = some c) :
    ∃ s', applyRulesDense row (st'.rules.map (fun rule => (⟨body rule.conditions, rule.head⟩ : Predictor.Rule K))) scores = .ok s' ∧
      s'.length = numOutputs ∧ ∀ j < numOutputs, s'[j]? = some (value c.scores j) := by
  obtain ⟨_, hm'⟩ := train_scores_partial hl base fuel rounds st st' hr hp hlen hm h
  have hval := hm'.2.2 i c hc
  have hfits := hm'.2.1
  generalize st'.rules = rules at hbody hval hfits
  clear hm' hc h
  have main : ∀ (rules : List (Rule Cond K)) (scores : List K), scores.length = numOutputs →
      (∀ rule ∈ rules, (body rule.conditions).coversDense row = .ok (rule.conditions.all (fun c => holds c i))) →
      (∀ rule ∈ rules, Update.Fits numOutputs rule.head) →
      ∃ s', applyRulesDense row (rules.map (fun rule => (⟨body rule.conditions, rule.head⟩ : Predictor.Rule K))) scores = .ok s' ∧
        s'.length = numOutputs ∧ ∀ j (x : K), scores[j]? = some x →
          s'[j]? = some (x + (rules.map (fun rule => rule.contribution holds i j)).sum) := by
    intro rules
    induction rules with
    | nil => intro scores h1 _ _; exact ⟨scores, rfl, h1, by simp⟩
    | cons rule rules ih =>
      intro scores h1 h2 h3
      have hstep := applyRulesDense_sum row [(⟨body rule.conditions, rule.head⟩ : Predictor.Rule K)] scores
        (fun _ => rule.conditions.all (fun c => holds c i)) (by
          intro r hr'
          rw [List.mem_singleton] at hr'
          subst hr'
          exact h2 rule List.mem_cons_self) (by
          intro r hr'
          rw [List.mem_singleton] at hr'
          subst hr'
          have := h3 rule List.mem_cons_self
          rw [h1]
          revert this
          cases rule.head with
          | complete values => exact fun h => Nat.le_of_eq h
          | partial_ entries => exact id)
      obtain ⟨s1, g1, g2, g3⟩ := hstep
      obtain ⟨s2, k1, k2, k3⟩ := ih s1 (by omega) (fun r hr' => h2 r (List.mem_cons_of_mem _ hr')) (fun r hr' => h3 r (List.mem_cons_of_mem _ hr'))
      refine ⟨s2, ?_, k2, ?_⟩
      · rw [List.map_cons]
        simp only [applyRulesDense] at g1 ⊢
        cases ha : applyRuleDense row ⟨body rule.conditions, rule.head⟩ scores with
        | error e => rw [ha] at g1; cases g1
        | ok s3 =>
          rw [ha, ok_bind] at g1
          cases g1
          rw [ok_bind, k1]
      · intro j x hx
        rw [k3 j _ (g3 j x hx), List.map_cons, List.sum_cons]
        simp only [Rule.contribution]
        cases rule.conditions.all (fun c => holds c i) <;> simp [add_assoc]
  obtain ⟨s', h1, h2, h3⟩ := main rules scores hs hbody hfits
  refine ⟨s', h1, h2, fun j hj => ?_⟩
  have hx := List.getElem?_eq_getElem (by omega : j < scores.length)
  rw [h3 j _ hx, hval j hj, hb j _ hx]

/-! ### C51: post-optimisation -/

/-- Reverting a rule subtracts its prediction from the scores of the examples it covers. -/
theorem revertRule_effect {l : Learner σ Cond K Q R S} {numExamples numOutputs : Nat} {holds : Cond → Nat → Bool} {Valid : R → Prop}
    {value : R → Nat → K} {Consistent : Nat → R → S → Prop} (hl : l.Ok numExamples numOutputs holds Valid value Consistent)
    {schedule : Update.Call K → List (Nat × (Update.Cell R S → Res (Update.Cell R S)))}
    (hs : ∀ call, Interleaving (Update.Call.tasks l.updates call numExamples) (schedule call)) {rule : Rule Cond K}
    {cells cells' : List (Update.Cell R S)} (hlen : cells.length = numExamples)
    (hcells : ∀ i c, cells[i]? = some c → Update.CellOk Valid Consistent i c) (hf : Update.Fits numOutputs rule.head)
    (h : l.revertRule schedule rule cells = .ok cells') :
    cells'.length = numExamples ∧ ∀ i c', cells'[i]? = some c' → ∃ c, cells[i]? = some c ∧ Update.CellOk Valid Consistent i c' ∧
      ∀ j < numOutputs, value c'.scores j = value c.scores j - rule.contribution holds i j := by
  unfold Learner.revertRule at h
  cases hsub : rule.conditions.foldlM l.subspaces.filter l.subspaces.create with
  | error e => rw [hsub] at h; cases h
  | ok s =>
    rw [hsub, ok_bind] at h
    have hcov := create_covers hl.subspaces hsub
    obtain ⟨cells1, e1, e2, e3⟩ := Update.exec_exact hl.updates ⟨l.subspaces.covers s, rule.head, true⟩ hf cells hcells
      (schedule ⟨l.subspaces.covers s, rule.head, true⟩) (by rw [hlen]; exact hs _)
    rw [h] at e1
    cases e1
    refine ⟨by rw [e2, hlen], fun i c' hi => ?_⟩
    have hlt : i < cells.length := by
      have := (List.getElem?_eq_some_iff.1 hi).1
      omega
    obtain ⟨c1, g1, g2, _, g4⟩ := e3 i _ (List.getElem?_eq_getElem hlt)
    rw [hi] at g1
    cases g1
    refine ⟨_, List.getElem?_eq_getElem hlt, g2, fun j hj => ?_⟩
    rw [g4 j hj]
    have hi' : i < numExamples := by omega
    simp only [Update.Call.effect, Rule.contribution, hcov, coverage, hi', decide_true, Bool.true_and, if_true]
    cases rule.conditions.all (fun c => holds c i) <;> simp [sub_eq_add_neg]

theorem sum_set {T : Type} (f : T → K) (rules : List T) (i : Nat) (old new : T) (h : rules[i]? = some old) :
    ((rules.set i new).map f).sum = (rules.map f).sum - f old + f new := by
  induction rules generalizing i with
  | nil => cases h
  | cons r rules ih =>
    cases i with
    | zero =>
      simp only [List.getElem?_cons_zero, Option.some.injEq] at h
      subst h
      simp only [List.set_cons_zero, List.map_cons, List.sum_cons]
      abel
    | succ i =>
      simp only [List.getElem?_cons_succ] at h
      simp only [List.set_cons_succ, List.map_cons, List.sum_cons, ih i h]
      abel

/-- **C51** for a single rule: without pruning, if a replacement is found, the scores reflect the rules of the model. -/
theorem optimizeRule_matches {l : Learner σ Cond K Q R S} {numExamples numOutputs : Nat} {holds : Cond → Nat → Bool} {Valid : R → Prop}
    {value : R → Nat → K} {Consistent : Nat → R → S → Prop} (hl : l.Ok numExamples numOutputs holds Valid value Consistent)
    {schedule : Update.Call K → List (Nat × (Update.Cell R S → Res (Update.Cell R S)))}
    (hs : ∀ call, Interleaving (Update.Call.tasks l.updates call numExamples) (schedule call))
    {round : Round σ Cond K Q R S} (hr : round.Ok l numExamples numOutputs) (hp : round.hasZeroWeights = false ∨ l.pruning = none)
    {fuel i : Nat} (hfound : ∀ cells, l.induceRule round fuel cells ≠ Run.done none) {base : Nat → Nat → K} {st st' : State Cond K R S}
    (hlen : st.cells.length = numExamples) (hm : Matches numOutputs holds Valid value Consistent base st)
    (h : l.optimizeRule fuel schedule round i st = Run.done st') :
    st'.cells.length = numExamples ∧ st'.rules.length = st.rules.length ∧
      Matches numOutputs holds Valid value Consistent base st' := by
  unfold Learner.optimizeRule at h
  obtain ⟨rule, h1, h⟩ := lift_bind_done h
  obtain ⟨cells1, h2, h⟩ := lift_bind_done h
  obtain ⟨r, h3, h⟩ := run_bind_done h
  have hrule := readAt_eq_ok_iff.1 h1
  have hmem : rule ∈ st.rules := List.mem_of_getElem? hrule
  obtain ⟨a1, a2⟩ := revertRule_effect hl hs hlen hm.1 (hm.2.1 rule hmem) h2
  match r with
  | none => exact absurd h3 (hfound cells1)
  | some (cells2, new) =>
    simp only at h
    cases Run.done_inj h
    obtain ⟨b1, b2, b3⟩ := induceRule_matches hl hr hp a1 (fun i c hi => by obtain ⟨_, _, k, _⟩ := a2 i c hi; exact k) h3
    refine ⟨b2, by simp, ?_, ?_, ?_⟩
    · intro e c hi
      obtain ⟨_, _, k, _⟩ := b3 e c hi
      exact k
    · intro x hx
      rcases List.mem_or_eq_of_mem_set hx with hx | hx
      · exact hm.2.1 x hx
      · subst hx; exact b1
    · intro e c hi j hj
      obtain ⟨c1, k1, _, k3⟩ := b3 e c hi
      obtain ⟨c0, m1, _, m3⟩ := a2 e c1 k1
      rw [k3 j hj, m3 j hj, hm.2.2 e c0 m1 j hj, sum_set _ _ _ _ _ hrule]
      abel

/-- **C51**, what holds of it: without pruning, if a replacement is found for each rule, then the number of rules is unchanged and the
scores reflect the rules of the model after any number of iterations. Missing are the case in which no replacement is found, for which it is
false (`optimizeRule_not_found`), and the case of pruning, for which it is false for the same reason as C23. -/
theorem optimizeModel_partial {l : Learner σ Cond K Q R S} {numExamples numOutputs : Nat} {holds : Cond → Nat → Bool} {Valid : R → Prop}
    {value : R → Nat → K} {Consistent : Nat → R → S → Prop} (hl : l.Ok numExamples numOutputs holds Valid value Consistent)
    {schedule : Nat → Update.Call K → List (Nat × (Update.Cell R S → Res (Update.Cell R S)))}
    (hs : ∀ k call, Interleaving (Update.Call.tasks l.updates call numExamples) (schedule k call))
    {rounds : Nat → Round σ Cond K Q R S} (hr : ∀ k, (rounds k).Ok l numExamples numOutputs)
    (hp : ∀ k, (rounds k).hasZeroWeights = false ∨ l.pruning = none) {fuel numIterations : Nat}
    (hfound : ∀ k cells, l.induceRule (rounds k) fuel cells ≠ Run.done none) {base : Nat → Nat → K} {st st' : State Cond K R S}
    (hlen : st.cells.length = numExamples) (hm : Matches numOutputs holds Valid value Consistent base st)
    (h : l.optimizeModel fuel schedule rounds numIterations st = Run.done st') :
    st'.cells.length = numExamples ∧ st'.rules.length = st.rules.length ∧
      Matches numOutputs holds Valid value Consistent base st' := by
  unfold Learner.optimizeModel at h
  generalize ((List.range numIterations).flatMap (fun _ => List.range st.rules.length)).zipIdx = work at h
  generalize hn : st.rules.length = n
  rw [← hn]
  clear hn
  induction work generalizing st with
  | nil =>
    cases Run.done_inj h
    exact ⟨hlen, rfl, hm⟩
  | cons p work ih =>
    rw [List.foldlM_cons] at h
    obtain ⟨st1, h1, h2⟩ := run_bind_done h
    obtain ⟨g1, g2, g3⟩ := optimizeRule_matches hl (hs p.2) (hr p.2) (hp p.2) (hfound p.2) hlen hm h1
    obtain ⟨k1, k2, k3⟩ := ih g1 g3 h2
    exact ⟨k1, by omega, k3⟩

/-- Negation of **C51**: if no replacement is found for a rule, it remains in the model, although its prediction has been subtracted from
the scores. -/
theorem optimizeRule_not_found {l : Learner σ Cond K Q R S} {numExamples numOutputs : Nat} {holds : Cond → Nat → Bool} {Valid : R → Prop}
    {value : R → Nat → K} {Consistent : Nat → R → S → Prop} (hl : l.Ok numExamples numOutputs holds Valid value Consistent)
    {schedule : Update.Call K → List (Nat × (Update.Cell R S → Res (Update.Cell R S)))}
    (hs : ∀ call, Interleaving (Update.Call.tasks l.updates call numExamples) (schedule call))
    {round : Round σ Cond K Q R S} {fuel i : Nat} {base : Nat → Nat → K} {st st' : State Cond K R S}
    (hlen : st.cells.length = numExamples) (hm : Matches numOutputs holds Valid value Consistent base st)
    (hnone : ∀ cells, l.induceRule round fuel cells = Run.done none)
    (h : l.optimizeRule fuel schedule round i st = Run.done st') :
    st'.rules = st.rules ∧ ∃ rule, st.rules[i]? = some rule ∧ ∀ e c, st'.cells[e]? = some c → ∀ j < numOutputs,
      value c.scores j = base e j + (st'.rules.map (fun rule => rule.contribution holds e j)).sum - rule.contribution holds e j := by
  unfold Learner.optimizeRule at h
  obtain ⟨rule, h1, h⟩ := lift_bind_done h
  obtain ⟨cells1, h2, h⟩ := lift_bind_done h
  obtain ⟨r, h3, h⟩ := run_bind_done h
  have hrule := readAt_eq_ok_iff.1 h1
  obtain ⟨a1, a2⟩ := revertRule_effect hl hs hlen hm.1 (hm.2.1 rule (List.mem_of_getElem? hrule)) h2
  rw [hnone cells1] at h3
  cases Run.done_inj h3
  simp only at h
  cases Run.done_inj h
  refine ⟨rfl, rule, hrule, fun e c hi j hj => ?_⟩
  obtain ⟨c0, m1, _, m3⟩ := a2 e c hi
  rw [m3 j hj, hm.2.2 e c0 m1 j hj]

end

/-! ### Examples -/

/-- Subspaces for three examples: a condition is the list of the examples that satisfy it, a subspace is the list of covered
examples. -/
def exSubspaces : SubspaceOps (List Nat) (List Nat) where
  create := [0, 1, 2]
  covers s e := s.contains e
  reset _ := [0, 1, 2]
  filter s c := .ok (s.filter (fun e => c.contains e))

theorem exSubspaces_laws : SubspaceLaws exSubspaces 3 (fun c e => c.contains e) where
  create e := by
    rcases e with _ | _ | _ | e
    · rfl
    · rfl
    · rfl
    · simp [exSubspaces]
  reset _ e := by
    rcases e with _ | _ | _ | e
    · rfl
    · rfl
    · rfl
    · simp [exSubspaces]
  filter s c s' h e := by
    cases h
    rw [Bool.eq_iff_iff]
    simp [exSubspaces, List.contains_iff_mem]

/-- Lower qualities are better. -/
def lower (a b : Int) : Bool := decide (a < b)

theorem lower_strictWeak : StrictWeak lower where
  irrefl a := by simp [lower]
  trans a b c := by simp only [lower, decide_eq_true_eq]; omega
  comparable a b c := by simp only [lower, decide_eq_true_eq]; omega

/-- All candidates of a feature are considered before those of the next one. -/
def sequentially {X : Type} (candidates : List (List X)) : List (Nat × X) :=
  candidates.zipIdx.flatMap (fun p => p.1.map (fun x => (p.2, x)))

theorem sequentially_interleaving {X : Type} (candidates : List (List X)) : Interleaving candidates (sequentially candidates) := by
  have main : ∀ (l : List (List X)) (k : Nat),
      (∀ p ∈ (l.zipIdx k).flatMap (fun p => p.1.map (fun x => (p.2, x))), k ≤ p.1 ∧ p.1 < k + l.length) ∧
      ∀ (i : Nat) x, l[i]? = some x →
        (((l.zipIdx k).flatMap (fun p => p.1.map (fun x => (p.2, x)))).filter (fun p => p.1 == k + i)).map Prod.snd = x := by
    intro l
    induction l with
    | nil => intro k; simp
    | cons a l ih =>
      intro k
      obtain ⟨h1, h2⟩ := ih (k + 1)
      rw [List.zipIdx_cons, List.flatMap_cons]
      constructor
      · intro p hp
        rcases List.mem_append.1 hp with hp | hp
        · obtain ⟨x, _, rfl⟩ := List.mem_map.1 hp
          simp
        · have := h1 p hp
          simp only [List.length_cons]
          omega
      · intro i x hi
        rw [List.filter_append, List.map_append]
        cases i with
        | zero =>
          simp only [List.getElem?_cons_zero, Option.some.injEq] at hi
          subst hi
          have e1 : ((a.map (fun x => (k, x))).filter (fun p => p.1 == k + 0)) = a.map (fun x => (k, x)) := by
            rw [List.filter_eq_self]
            intro p hp
            obtain ⟨x, _, rfl⟩ := List.mem_map.1 hp
            simp
          have e2 : ((l.zipIdx (k + 1)).flatMap (fun p => p.1.map (fun x => (p.2, x)))).filter (fun p => p.1 == k + 0) = [] := by
            rw [List.filter_eq_nil_iff]
            intro p hp
            have := h1 p hp
            simp only [beq_iff_eq]
            omega
          rw [e1, e2]
          simp [Function.comp_def]
        | succ i =>
          simp only [List.getElem?_cons_succ] at hi
          have e1 : ((a.map (fun x => (k, x))).filter (fun p => p.1 == k + (i + 1))) = [] := by
            rw [List.filter_eq_nil_iff]
            intro p hp
            obtain ⟨x, _, rfl⟩ := List.mem_map.1 hp
            simp
          rw [e1, List.map_nil, List.nil_append]
          have := h2 i x hi
          rwa [show k + 1 + i = k + (i + 1) by omega] at this
  obtain ⟨h1, h2⟩ := main candidates 0
  refine ⟨fun p hp => by have := h1 p hp; omega, fun i x hi => ?_⟩
  have := h2 i x hi
  simpa [sequentially] using this

/-- A search for refinements on two features: initially, there are the conditions satisfied by the examples 0 and 1 (quality -2) and by
the examples 1 and 2 (quality -1); for two covered examples, there is a condition satisfied by example 0 (quality -3). -/
def exSearch : Search (List Nat) (List Nat) (Head Int) Int where
  candidates _ s _ := .ok (
    if s.length = 3 then [[⟨⟨[1, 2], 2, .complete [4]⟩, -1⟩], [⟨⟨[0, 1], 2, .complete [5]⟩, -2⟩]]
    else if s.length = 2 then [[], [⟨⟨[0], 1, .complete [7]⟩, -3⟩]] else [])
  schedule _ := sequentially

/-- A rule with two conditions is grown. -/
example : exSearch.Valid ∧ (growRule exSubspaces lower id ⟨0, 0, 0⟩ exSearch 0 5 >>= fun g =>
    Run.done (g.conditions, g.subspace, g.head.isSome)) = Run.done ([[0, 1], [0]], [0], true) :=
  ⟨fun _ _ => sequentially_interleaving _, by decide +kernel⟩

/-- If at least two examples must be covered, induction stops after the first condition. -/
example : (growRule exSubspaces lower id ⟨2, 0, 0⟩ exSearch 0 5 >>= fun g =>
    Run.done (g.conditions, g.subspace)) = Run.done ([[0, 1]], [0, 1]) := by decide +kernel

/-- An evaluation according to which it is worst to cover example 1. -/
def exEval (mask : Nat → Bool) : Res Int := .ok (if mask 1 then 0 else -1)

/-- If all three examples satisfy the last two conditions of a rule as well as the first one, the last two are removed. -/
example : (prune exSubspaces lower exEval [[0, 2], [0, 1, 2], [0, 2]] [0, 2]).map (fun r => (r.conditions, r.subspace)) =
    .ok ([[0, 2]], [0, 2]) := by decide +kernel

/-- A learner that uses dense rows of scores for a single output and prunes rules. -/
def exLearner (pruning : Bool) : Learner (List Nat) (List Nat) Int Int (List Int) Unit where
  subspaces := exSubspaces
  updates := ⟨Update.changeDense (· + ·), Update.changeDense (· - ·), fun _ _ _ _ => .ok ()⟩
  better := lower
  minQuality := 0
  sortHead := id
  config := ⟨0, 0, 0⟩
  pruning := if pruning then some (fun _ _ => exEval) else none
  recalculate := none
  postProcess := id

/-- A call to `induceRule`. -/
def exRound : Round (List Nat) (List Nat) Int Int (List Int) Unit where
  search _ := exSearch
  hasZeroWeights := true
  applySchedule call := sequentially (call.tasks (exLearner true).updates 3)

theorem exLearner_ok (pruning : Bool) : (exLearner pruning).Ok 3 1 (fun c e => c.contains e) (fun r : List Int => r.length = 1)
    Update.denseValue (fun _ _ _ => True) where
  better := lower_strictWeak
  subspaces := exSubspaces_laws
  updates := Update.dense_laws 1 _ _ (fun _ _ _ _ _ _ _ _ _ _ => ⟨(), rfl, trivial⟩)
  postProcess _ h := h
  recalculate _ h := by cases h

theorem exRound_ok (pruning : Bool) : exRound.Ok (exLearner pruning) 3 1 where
  search _ _ _ := sequentially_interleaving _
  heads cells n s o candidates h := by
    cases h
    intro x hx
    split at hx
    · simp only [List.flatten_cons, List.flatten_nil, List.append_nil, List.cons_append, List.nil_append, List.mem_cons,
        List.not_mem_nil, or_false] at hx
      rcases hx with rfl | rfl <;> rfl
    · split at hx
      · simp only [List.flatten_cons, List.flatten_nil, List.append_nil, List.nil_append, List.mem_cons, List.not_mem_nil, or_false] at hx
        subst hx
        rfl
      · simp at hx
  applied call := sequentially_interleaving _

/-- Without pruning, the statistics are updated for the example the rule covers. -/
example : ((exLearner false).induceRule exRound 5 [⟨[0], ()⟩, ⟨[0], ()⟩, ⟨[0], ()⟩] >>= fun r =>
    Run.done (r.map (fun r => (r.1, r.2.conditions)))) = Run.done (some ([⟨[7], ()⟩, ⟨[0], ()⟩, ⟨[0], ()⟩], [[0, 1], [0]])) := by
  decide +kernel

/-- Negation of **C23**: if rules are pruned, the statistics are updated for examples the rule does not cover. Here, no condition is
removed, i.e., the rule covers example 0 only, but its prediction is applied to example 1 as well. -/
theorem pruning_updates_wrong_examples :
    ((exLearner true).induceRule exRound 5 [⟨[0], ()⟩, ⟨[0], ()⟩, ⟨[0], ()⟩] >>= fun r =>
      Run.done (r.map (fun r => (r.1, r.2.conditions)))) = Run.done (some ([⟨[7], ()⟩, ⟨[7], ()⟩, ⟨[0], ()⟩], [[0, 1], [0]])) := by
  decide +kernel

/-- Post-optimisation without replacement: a model with one rule, whose prediction is subtracted from the scores. -/
example : ((exLearner false).optimizeModel 5 (fun _ call => sequentially (call.tasks (exLearner false).updates 3))
      (fun _ => { exRound with search := fun _ => { exSearch with candidates := fun _ _ _ => .ok [] } }) 2
      ⟨[⟨[7], ()⟩, ⟨[0], ()⟩, ⟨[0], ()⟩], [⟨[[0, 1], [0]], .complete [7]⟩]⟩ >>= fun st =>
    Run.done (st.cells, st.rules.map (fun r => r.conditions))) =
    Run.done ([⟨[-7], ()⟩, ⟨[0], ()⟩, ⟨[0], ()⟩], [[[0, 1], [0]]]) := by
  decide +kernel

end MLRL.Induction
