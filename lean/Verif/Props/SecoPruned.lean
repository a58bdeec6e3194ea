import Verif.Lemma.PruneSimulation
import Verif.Lemma.OutOfSample
import Verif.Props.SecoPruning

/-!
# C96: which conditions separate-and-conquer algorithms remove from a rule
-/

namespace MLRL.Induction

open Refinement

variable {σ Cond Q : Type}

/-- Pruning only depends on how qualities that occur are compared. -/
theorem prune_congr {ops : SubspaceOps σ Cond} {better better' : Q → Q → Bool} {P : Q → Prop} (ha : ∀ x q, P q → better x q = better' x q)
    {eval : (Nat → Bool) → Res Q} (he : ∀ mask q, eval mask = .ok q → P q) (conditions : List Cond) (s : σ) :
    prune ops better eval conditions s = prune ops better' eval conditions s := by
  unfold prune
  split
  · cases hq : eval (ops.covers s) with
    | error e => rfl
    | ok q =>
      simp only [ok_bind]
      have key : ∀ (count n : Nat) (st : PruneState σ Q), P st.quality →
          loopFrom (pruneStep ops better eval conditions) n count st = loopFrom (pruneStep ops better' eval conditions) n count st := by
        intro count
        induction count with
        | zero => intros; rfl
        | succ count ih =>
          intro n st hst
          simp only [loopFrom_succ]
          have hstep : pruneStep ops better eval conditions n st = pruneStep ops better' eval conditions n st := by
            unfold pruneStep
            cases readAt conditions (n - 1) with
            | error e => rfl
            | ok condition =>
              simp only [ok_bind]
              cases ops.filter st.subspace condition with
              | error e => rfl
              | ok t =>
                simp only [ok_bind]
                cases hq' : eval (ops.covers t) with
                | error e => rfl
                | ok q' =>
                  simp only [ok_bind]
                  rw [ha q' st.quality hst, ha st.quality q' (he _ _ hq')]
          rw [hstep]
          cases hs : pruneStep ops better' eval conditions n st with
          | error e => rfl
          | ok st' =>
            simp only [ok_bind]
            refine ih _ _ ?_
            unfold pruneStep at hs
            obtain ⟨condition, _, hs⟩ := TabularData.ok_of_bind hs
            obtain ⟨t, _, hs⟩ := TabularData.ok_of_bind hs
            obtain ⟨q', hq', hs⟩ := TabularData.ok_of_bind hs
            split at hs
            · cases hs; exact he _ _ hq'
            · cases hs; exact hst
      rw [key _ _ _ (he _ _ hq)]
  · rfl

theorem Walk.take {τ : Type} {ops' : SubspaceOps σ Cond} {ops : SubspaceOps τ Cond} {φ : σ → τ} {s t : σ} {cs : List Cond}
    (h : Walk ops' ops φ s cs t) : ∀ j, ∃ u, (cs.take j).foldlM ops'.filter s = .ok u := by
  induction h with
  | nil s => intro j; rw [List.take_nil]; exact ⟨s, rfl⟩
  | @cons s c s' cs t h1 h2 _ ih =>
    intro j
    cases j with
    | zero => exact ⟨s, rfl⟩
    | succ j =>
      obtain ⟨u, hu⟩ := ih j
      refine ⟨u, ?_⟩
      rw [List.take_succ_cons, List.foldlM_cons, h1, ok_bind]
      exact hu

end MLRL.Induction

namespace MLRL.SecoTraining

open Predictor Induction Refinement Seco Statistics Stopping FeatureSpace

section
variable {K : Type} [Field K] [LinearOrder K] [IsStrictOrderedRing K]
variable {round : Round K} {ev : Evaluation K} {majority : List Nat} {n c : Nat} {values : Nat → Nat → Option Rat} {h : Heuristic K}
    {total : List (Confusion K)} {ex : Nat → ConfusionMatrices K} {gcfg : GrowConfig}

omit [IsStrictOrderedRing K] in
/-- Where the candidates of a search come from. -/
theorem candidate_origin {m : Nat} {s : {s : Subspace Unit // Tabular.Reachable round.env n s}} {o : Option (Predictor.Head K)}
    {r : List (List (Scored (Found Boosting.Condition (Predictor.Head K)) (Option K)))}
    (hr : (reachSearch round n ev majority c total ex).candidates m s o = .ok r)
    {x : Scored (Found Boosting.Condition (Predictor.Head K)) (Option K)} (hx : x ∈ r.flatten) :
    ∃ f l cand, Tabular.searchFeature round.env f s.1 ex = .ok l ∧ cand ∈ l ∧ x.refinement.condition = Boosting.conditionOf f cand := by
  obtain ⟨l', h1, h2⟩ := List.mem_flatten.1 hx
  obtain ⟨f, hf, h3⟩ := TrainingLoss.mem_of_mapM hr l' h1
  unfold scoreFeature at h3
  beta_reduce at h3
  obtain ⟨l, k1, h3⟩ := TabularData.ok_of_bind h3
  obtain ⟨cand, hc, h4⟩ := TrainingLoss.mem_of_mapM h3 x h2
  unfold scoreCandidate at h4
  obtain ⟨_, _, h4⟩ := TabularData.ok_of_bind h4
  obtain ⟨_, _, h4⟩ := TabularData.ok_of_bind h4
  cases h4
  exact ⟨f, l, cand, k1, hc, rfl⟩

/-- When a rule is pruned, its conditions are added again to a subspace that has been reset. -/
theorem Growing.rewalk (g : Growing round ev majority n c values h total ex)
    {chosen : List (Scored (Found Boosting.Condition (Predictor.Head K)) (Option K))}
    {s : {s : Subspace Unit // Tabular.Reachable round.env n s}} {q : Option K} {o : Option (Predictor.Head K)}
    (hg : Greedy (Tabular.reachable g.roundOk.table) betterNumber Boosting.sortHead gcfg (reachSearch round n ev majority c total ex) (some 0)
      chosen s q o) (s0 : {s : Subspace Unit // Tabular.Reachable round.env n s}) :
    ∃ t, Walk (Tabular.reachable g.roundOk.table) (Tabular.subspaces round.env) Subtype.val ((Tabular.reachable g.roundOk.table).reset s0)
        (chosen.map (fun x => x.refinement.condition)) t ∧ SameButLoaded s.1 t.1 := by
  induction hg with
  | start =>
    refine ⟨_, .nil _, ?_⟩
    obtain ⟨_, ⟨_, hist⟩, _⟩ := s0.2
    exact reset_same (Tabular.history_length g.roundOk.table.wellFormed hist) rfl
  | @step chosen s q o r x s' k1 _ _ hc hx hb hf ih =>
    obtain ⟨t, w1, w2⟩ := ih
    obtain ⟨f, l, cand, k1, k2, k3⟩ := candidate_origin hc (FirstBest.mem hx)
    obtain ⟨t', a⟩ := Tabular.candidate_adds g.roundOk.table t.2 g.zero (Tabular.searchFeature_same w2 k1) k2
    rw [← k3] at a
    have hmap := Tabular.reachable_filter g.roundOk.table a
    cases hft : (Tabular.reachable g.roundOk.table).filter t x.refinement.condition with
    | error e =>
      rw [hft, a.1] at hmap
      cases hmap
    | ok t2 =>
      rw [hft] at hmap
      have hmap' : Except.ok t2.1 = Tabular.addCondition round.env t.1 x.refinement.condition := hmap
      have hs : Tabular.addCondition round.env s.1 x.refinement.condition = .ok s'.1 := by
        obtain ⟨s2, a2⟩ := Tabular.candidate_adds g.roundOk.table s.2 g.zero k1 k2
        rw [← k3] at a2
        have := Tabular.reachable_filter g.roundOk.table a2
        rw [hf] at this
        exact this.symm
      obtain ⟨t3, b1, b2⟩ := Tabular.addCondition_same w2 hs
      rw [← hmap'] at b1
      cases b1
      refine ⟨t2, ?_, b2⟩
      rw [List.map_append]
      exact w1.snoc hft hmap'.symm

/-- The quality of the first `i` conditions of a rule on the examples that have not been sampled. -/
def prefixQuality (h : Heuristic K) (label : Nat → Nat → Bool) (values : Nat → Nat → Option Rat) (cov : Nat → Nat → Nat) (w : Weights K)
    (majority : List Nat) (n j : Nat) (conditions : List Boosting.Condition) (i : Nat) : K :=
  labelQuality h (heldOutConfusion label cov w majority n (fun _ => true) j)
    (heldOutConfusion label cov w majority n (fun e => (conditions.take i).all (fun cond => cond.holds values e)) j)

variable {cfg : Config K} {label : Nat → Nat → Bool}

/-- **C96**: if there are at least as many labels as examples, pruning a rule with several conditions that predicts for a label whose index is less than
the number of examples retains the shortest non-empty prefix with the greatest quality on the examples that have not been sampled. The prediction of
the rule does not change. However, the statistics are updated as if the rule consisted of all conditions that have been found, except for the last one,
no matter how many conditions have been removed (see C56). -/
theorem seco_rule_pruned (hok : ConfigOk cfg label values h) {majority : List Nat} (hm : majority.Pairwise (· < ·)) {cov : Nat → Nat → Nat}
    {m : CoverageMatrix K} (hc : IsCoverage cfg.numExamples cfg.numOutputs cov m.cells) {k fuel : Nat}
    {gr : Grown (Subspace Unit) Boosting.Condition (Predictor.Head K)} (hg : cfg.growNext majority k fuel m = Run.done gr) {j : Nat} {v : K}
    (hh : gr.head = some (.partial_ [(j, v)])) (hz : ∃ e < cfg.numExamples, weightAt (cfg.rounds k).weights e = 0)
    (hle : cfg.numExamples ≤ cfg.numOutputs) (hj : j < cfg.numExamples) (h' : Heuristic K) (recalculate : Bool)
    (hn : 1 < gr.conditions.length) :
    ∃ i s, cfg.finishRule ⟨some (singleEvaluation h'), recalculate⟩ majority k m gr (.partial_ [(j, v)]) =
        .ok (⟨gr.conditions.take i, .partial_ [(j, v)]⟩, s) ∧ 1 ≤ i ∧ i ≤ gr.conditions.length ∧
      (∀ i', 1 ≤ i' → i' ≤ gr.conditions.length →
        prefixQuality h' label values cov (cfg.rounds k).weights majority cfg.numExamples j gr.conditions i' ≤
          prefixQuality h' label values cov (cfg.rounds k).weights majority cfg.numExamples j gr.conditions i) ∧
      (∀ i', 1 ≤ i' → i' < i →
        prefixQuality h' label values cov (cfg.rounds k).weights majority cfg.numExamples j gr.conditions i' <
          prefixQuality h' label values cov (cfg.rounds k).weights majority cfg.numExamples j gr.conditions i) ∧
      ∀ e, Tabular.covers s e = true ↔ e < cfg.numExamples ∧ ∀ cond ∈ gr.conditions.dropLast, cond.holds values e = true := by
  obtain ⟨total, t1, _, g⟩ := growing hok hm hc k
  unfold Config.growNext at hg
  rw [t1] at hg
  have hg' : growRule (Tabular.subspaces (cfg.rounds k).env) better Boosting.sortHead cfg.grow
    ((cfg.rounds k).search cfg.evaluation majority cfg.numOutputs total (Tabular.searchFeature (cfg.rounds k).env)
      (exampleConfusion majority cfg.labels cfg.numExamples cfg.numOutputs (cfg.rounds k).weights m.cells)) (some 0) fuel = Run.done gr := hg
  have hlearned := g.learned hg' hh
  rw [g.transfer] at hg'
  obtain ⟨gr', h1, h2⟩ := run_bind_done hg'
  cases Run.done_inj h2
  obtain ⟨chosen, s, q, o, k1, _, rfl⟩ := growRule_greedy betterNumber_strictWeak (search_valid g.roundOk) h1
  obtain ⟨t, w, _⟩ := g.rewalk k1 s
  have hcov := create_covers (Tabular.reachable_laws g.roundOk.table) k1.filtered
  simp only at hh hn ⊢
  generalize hfound : chosen.map (fun y => y.refinement.condition) = found at *
  have hjc : j < cfg.numOutputs := by omega
  have hw := (hok.rounds k).weights
  have heval : ∀ mask q, evaluateOutOfSample (singleEvaluation h') majority cfg.labels cfg.numExamples cfg.numOutputs m.cells (cfg.rounds k).weights
      (.partial_ [(j, v)]) mask = .ok q ↔ q = some (labelQuality h' (heldOutConfusion label cov (cfg.rounds k).weights majority cfg.numExamples
        (fun _ => true) j) (heldOutConfusion label cov (cfg.rounds k).weights majority cfg.numExamples mask j)) := by
    intro mask q
    rw [evaluate_iff hok.labels hc hw hm hjc]
    exact ⟨fun e => e.2.2, fun e => ⟨hle, hj, e⟩⟩
  have hheld : ∀ i, heldOutConfusion label cov (cfg.rounds k).weights majority cfg.numExamples
      (coverage cfg.numExamples (Boosting.Condition.holds values) (found.take i)) j =
      heldOutConfusion label cov (cfg.rounds k).weights majority cfg.numExamples
        (fun e => (found.take i).all (fun cond => cond.holds values e)) j := by
    intro i
    unfold heldOutConfusion
    congr 2
    refine List.filter_congr (fun e he => ?_)
    have he := List.mem_range.1 he
    simp [coverage, he]
  obtain ⟨i, s', p1, p2, p3, p4, p5, p6⟩ := prune_optimal betterNumber_strictWeak (Tabular.reachable_laws g.roundOk.table) hn hcov
    (q := fun i => some (prefixQuality h' label values cov (cfg.rounds k).weights majority cfg.numExamples j found i))
    (eval := evaluateOutOfSample (singleEvaluation h') majority cfg.labels cfg.numExamples cfg.numOutputs m.cells (cfg.rounds k).weights
      (.partial_ [(j, v)]))
    (fun i _ _ => by rw [heval, hheld]; rfl) (fun i _ => w.take i)
  refine ⟨i, s'.1, ?_, p2, p3, ?_, ?_, ?_⟩
  · unfold Config.finishRule
    rw [(hasZeroWeights_iff hw).2 hz]
    simp only [Config.pruneRule]
    have e1 := prune_simulates (better := (betterNumber : Option K → Option K → Bool)) (ops := Tabular.subspaces (cfg.rounds k).env) (φ := Subtype.val)
      (fun s => rfl) (evaluateOutOfSample (singleEvaluation h') majority cfg.labels cfg.numExamples cfg.numOutputs m.cells (cfg.rounds k).weights
      (.partial_ [(j, v)])) rfl w
    rw [p1] at e1
    rw [prune_congr (P := fun q : Option K => q.isSome = true) better_agrees.same (fun mask q hq => by rw [(heval mask q).1 hq]; rfl), e1]
    simp only [Except.map, ok_bind]
    have hrec : ∀ p : Pruned (Subspace Unit) Boosting.Condition, cfg.recalculateHead recalculate majority m p (.partial_ [(j, v)]) =
        .ok (.partial_ [(j, v)]) := by
      intro p
      unfold Config.recalculateHead
      cases recalculate with
      | false => rfl
      | true =>
        refine (recalculate_iff hok.labels hc hm hok.evaluation _ hlearned _).2 ⟨rfl, hle, fun j' hj' => ?_⟩
        by_contra hne
        have : ¬ j = j' := by omega
        simp [predictedValue, this] at hj'
    rw [hrec, ok_bind]
    rfl
  · intro i' a b
    exact not_lt.1 (of_decide_eq_false (p4 i' a b))
  · intro i' a b
    exact of_decide_eq_true (p5 i' a b)
  · intro e
    have := congrFun p6 e
    change Tabular.covers s'.1 e = _ at this
    rw [this]
    simp [coverage, List.all_eq_true]

end

/-! ### Examples -/

/-- Four labels and four examples, one of which has a relevant label. -/
abbrev exPruned : Config ℚ :=
  exDrawn 4 [false, false, false, false, true, false, false, false, false, false, false, false, false, false, false, false] [0, 1, 2] false

/-- The coverage matrix when the first rule is learned. -/
def exUncovered : CoverageMatrix ℚ := ⟨4, List.replicate 16 0, 1⟩

/-- The first rule: the number of conditions that are found, those that remain, the labels
it predicts for, and the examples that are covered according to the subspace before and after pruning. -/
def exFirst : Option (List (List Nat)) :=
  match (exPruned.growNext [] 0 20 exUncovered).run with
  | some (.ok g) =>
    match g.head with
    | some (.partial_ entries) =>
      match exPruned.finishRule ⟨some (singleEvaluation .precision), true⟩ [] 0 exUncovered g (.partial_ entries) with
      | .ok (rule, s) => some [[g.conditions.length, rule.conditions.length], entries.map Prod.fst,
          (List.range 4).filter (Tabular.covers g.subspace), (List.range 4).filter (Tabular.covers s)]
      | .error _ => none
    | _ => none
  | _ => none

-- the hypotheses of `seco_rule_pruned` are met: two conditions are found for the first label, one of them is retained
example : exFirst = some [[2, 1], [0], [1, 3], [0, 1, 3]] := by decide +kernel

-- if rules are pruned, the first label of the first example becomes covered
example : exSummary (exPruned.fit [0, 0, 0, 0] 20) = some (1, [], [0, 0, 0, 0, 1, 0, 0, 0, 0, 0, 0, 0, 1, 0, 0, 0], -1) ∧
    exSummary (exPruned.fitWith ⟨some (singleEvaluation .precision), true⟩ [0, 0, 0, 0] 20) =
      some (1, [], [1, 0, 0, 0, 1, 0, 0, 0, 0, 0, 0, 0, 1, 0, 0, 0], -2) := by decide +kernel

end MLRL.SecoTraining
