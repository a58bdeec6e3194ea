import Verif.Lemma.SampledTermination

/-! # C90: boosting algorithms that sample examples, recalculate predictions and prune rules terminate -/

namespace MLRL.Tabular

open FeatureSpace Predictor Induction TrainingLoss RuleEval

section
variable {K T : Type} [Field K] [LinearOrder K] [IsStrictOrderedRing K] {cfg : Boosting.Sampled (Subspace Unit) K} {data : Data K T} {l1 l2 : K}
  {envs : Nat → Env} {values : Nat → Nat → Option Rat}

/-- What is assumed of a boosting algorithm: it meets the requirements of C80 for the weights of each rule and those of C82, the training examples exist,
and the heads it finds can be recalculated if this is necessary. -/
structure SampledSafe (cfg : Boosting.Sampled (Subspace Unit) K) (data : Data K T) (envs : Nat → Env) (values : Nat → Nat → Option Rat) (l1 l2 : K) :
    Prop where
  rounds : ∀ k, Trainable (cfg.at k) (data.weighted (cfg.weights k)) (envs k) values l1 l2
  safe : Safe cfg.base data
  exist : ∀ e ∈ cfg.examples, e < data.numExamples
  stable : cfg.recalculate = true → Stable cfg.base.evaluation cfg.base.evaluation

theorem SampledSafe.total (h : SampledSafe cfg data envs values l1 l2) (k : Nat) :
    Boosting.TotalOk ((cfg.at k).using (reachable (h.rounds k).table) Subtype.val) (data.weighted (cfg.weights k)) values l1 l2 :=
  (h.rounds k).total ⟨h.safe.outputs, h.safe.sampled, h.safe.evaluation, h.safe.defaultEvaluation, h.safe.environment, h.safe.pruning, h.safe.limited⟩

theorem foldlM_of_walk {σ τ Cond : Type} {ops' : SubspaceOps σ Cond} {ops : SubspaceOps τ Cond} {φ : σ → τ} {s t : σ} {cs : List Cond}
    (h : Walk ops' ops φ s cs t) : cs.foldlM ops'.filter s = .ok t := by
  induction h with
  | nil s => rfl
  | cons h1 _ _ ih => rw [List.foldlM_cons, h1, ok_bind, ih]

/-- A rule is learned without a fault. -/
theorem SampledSafe.induce (h : SampledSafe cfg data envs values l1 l2) {update : T → K → Stat K}
    (hu : Update.Laws cfg.base.updates data.numOutputs (fun r : List K => r.length = data.numOutputs) Update.denseValue (UpToDate data update))
    {p : Option (List (Update.Cell (List K) (List (Stat K))) → Head K → (Nat → Bool) → Res K)}
    (hp : FunctionsOk cfg.base.evaluation data.numExamples data.numOutputs cfg.recalculation p) (k : Nat)
    {cells : List (Update.Cell (List K) (List (Stat K)))}
    (hc : Training.CellsOk data.numExamples (fun r : List K => r.length = data.numOutputs) (UpToDate data update) cells) :
    ∃ r, (∀ fuel, cfg.base.grow.maxConditions + ((data.numExamples + 1) * (data.numOutputs + 2)) + 2 ≤ fuel →
        (learnerWith ((cfg.at k).using (reachable (h.rounds k).table) Subtype.val) cfg.recalculation p).induceRule
          (((cfg.at k).using (reachable (h.rounds k).table) Subtype.val).round k) fuel cells = Run.done r) ∧
      ∀ cells' rule, r = some (cells', rule) →
        Training.CellsOk data.numExamples (fun r : List K => r.length = data.numOutputs) (UpToDate data update) cells' := by
  refine induce_found (h.total k) hu hp hc (fun chosen s q o hg s0 => ?_)
  rw [← (h.total k).search_eq] at hg
  obtain ⟨t, w, _⟩ := (h.rounds k).rewalk hg s0
  exact ⟨t, foldlM_of_walk w⟩

theorem SampledSafe.functions (h : SampledSafe cfg data envs values l1 l2) {weights : Nat → K} {evaluation : Option (Boosting.Evaluation K)}
    (he : ∀ e, evaluation = some e → Stable cfg.base.evaluation e) :
    FunctionsOk cfg.base.evaluation data.numExamples data.numOutputs cfg.recalculation
      (evaluation.map (fun e => Boosting.evaluateOutOfSample e cfg.base.numOutputs cfg.examples weights)) := by
  have hn : cfg.base.numOutputs = data.numOutputs := (h.rounds 0).numOutputs
  unfold Boosting.Sampled.recalculation
  rw [hn]
  refine ⟨fun g hg cells mask head head' hf hh => ?_, fun g hg cells mask head hc hd hpr => ?_, fun g hg cells mask head hc hd hpr => ?_⟩
  · split at hg
    · cases hg
      exact recalculate_fits hf hh
    · cases hg
  · split at hg
    · rename_i hr
      cases hg
      exact recalculate_total (fun e he => by rw [hc]; exact h.exist e he) mask hd (hpr _ (h.stable hr))
    · cases hg
  · rw [Option.map_eq_some_iff] at hg
    obtain ⟨e, he', rfl⟩ := hg
    exact outOfSample_total (fun i hi => by rw [hc]; exact h.exist i hi) mask hd (hpr _ (he e he'))

/-- The loop that induces rules ends. -/
theorem SampledSafe.assemble (h : SampledSafe cfg data envs values l1 l2) {update : T → K → Stat K}
    (hu : Update.Laws cfg.base.updates data.numOutputs (fun r : List K => r.length = data.numOutputs) Update.denseValue (UpToDate data update))
    {induce : Nat → Nat → List (Update.Cell (List K) (List (Stat K))) →
      Run (Option (List (Update.Cell (List K) (List (Stat K))) × Rule Boosting.Condition K))} {bound : Nat}
    (hind : ∀ k cells, Training.CellsOk data.numExamples (fun r : List K => r.length = data.numOutputs) (UpToDate data update) cells →
      ∃ r, (∀ fuel, bound ≤ fuel → induce fuel k cells = Run.done r) ∧ ∀ cells' rule, r = some (cells', rule) →
        Training.CellsOk data.numExamples (fun r : List K => r.length = data.numOutputs) (UpToDate data update) cells')
    {cells : List (Update.Cell (List K) (List (Stat K)))}
    (hi : Training.Initial data.numExamples data.numOutputs (fun r : List K => r.length = data.numOutputs) Update.denseValue
      (UpToDate data update) cells) :
    ∃ bound st, ∀ fuel, bound ≤ fuel → cfg.base.setup.induceRulesWith (induce fuel) fuel cells = Run.done st := by
  have ht := (h.total 0).setup hu
  have hn : (cfg.at 0).numExamples = data.numExamples := (h.rounds 0).numExamples
  have hc : Training.CellsOk data.numExamples (fun r : List K => r.length = data.numOutputs) (UpToDate data update) cells :=
    ⟨hi.1, fun i c hic => (hi.2 i c hic).1⟩
  obtain ⟨st0, h0, hst0⟩ := Training.start_total ht (cells := cells) (by
    show Training.CellsOk (cfg.at 0).numExamples _ _ _
    rw [hn]
    exact hc)
  have hst0' : Training.CellsOk data.numExamples (fun r : List K => r.length = data.numOutputs) (UpToDate data update) st0.cells := by
    rw [← hn]
    exact hst0.1
  obtain ⟨d, hd⟩ := Training.create_ok (S := List (Stat K)) ht.pruning h.safe.limited (if cfg.base.useDefaultRule then 1 else 0)
  obtain ⟨st1, h1⟩ := Training.assembleWith_total h.safe.environment bound hind d _ _ 0 st0 hd hst0'
  refine ⟨bound + (d + 1), st1, fun fuel hf => ?_⟩
  unfold Training.Setup.induceRulesWith
  have h0' : cfg.base.setup.start cells = .ok st0 := h0
  rw [h0', Run.lift_ok, Run.done_bind]
  exact h1 fuel fuel (by omega) (by omega)

/-- **C90**: if the number of rules is limited or if there is a time limit, training terminates and none of its parts fails, no matter how examples are
sampled and whether predictions are recalculated. Missing are ordinal features if there are examples with zero weight, and the cases C80 excludes. -/
theorem sampled_terminates_partial (h : SampledSafe cfg data envs values l1 l2) {update : T → K → Stat K}
    (hu : Update.Laws cfg.base.updates data.numOutputs (fun r : List K => r.length = data.numOutputs) Update.denseValue (UpToDate data update))
    {cells : List (Update.Cell (List K) (List (Stat K)))}
    (hi : Training.Initial data.numExamples data.numOutputs (fun r : List K => r.length = data.numOutputs) Update.denseValue
      (UpToDate data update) cells) :
    ∃ bound st, ∀ fuel, bound ≤ fuel → cfg.induceRules fuel cells = Run.done st := by
  refine h.assemble hu (induce := fun fuel k cells => cfg.induceRule fuel k cells)
    (bound := cfg.base.grow.maxConditions + ((data.numExamples + 1) * (data.numOutputs + 2)) + 2) (fun k cells hc => ?_) hi
  obtain ⟨r, r1, r2⟩ := h.induce hu (h.functions (weights := fun _ => 0) (evaluation := none) (fun e he => by cases he)) k hc
  refine ⟨r, fun fuel hf => ?_, r2⟩
  unfold Boosting.Sampled.induceRule
  rw [← Boosting.induceRule_recalculating better_strictWeak (h.rounds k).searchSchedule (h.rounds k).same]
  exact r1 fuel hf

/-- **C90** for algorithms that prune rules. -/
theorem pruned_terminates_partial (h : SampledSafe cfg data envs values l1 l2) {evaluation : Boosting.Evaluation K}
    (he : Stable cfg.base.evaluation evaluation) {update : T → K → Stat K}
    (hu : Update.Laws cfg.base.updates data.numOutputs (fun r : List K => r.length = data.numOutputs) Update.denseValue (UpToDate data update))
    {cells : List (Update.Cell (List K) (List (Stat K)))}
    (hi : Training.Initial data.numExamples data.numOutputs (fun r : List K => r.length = data.numOutputs) Update.denseValue
      (UpToDate data update) cells) :
    ∃ bound st, ∀ fuel, bound ≤ fuel → cfg.induceRulesPruning evaluation fuel cells = Run.done st := by
  refine h.assemble hu (bound := cfg.base.grow.maxConditions + ((data.numExamples + 1) * (data.numOutputs + 2)) + 2)
    (induce := fun fuel k cells => ((cfg.at k).pruning (cfg.outOfSample evaluation k) cfg.recalculation).induceRule ((cfg.at k).round k) fuel cells)
    (fun k cells hc => ?_) hi
  obtain ⟨r, r1, r2⟩ := h.induce hu (h.functions (weights := cfg.weights k) (evaluation := some evaluation) (fun e h => by cases h; exact he)) k hc
  refine ⟨r, fun fuel hf => ?_, r2⟩
  rw [← (h.rounds k).pruned_eq]
  exact r1 fuel hf

end

/-! ### Examples -/

theorem exSampled_safe : SampledSafe exSampled exData (fun k => drawnEnv (k % 2 == 0)) exTableValues 0 1 where
  rounds := exSampled_ok.rounds
  safe :=
    { outputs := by decide
      sampled := fun k l h => by cases h
      evaluation := Boosting.single_total 0 1
      defaultEvaluation := Boosting.complete_total 0 1 _ (fun _ => by simp)
      environment := ⟨fun _ _ _ _ => ⟨_, rfl⟩, fun i hi => by cases hi⟩
      pruning := trivial
      limited := Or.inl ⟨5, rfl⟩ }
  exist := exSampled_ok.exist
  stable _ := single_stable 0 1

example : ∃ bound st, ∀ fuel, bound ≤ fuel → exSampled.induceRules fuel exCells = Run.done st :=
  sampled_terminates_partial exSampled_safe exConfig_ok.updates exCells_initial

/-- Rules are evaluated for all outputs of their heads when they are pruned. -/
example : ∃ bound st, ∀ fuel, bound ≤ fuel →
    exSampled.induceRulesPruning (Boosting.completeEvaluation 0 1 (fun outputs => List.replicate outputs.length 0)) fuel exCells = Run.done st :=
  pruned_terminates_partial exSampled_safe ((complete_covering 0 1 (fun _ => by simp)).stable (fun _ => rfl)) exConfig_ok.updates exCells_initial

/-- Heads predict for a single output out of two, at least initially, and the number of conditions is not limited. -/
def exFixedEvaluation : Boosting.Evaluation ℚ :=
  Boosting.fixedEvaluation (fun _ l => l.insertionSort (fun a b => |b.2| ≤ |a.2|)) 0 1 (fun outputs => outputs.map (fun j => (j, 0)))
    (fun outputs => outputs.take 1) (fun outputs => List.replicate (outputs.take 1).length 0) (fun outputs => List.replicate outputs.length 0)

def exFixedSampled : Boosting.Sampled (Subspace Unit) ℚ :=
  { exSampled with base := { exSampled.base with grow := ⟨0, 0, 1⟩, evaluation := exFixedEvaluation } }

theorem byAbs_sorted (k : Nat) (l : List (Nat × ℚ)) : PartiallySorted k l (l.insertionSort (fun a b => |b.2| ≤ |a.2|)) := by
  have hp : (l.insertionSort (fun a b => |b.2| ≤ |a.2|)).Pairwise (fun a b => |b.2| ≤ |a.2|) := by
    have : Std.Total (fun a b : Nat × ℚ => |b.2| ≤ |a.2|) := ⟨fun a b => le_total _ _⟩
    have : IsTrans (Nat × ℚ) (fun a b : Nat × ℚ => |b.2| ≤ |a.2|) := ⟨fun a b c h1 h2 => le_trans h2 h1⟩
    exact List.pairwise_insertionSort _ l
  refine ⟨List.perm_insertionSort _ l, hp.sublist (List.take_sublist _ _), ?_⟩
  rw [← List.take_append_drop k (l.insertionSort _), List.pairwise_append] at hp
  exact hp.2.2

theorem exFixed_scoring : Scoring 0 1 exFixedEvaluation :=
  fixed_scoring 0 1 (fun _ => by simp) (fun _ => by simp) (fun _ => by simp) byAbs_sorted (fun _ => by simp)

theorem exFixedSampled_safe : SampledSafe exFixedSampled exData (fun k => drawnEnv (k % 2 == 0)) exTableValues 0 1 where
  rounds k := { exSampled_ok.rounds k with evaluation := exFixed_scoring }
  safe := { exSampled_safe.safe with
    evaluation := Boosting.fixed_total 0 1 (fun _ => by simp) (fun _ => by simp) (fun _ => by simp) byAbs_sorted (fun _ => by simp) }
  exist := exSampled_ok.exist
  stable _ := (fixed_covering _ 0 1 _ _ _ (fun _ => by simp)).stable id

/-- Heads that predict for a single output are evaluated for this output when they are recalculated or pruned. -/
example : ∃ bound st, ∀ fuel, bound ≤ fuel → exFixedSampled.induceRulesPruning exFixedEvaluation fuel exCells = Run.done st :=
  pruned_terminates_partial exFixedSampled_safe ((fixed_covering _ 0 1 _ _ _ (fun _ => by simp)).stable id) exConfig_ok.updates exCells_initial

/-- The rules that are induced and the loss before each step and after the last one. -/
example : (exFixedSampled.induceRulesPruning exFixedEvaluation 40 exCells >>= fun st => Run.done
      (st.allRules.map (fun rule => (rule.conditions.map (fun c => (c.feature, c.threshold)), outputsOf rule.head)), exSampledLosses st)) =
    Run.done ([([], [0, 1]), ([(1, 7)], [1]), ([(1, 2)], [0]), ([(1, 7)], [1]), ([(1, 2)], [0])],
      [43, 627 / 25, 5393 / 225, 3953 / 225, 34577 / 2025, 32309 / 2025]) := by
  decide +kernel

end MLRL.Tabular
