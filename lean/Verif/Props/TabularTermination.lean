import Verif.Props.BoostingTermination
import Verif.Props.TabularData

/-! # C82: boosting algorithms terminate on tabular data -/

namespace MLRL.Tabular

open FeatureSpace FeatureType Predictor Induction TrainingLoss RuleEval TabularData

section
variable {K T : Type} [Field K] [LinearOrder K] [IsStrictOrderedRing K] {cfg : Boosting.Config (Subspace Unit) K} {data : Data K T} {l1 l2 : K}
  {env : Env} {values : Nat → Nat → Option Rat}

/-- What is assumed for termination: there is at least one output, outputs that are sampled exist, rule evaluations are applied to arrays of
suitable sizes, evaluation measures do not fail, parameters of pruning are valid, and the number of rules or the time is limited. -/
structure Safe (cfg : Boosting.Config (Subspace Unit) K) (data : Data K T) : Prop where
  outputs : 0 < data.numOutputs
  sampled : ∀ k l, cfg.sampledOutputs k = some l → l ≠ [] ∧ ∀ j ∈ l, j < data.numOutputs
  evaluation : Boosting.TotalEvaluation cfg.evaluation
  defaultEvaluation : Boosting.TotalEvaluation cfg.defaultEvaluation
  environment : cfg.environment.Total data.numExamples (fun r : List K => r.length = data.numOutputs)
  pruning : Training.ValidPruning cfg.stopping.globalPruning
  limited : Training.Limited cfg.stopping cfg.environment.clock

theorem Trainable.total (h : Trainable cfg data env values l1 l2) (hs : Safe cfg data) :
    Boosting.TotalOk (cfg.using (reachable h.table) Subtype.val) data values l1 l2 where
  toComponentsOk := h.components
  outputs := hs.outputs
  sampled := hs.sampled
  evaluationTotal := hs.evaluation
  defaultTotal := hs.defaultEvaluation
  environment := hs.environment
  pruning := hs.pruning
  search := by
    intro f s stat hz
    have hz' : ∀ e, env.nonZero e = false → stat e = 0 := by
      intro e he
      rw [h.nonZero] at he
      exact hz e (by simpa using he)
    obtain ⟨conds, hconds⟩ := s.2
    obtain ⟨r, hr, _⟩ := searchFeature_ok h.table hconds f hz'
    refine ⟨r, ?_, fun c hc => ?_⟩
    · show cfg.searchFeature f s.1 stat = _
      rw [h.searchFeature]
      exact hr
    · obtain ⟨s', hs'⟩ := candidate_adds h.table s.2 hz' hr hc
      have h1 := reachable_filter h.table hs'
      rw [hs'.1] at h1
      show ∃ s'', (reachable h.table).filter s (Boosting.conditionOf f c) = .ok s''
      cases h2 : (reachable h.table).filter s (Boosting.conditionOf f c) with
      | error e => rw [h2] at h1; cases h1
      | ok s'' => exact ⟨s'', rfl⟩

/-- **C82** for tabular data: if the number of rules is limited or if there is a time limit, training terminates, and none of its parts fails, even if the
number of conditions is not limited. -/
theorem tabular_terminates_partial {update : T → K → Stat K} (h : Trainable cfg data env values l1 l2) (hs : Safe cfg data)
    (hu : Update.Laws cfg.updates data.numOutputs (fun r : List K => r.length = data.numOutputs) Update.denseValue (UpToDate data update))
    {cells : List (Update.Cell (List K) (List (Stat K)))}
    (hi : Training.Initial data.numExamples data.numOutputs (fun r : List K => r.length = data.numOutputs) Update.denseValue
      (UpToDate data update) cells) :
    ∃ bound st, ∀ fuel, bound ≤ fuel → cfg.setup.induceRules fuel cells = Run.done st := by
  obtain ⟨bound, st, h1⟩ := Boosting.boosting_terminates (h.total hs) hu hs.limited hi
  refine ⟨bound, st, fun fuel hf => ?_⟩
  rw [← h.training]
  exact h1 fuel hf

/-- **C82** for tabular data, including the removal of unused rules. -/
theorem tabular_fit_terminates_partial {update : T → K → Stat K} (h : Trainable cfg data env values l1 l2) (hs : Safe cfg data)
    (hu : Update.Laws cfg.updates data.numOutputs (fun r : List K => r.length = data.numOutputs) Update.denseValue (UpToDate data update))
    {cells : List (Update.Cell (List K) (List (Stat K)))}
    (hi : Training.Initial data.numExamples data.numOutputs (fun r : List K => r.length = data.numOutputs) Update.denseValue
      (UpToDate data update) cells) {post : Training.PostConfig (Subspace Unit) Boosting.Condition K K (List K) (List (Stat K))}
    (hseq : post.sequential = none) :
    ∃ bound r, ∀ fuel, bound ≤ fuel → cfg.setup.fit post fuel cells = Run.done r := by
  obtain ⟨bound, st, h1⟩ := tabular_terminates_partial h hs hu hi
  obtain ⟨st2, h2, _⟩ := Training.removePhase_total post.removeUnusedRules st
  refine ⟨bound + st.builder.rules.length + 1, ⟨st2.builder.buildModel true, st2.cells⟩, fun fuel hf => ?_⟩
  unfold Training.Setup.fit Training.optimize Training.sequentialPhase
  rw [h1 fuel (by omega), Run.done_bind, h2 fuel (by omega), Run.done_bind, hseq, Run.done_bind]

/-- **C82** for dense feature matrices: the training data is created, training terminates, the first rules of the model can be applied to the
rows of the matrix, and each rule that is added after the default rule decreases the loss of the predictions. -/
theorem matrix_terminates_partial {lib : Library} {info : FeatureInfo} {kind : Nat → Kind} {matrix : List (List FVal)} (hlib : lib.Ok)
    (hinfo : ∀ f < matrix.length, info.createFeatureType f = .ok (kind f))
    (hm : MatrixOk kind data.numExamples (fun e => decide (data.weight e ≠ 0)) matrix) :
    ∃ columns, createColumns lib info matrix = .ok columns ∧ ∀ minCoverage,
      Settings cfg data (createEnv lib columns data.numExamples minCoverage (fun e => decide (data.weight e ≠ 0))) l1 l2 → Safe cfg data →
      ∀ {update : T → K → Stat K} {evaluate : T → K → K} {factor : K},
        Update.Laws cfg.updates data.numOutputs (fun r : List K => r.length = data.numOutputs) Update.denseValue (UpToDate data update) →
        Majorised update evaluate factor → 0 < data.numExamples → ∀ cells,
          Training.Initial data.numExamples data.numOutputs (fun r : List K => r.length = data.numOutputs) Update.denseValue
            (UpToDate data update) cells →
          ∃ bound st, (∀ fuel, bound ≤ fuel → cfg.setup.induceRules fuel cells = Run.done st) ∧
          ∃ predicted : Nat → Nat → List K,
            (∀ m, Predicts matrix data.numExamples data.numOutputs (st.allRules.take m) (predicted m)) ∧
            ∀ m, (if cfg.useDefaultRule then 1 else 0) ≤ m → m < st.allRules.length →
              data.loss evaluate (fun e => Update.denseValue (predicted (m + 1) e)) < data.loss evaluate (fun e => Update.denseValue (predicted m e)) := by
  obtain ⟨columns, h1, h2⟩ := createColumns_ok hlib hinfo hm
  obtain ⟨columns', h1', h3⟩ := matrix_training_partial (cfg := cfg) (data := data) (l1 := l1) (l2 := l2) hlib hinfo hm
  rw [h1] at h1'
  cases h1'
  refine ⟨columns, h1, fun minCoverage hs hsafe update evaluate factor hu hmaj hn cells hi => ?_⟩
  obtain ⟨htable, _⟩ := h2 minCoverage
  obtain ⟨bound, st, h4⟩ := tabular_terminates_partial ⟨hs, htable⟩ hsafe hu hi
  exact ⟨bound, st, h4, h3 minCoverage hs hu hmaj hn cells hi bound st (h4 bound le_rfl)⟩

end

/-! ### Examples -/

/-- As in the example of C80, but the number of conditions is not limited, heads predict for several outputs, and the search is restricted to the
outputs of the head after the first condition. -/
def exUnlimited : Boosting.Config (Subspace Unit) ℚ :=
  { exTabular with
    grow := ⟨0, 0, 1⟩
    evaluation := Boosting.dynamicEvaluation (fun x => x * x) (1 / 50) 0 1 (fun outputs => outputs) (fun outputs => List.replicate outputs.length 0) }

theorem exUnlimited_ok : Trainable exUnlimited exData exEnv exTableValues 0 1 :=
  { exTabular_ok with evaluation := dynamic_scoring _ _ 0 1 (fun _ => rfl) (fun _ => by simp) }

theorem exUnlimited_safe : Safe exUnlimited exData where
  outputs := by decide
  sampled k l h := by cases h
  evaluation := Boosting.dynamic_total _ _ 0 1 (fun _ => rfl) (fun _ => by simp)
  defaultEvaluation := Boosting.complete_total 0 1 _ (fun _ => by simp)
  environment := ⟨fun _ _ _ _ => ⟨_, rfl⟩, fun i hi => by cases hi⟩
  pruning := trivial
  limited := Or.inl ⟨4, rfl⟩

example : ∃ bound st, ∀ fuel, bound ≤ fuel → exUnlimited.setup.induceRules fuel exCells = Run.done st :=
  tabular_terminates_partial exUnlimited_ok exUnlimited_safe exConfig_ok.updates exCells_initial

/-- The conditions of the rules that are learned and the losses of the models that consist of the first rules. -/
example : (exUnlimited.setup.induceRules 40 exCells >>= fun st => Run.done
      (st.allRules.map (fun rule => rule.conditions.map (fun c => (c.feature, c.threshold, c.numCovered))), exTabularLosses st)) =
    Run.done ([[], [(1, 7, 2)], [(1, 7, 2)], [(1, (7 : ℚ), 2)]], [45, 161 / 5, 129 / 5, 528 / 25, 13971 / 800]) := by decide +kernel

end MLRL.Tabular
