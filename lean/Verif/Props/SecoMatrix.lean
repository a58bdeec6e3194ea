import Verif.Model.SecoMatrix
import Verif.Props.SecoTraining
import Verif.Props.SparseData

/-!
# C88: separate-and-conquer algorithms on feature matrices
-/

namespace MLRL.SecoMatrix

open Predictor Induction Refinement Seco Statistics Stopping SecoTraining

section
variable {K : Type} [Field K] [LinearOrder K] [IsStrictOrderedRing K]
variable {cfg : SecoTraining.Config K} {label : Nat → Nat → Bool} {values : Nat → Nat → Option Rat} {h : Heuristic K}

/-- The model that is created from the rules that have been learned. -/
theorem seco_model (hok : ConfigOk cfg label values h) {memory : List Nat} (hmem : memory.length = cfg.numOutputs) {fuel : Nat}
    {r : Fitted K} (hr : cfg.fit memory fuel = Run.done r) (hlen : r.model.rules.length + 1 < 2 ^ 32) {rows : Nat → List FVal}
    (hrows : ∀ k, Tabular.RowsOk (cfg.rounds k).env cfg.numExamples values rows) (hn : 0 < cfg.numExamples) :
    ∃ model, createModel r.model = .ok model ∧ ∀ limit,
      model.usedToList limit = .ok ((usedRules r.model.rules cfg.useDefaultRule limit).map storedRule ++
        (if cfg.useDefaultRule then [⟨.empty, majorityHead cfg.numOutputs r.majority⟩] else [])) ∧
      ∀ rule ∈ usedRules r.model.rules cfg.useDefaultRule limit, MinorityHead cfg.numOutputs r.majority rule.head ∧
        ∀ e < cfg.numExamples, (storedRule rule).body.coversDense (rows e) = .ok (rule.conditions.all (fun c => c.holds values e)) := by
  obtain ⟨st, rfl, ht, hdef, _⟩ := fit_trained hok hmem hr (by omega)
  rw [IntermediateModelBuilder.buildModel_eq] at hlen ⊢
  simp only at hlen ⊢
  generalize hmaj : majorityLabels cfg.numExamples cfg.numOutputs label = majority at ht hdef ⊢
  have hcreate : ∀ rule ∈ st.builder.rules, Tabular.createBody rule.conditions = .ok (bodyOf rule.conditions) := by
    intro rule hrule
    obtain ⟨b, hb, _⟩ := rule_covers hrows hn (ht.typed rule hrule)
    unfold bodyOf
    rw [hb]
  have hcovers : ∀ rule ∈ st.builder.rules, ∀ e < cfg.numExamples,
      (bodyOf rule.conditions).coversDense (rows e) = .ok (rule.conditions.all (fun c => c.holds values e)) := by
    intro rule hrule e he
    obtain ⟨b, hb, hcov⟩ := rule_covers hrows hn (ht.typed rule hrule)
    unfold bodyOf
    rw [hb]
    exact hcov e he
  have hmapM : st.builder.rules.mapM Tabular.createRule = .ok (st.builder.rules.map storedRule) := Tabular.createRules hcreate
  refine ⟨⟨false, st.builder.defaultRule.map (fun d => ⟨.empty, d.head⟩), st.builder.rules.map storedRule, st.builder.numUsedRules⟩, ?_, ?_⟩
  · unfold createModel
    simp only
    rw [hmapM, ok_bind, hdef]
    cases cfg.useDefaultRule <;> rfl
  intro limit
  have hsub : ∀ rule ∈ usedRules st.builder.rules cfg.useDefaultRule limit, rule ∈ st.builder.rules := by
    intro rule hrule
    unfold usedRules at hrule
    split at hrule
    · exact hrule
    · exact List.mem_of_mem_take hrule
  refine ⟨?_, fun rule hrule => ⟨ht.heads rule (hsub rule hrule), fun e he => hcovers rule (hsub rule hrule) e he⟩⟩
  have hmodel := IntermediateModelBuilder.usedToList_eq false
    (⟨st.builder.defaultRule.map (fun d => ⟨.empty, d.head⟩), st.builder.rules.map storedRule, st.builder.numUsedRules⟩ :
      IntermediateModelBuilder (Predictor.Rule K)) limit (by rw [List.length_map]; exact hlen) (by rw [ht.used]; exact Nat.zero_le _)
  rw [IntermediateModelBuilder.buildModel_eq] at hmodel
  refine hmodel.trans (congrArg Except.ok ?_)
  rw [ht.used]
  unfold RuleList.Spec.firstRules usedRules IntermediateModelBuilder.getNumRules
  rw [hdef]
  cases cfg.useDefaultRule with
  | false =>
    by_cases hl : limit = 0
    · simp [hl]
    · simp [hl, List.map_take]
      omega
  | true =>
    by_cases hl : limit = 0
    · simp [hl]
    · simp [hl, List.map_take]
      omega

/-- **C88**, sparse predictions: the labels that are predicted for a training example are those for which a rule predicts that they are relevant and, if
there is a default rule, all majority labels, no matter if another rule predicts that they are irrelevant. -/
theorem seco_sparse_prediction_partial (hok : ConfigOk cfg label values h) {memory : List Nat} (hmem : memory.length = cfg.numOutputs) {fuel : Nat}
    {r : Fitted K} (hr : cfg.fit memory fuel = Run.done r) (hlen : r.model.rules.length + 1 < 2 ^ 32) {rows : Nat → List FVal}
    (hrows : ∀ k, Tabular.RowsOk (cfg.rounds k).env cfg.numExamples values rows) (hn : 0 < cfg.numExamples) :
    ∃ model, createModel r.model = .ok model ∧ ∀ limit, ∀ e < cfg.numExamples, ∃ labels,
      DecisionList.predictSparse cfg.numOutputs model limit (rows e) = .ok labels ∧ labels.Pairwise (· < ·) ∧
      ∀ j, j ∈ labels ↔ j < cfg.numOutputs ∧ if j ∈ r.majority then cfg.useDefaultRule = true
        else coveredBy values (usedRules r.model.rules cfg.useDefaultRule limit) e j = true := by
  obtain ⟨model, h1, h2⟩ := seco_model hok hmem hr hlen hrows hn
  refine ⟨model, h1, fun limit e he => ?_⟩
  obtain ⟨h3, h4⟩ := h2 limit
  generalize usedRules r.model.rules cfg.useDefaultRule limit = used at h3 h4 ⊢
  have hcovered : ∀ x ∈ used, storedCovers (rows e) (storedRule x) = x.conditions.all (fun c => c.holds values e) := by
    intro x hx
    have := (h4 x hx).2 e he
    unfold storedCovers
    rw [this]
  obtain ⟨labels, p1, p2, p3⟩ := DecisionList.sparse_some_rule cfg.numOutputs model limit (rows e) _ h3 (storedCovers (rows e)) (by
      intro rule hrule
      rcases List.mem_append.1 hrule with hrule | hrule
      · obtain ⟨x, hx, rfl⟩ := List.mem_map.1 hrule
        rw [(h4 x hx).2 e he, hcovered x hx]
      · cases huse : cfg.useDefaultRule with
        | false => rw [huse] at hrule; cases hrule
        | true =>
          rw [huse] at hrule
          rw [List.mem_singleton.1 hrule]
          rfl) (by
      intro rule hrule
      rcases List.mem_append.1 hrule with hrule | hrule
      · obtain ⟨x, hx, rfl⟩ := List.mem_map.1 hrule
        obtain ⟨indices, hi, _, _, hi2⟩ := (h4 x hx).1
        show Predictor.Spec.HeadFits _ x.head
        rw [hi]
        intro y hy
        obtain ⟨j, hj, rfl⟩ := List.mem_map.1 hy
        exact hi2 j hj
      · cases huse : cfg.useDefaultRule with
        | false => rw [huse] at hrule; cases hrule
        | true =>
          rw [huse] at hrule
          rw [List.mem_singleton.1 hrule]
          simp [majorityHead, Predictor.Spec.HeadFits]) (by
      intro rule hrule
      rcases List.mem_append.1 hrule with hrule | hrule
      · obtain ⟨x, hx, rfl⟩ := List.mem_map.1 hrule
        obtain ⟨indices, hi, _, hi2, _⟩ := (h4 x hx).1
        show DecisionList.Spec.HeadSorted x.head
        rw [hi]
        simpa [DecisionList.Spec.HeadSorted, List.map_map, Function.comp_def] using hi2
      · cases huse : cfg.useDefaultRule with
        | false => rw [huse] at hrule; cases hrule
        | true =>
          rw [huse] at hrule
          rw [List.mem_singleton.1 hrule]
          trivial)
  refine ⟨labels, p1, p2, fun j => (p3 j).trans ?_⟩
  constructor
  · rintro ⟨rule, hrule, hcov, v, hv, hp⟩
    rcases List.mem_append.1 hrule with hrule | hrule
    · obtain ⟨x, hx, rfl⟩ := List.mem_map.1 hrule
      have hh := (h4 x hx).1
      obtain ⟨q1, q2⟩ := (predicts_iff hh).1 hp
      rw [hcovered x hx] at hcov
      obtain ⟨indices, hi, _, _, hi2⟩ := hh
      have hj : j < cfg.numOutputs := by
        rw [show (storedRule x).head = x.head from rfl, hi] at hp
        obtain ⟨i, hi3, heq⟩ := List.mem_map.1 hp
        cases heq
        exact hi2 _ hi3
      refine ⟨hj, ?_⟩
      by_cases hm : j ∈ r.majority
      · refine absurd ?_ hv
        rw [q2]
        unfold inverseMajority
        rw [if_pos hm]
      · rw [if_neg hm]
        exact List.any_eq_true.2 ⟨x, hx, by rw [hcov]; exact q1⟩
    · cases huse : cfg.useDefaultRule with
      | false => rw [huse] at hrule; cases hrule
      | true =>
        rw [huse] at hrule
        rw [List.mem_singleton.1 hrule] at hp
        have hp : ((List.range cfg.numOutputs).map (fun j => if j ∈ r.majority then (1 : K) else 0))[j]? = some v := hp
        obtain ⟨hlt, _⟩ := List.getElem?_eq_some_iff.1 hp
        have hj : j < cfg.numOutputs := by simpa using hlt
        rw [List.getElem?_map, List.getElem?_range hj, Option.map_some] at hp
        cases hp
        refine ⟨hj, ?_⟩
        by_cases hm : j ∈ r.majority
        · rw [if_pos hm]
        · rw [if_neg hm] at hv
          exact absurd rfl hv
  · rintro ⟨hj, hc⟩
    by_cases hm : j ∈ r.majority
    · rw [if_pos hm] at hc
      rw [hc]
      refine ⟨⟨.empty, majorityHead cfg.numOutputs r.majority⟩, by simp, rfl, 1, one_ne_zero, ?_⟩
      show ((List.range cfg.numOutputs).map (fun j => if j ∈ r.majority then (1 : K) else 0))[j]? = some 1
      rw [List.getElem?_map, List.getElem?_range hj, Option.map_some, if_pos hm]
    · rw [if_neg hm] at hc
      obtain ⟨x, hx, hxc⟩ := List.any_eq_true.1 hc
      rw [Bool.and_eq_true] at hxc
      refine ⟨storedRule x, List.mem_append_left _ (List.mem_map_of_mem hx), by rw [hcovered x hx]; exact hxc.1, 1, one_ne_zero, ?_⟩
      refine (predicts_iff (h4 x hx).1).2 ⟨hxc.2, ?_⟩
      unfold inverseMajority
      rw [if_neg hm]

/-- **C88**, sparse predictions (negation): for a training example, the dense and the sparse predictor predict the same labels if and only if there is no
default rule or the rules that are used do not cover any majority label of the example. -/
theorem seco_predictors_agree_iff (hok : ConfigOk cfg label values h) {memory : List Nat} (hmem : memory.length = cfg.numOutputs) {fuel : Nat}
    {r : Fitted K} (hr : cfg.fit memory fuel = Run.done r) (hlen : r.model.rules.length + 1 < 2 ^ 32) {rows : Nat → List FVal}
    (hrows : ∀ k, Tabular.RowsOk (cfg.rounds k).env cfg.numExamples values rows) (hn : 0 < cfg.numExamples) :
    ∃ model, createModel r.model = .ok model ∧ ∀ limit, ∀ e < cfg.numExamples, ∃ dense sparse,
      DecisionList.predictDense cfg.numOutputs model limit (rows e) = .ok dense ∧
      DecisionList.predictSparse cfg.numOutputs model limit (rows e) = .ok sparse ∧
      ((∀ j, dense[j]? = some (some true) ↔ j ∈ sparse) ↔
        (cfg.useDefaultRule = true → ∀ j ∈ r.majority, coveredBy values (usedRules r.model.rules cfg.useDefaultRule limit) e j = false)) := by
  obtain ⟨model, h1, h2⟩ := seco_prediction_partial hok hmem hr hlen hrows hn
  obtain ⟨model', h1', h3⟩ := seco_sparse_prediction_partial hok hmem hr hlen hrows hn
  rw [h1] at h1'
  cases h1'
  obtain ⟨hmajority, _⟩ := seco_coverage_partial hok hmem hr (by omega)
  refine ⟨model, h1, fun limit e he => ?_⟩
  obtain ⟨labels, h4, _, h5⟩ := h3 limit e he
  refine ⟨_, labels, h2 limit e he, h4, ?_⟩
  generalize usedRules r.model.rules cfg.useDefaultRule limit = used at h5 ⊢
  have hget : ∀ j, ((List.range cfg.numOutputs).map (fun j => some (prediction cfg.useDefaultRule r.majority values used e j)))[j]? =
      some (some true) ↔ j < cfg.numOutputs ∧ prediction cfg.useDefaultRule r.majority values used e j = true := by
    intro j
    by_cases hj : j < cfg.numOutputs
    · rw [List.getElem?_map, List.getElem?_range hj]
      simp [hj]
    · rw [List.getElem?_eq_none (by simp; omega)]
      simp [hj]
  constructor
  · intro hall huse j hj
    have hlt : j < cfg.numOutputs := ((hmajority j).1 hj).1
    have hiff := (hget j).symm.trans ((hall j).trans (h5 j))
    rw [if_pos hj] at hiff
    have hp := (hiff.2 ⟨hlt, huse⟩).2
    unfold prediction at hp
    by_contra hc
    rw [if_pos (Bool.eq_true_of_not_eq_false hc)] at hp
    simp [hj] at hp
  · intro hno j
    rw [hget, h5]
    refine and_congr_right (fun hlt => ?_)
    unfold prediction
    by_cases hm : j ∈ r.majority
    · rw [if_pos hm]
      cases huse : cfg.useDefaultRule with
      | false =>
        cases coveredBy values used e j <;> simp [hm]
      | true =>
        rw [hno huse j hm]
        simp [hm]
    · rw [if_neg hm]
      cases coveredBy values used e j <;> simp [hm]

/-! ### Feature matrices -/

/-- What is assumed about a separate-and-conquer algorithm, except for the training data: the feature space of each round is created from the given
vectors and the weights of the round. -/
structure Settings (cfg : SecoTraining.Config K) (label : Nat → Nat → Bool) (h : Heuristic K) (lib : TabularData.Library)
    (vectors : List FeatureSpace.FeatureVector) : Prop where
  labels : IsLabels cfg.numExamples cfg.numOutputs label cfg.labels
  outputs : 0 < cfg.numOutputs
  evaluation : Supported cfg.numOutputs h cfg.evaluation
  env : ∀ k, ∃ minCoverage, (cfg.rounds k).env =
    TabularData.createEnv lib vectors cfg.numExamples minCoverage (fun e => decide (weightAt (cfg.rounds k).weights e ≠ 0))
  weights : ∀ k, WeightsOk cfg.numExamples (cfg.rounds k).weights
  nonneg : ∀ k, ∀ e < cfg.numExamples, 0 ≤ weightAt (cfg.rounds k).weights e
  sampled : ∀ k l, (cfg.rounds k).sampledOutputs = some l → l ≠ [] ∧ l.Pairwise (· < ·) ∧ ∀ j ∈ l, j < cfg.numOutputs
  schedule : ∀ k i candidates, Interleaving candidates ((cfg.rounds k).searchSchedule i candidates)

theorem Settings.ok {lib : TabularData.Library} {vectors : List FeatureSpace.FeatureVector} (hs : Settings cfg label h lib vectors)
    (htable : ∀ k minCoverage, (TabularData.createEnv lib vectors cfg.numExamples minCoverage
      (fun e => decide (weightAt (cfg.rounds k).weights e ≠ 0))).Ok cfg.numExamples values) : ConfigOk cfg label values h where
  labels := hs.labels
  outputs := hs.outputs
  evaluation := hs.evaluation
  rounds k := by
    obtain ⟨minCoverage, he⟩ := hs.env k
    exact ⟨by rw [he]; exact htable k minCoverage, hs.weights k, hs.nonneg k, fun e _ => by rw [he]; rfl, hs.sampled k, hs.schedule k⟩

/-- Whether training ends: the number of rules is limited or the heuristic assigns the quality zero to rules that do not cover any uncovered label
correctly. If there is a default rule, there are at least as many labels as examples (C83). -/
structure Ending (cfg : SecoTraining.Config K) (h : Heuristic K) : Prop where
  default : cfg.useDefaultRule = true → cfg.numExamples ≤ cfg.numOutputs
  limited : (Progressive h ∧ cfg.numExamples * cfg.numOutputs + 1 < 2 ^ 32) ∨ ∃ N, cfg.maxRules = some N ∧ N + 1 < 2 ^ 32

/-- The number of wrong predictions. Each covered label reduces the sum of the weights of uncovered labels, even if its value is the majority value. Hence,
each label that has the majority value and is predicted not to have it must be added twice. -/
def Errors (cfg : SecoTraining.Config K) (label : Nat → Nat → Bool) (r : Fitted K) (predicted : Nat → Nat → Bool) : Prop :=
  (numCells cfg.numExamples cfg.numOutputs (fun e j => predicted e j ≠ label e j) : K) =
    r.matrix.sumOfUncoveredWeights + 2 * (numCells cfg.numExamples cfg.numOutputs
      (fun e j => predicted e j ≠ decide (j ∈ r.majority) ∧ label e j = decide (j ∈ r.majority)) : K)

/-- Training ends, and the labels of training examples are predicted. -/
theorem seco_rows (hok : ConfigOk cfg label values h) (hend : Ending cfg h) {memory : List Nat} (hmem : memory.length = cfg.numOutputs)
    {rows : Nat → List FVal} (hrows : ∀ k, Tabular.RowsOk (cfg.rounds k).env cfg.numExamples values rows) (hn : 0 < cfg.numExamples) :
    ∃ bound r model, (∀ fuel, bound ≤ fuel → cfg.fit memory fuel = Run.done r) ∧ createModel r.model = .ok model ∧ ∃ predicted : Nat → Nat → Nat → Bool,
      (∀ limit, ∀ e < cfg.numExamples,
        DecisionList.predictDense cfg.numOutputs model limit (rows e) = .ok ((List.range cfg.numOutputs).map (fun j => some (predicted limit e j)))) ∧
      (∀ limit, ∀ e < cfg.numExamples, ∃ labels, DecisionList.predictSparse cfg.numOutputs model limit (rows e) = .ok labels ∧
        labels.Pairwise (· < ·) ∧ ∀ j, j ∈ labels ↔ j < cfg.numOutputs ∧
          (predicted limit e j = true ∨ cfg.useDefaultRule = true ∧ j ∈ r.majority)) ∧
      (cfg.useDefaultRule = true ∨ r.majority = [] → Errors cfg label r (predicted 0)) := by
  have hb : (Progressive h ∧ cfg.numExamples * cfg.numOutputs + 1 < 2 ^ 32) ∨ ∃ N, cfg.maxRules = some N ∧ N < 2 ^ 32 :=
    hend.limited.imp id (fun ⟨N, h1, h2⟩ => ⟨N, h1, by omega⟩)
  obtain ⟨bound, r, h1, h2, h3, h4⟩ := seco_terminates_partial hok hmem hend.default hb
  have hlen : r.model.rules.length + 1 < 2 ^ 32 := by
    rcases hend.limited with ⟨hp, hlt⟩ | ⟨N, hN, hlt⟩
    · have := h4 hp hlt
      omega
    · have := h3 N hN (by omega)
      omega
  have hr := h1 bound (Nat.le_refl _)
  obtain ⟨model, h5, h6⟩ := seco_prediction_partial hok hmem hr hlen hrows hn
  obtain ⟨model', h5', h7⟩ := seco_sparse_prediction_partial hok hmem hr hlen hrows hn
  rw [h5] at h5'
  cases h5'
  refine ⟨bound, r, model, h1, h5, fun limit e j => prediction cfg.useDefaultRule r.majority values (usedRules r.model.rules cfg.useDefaultRule limit) e j,
    h6, fun limit e he => ?_, fun hd => ?_⟩
  · obtain ⟨labels, g1, g2, g3⟩ := h7 limit e he
    refine ⟨labels, g1, g2, fun j => (g3 j).trans (and_congr_right (fun _ => ?_))⟩
    beta_reduce
    unfold prediction
    generalize coveredBy values (usedRules r.model.rules cfg.useDefaultRule limit) e j = covered
    by_cases hm : j ∈ r.majority
    · rw [if_pos hm]
      cases cfg.useDefaultRule <;> cases covered <;> simp [hm]
    · rw [if_neg hm]
      cases covered <;> simp [hm]
  · unfold Errors
    beta_reduce
    have hused : usedRules r.model.rules cfg.useDefaultRule 0 = r.model.rules := by simp [usedRules]
    rw [hused, seco_errors_partial hok hmem hr (by omega) hd]
    congr 3
    refine numCells_congr (fun e _ j _ => and_congr_left (fun _ => ?_))
    have hunc : (cfg.useDefaultRule && decide (j ∈ r.majority)) = decide (j ∈ r.majority) := by
      rcases hd with hd | hd
      · rw [hd]; rfl
      · rw [hd]; simp
    unfold prediction
    rw [hunc]
    cases coveredBy values r.model.rules e j <;> cases decide (j ∈ r.majority) <;> simp

variable {lib : TabularData.Library} {info : TabularData.FeatureInfo} {kind : Nat → TabularData.Kind}

/-- **C88**, dense matrices: the vectors of all features are created, training ends, a model is created, and the labels of each row are predicted. The
number of wrong predictions follows from the coverage matrix. -/
theorem seco_dense_matrix_partial {matrix : List (List FVal)} (hlib : lib.Ok) (hinfo : ∀ f < matrix.length, info.createFeatureType f = .ok (kind f))
    (hm : ∀ k, TabularData.MatrixOk kind cfg.numExamples (fun e => decide (weightAt (cfg.rounds k).weights e ≠ 0)) matrix) :
    ∃ vectors, TabularData.createColumns lib info matrix = .ok vectors ∧
      (Settings cfg label h lib vectors → Ending cfg h → 0 < cfg.numExamples → ∀ memory : List Nat, memory.length = cfg.numOutputs →
        ∃ bound r model, (∀ fuel, bound ≤ fuel → cfg.fit memory fuel = Run.done r) ∧ createModel r.model = .ok model ∧
          ∃ predicted : Nat → Nat → Nat → Bool,
            (∀ limit, ∀ e < cfg.numExamples, ∃ values, TabularData.row matrix e = .ok values ∧
              DecisionList.predictDense cfg.numOutputs model limit values = .ok ((List.range cfg.numOutputs).map (fun j => some (predicted limit e j)))) ∧
            (cfg.useDefaultRule = true ∨ r.majority = [] → Errors cfg label r (predicted 0))) := by
  obtain ⟨vectors, h1, h2⟩ := TabularData.createColumns_ok hlib hinfo (hm 0)
  refine ⟨vectors, h1, fun hs hend hn memory hmem => ?_⟩
  have hall : ∀ k minCoverage, (TabularData.createEnv lib vectors cfg.numExamples minCoverage
      (fun e => decide (weightAt (cfg.rounds k).weights e ≠ 0))).Ok cfg.numExamples (TabularData.value kind matrix) ∧ ∃ rows,
      (∀ e < cfg.numExamples, TabularData.row matrix e = .ok (rows e)) ∧ Tabular.RowsOk (TabularData.createEnv lib vectors cfg.numExamples minCoverage
        (fun e => decide (weightAt (cfg.rounds k).weights e ≠ 0))) cfg.numExamples (TabularData.value kind matrix) rows := by
    intro k minCoverage
    obtain ⟨vectors', h1', h2'⟩ := TabularData.createColumns_ok hlib hinfo (hm k)
    rw [h1] at h1'
    cases h1'
    exact h2' minCoverage
  obtain ⟨_, rows, hrow, _⟩ := h2 0
  have hok : ConfigOk cfg label (TabularData.value kind matrix) h := hs.ok (fun k minCoverage => (hall k minCoverage).1)
  obtain ⟨bound, r, model, g1, g2, predicted, g3, _, g4⟩ := seco_rows hok hend hmem (rows := rows) (fun k => by
    obtain ⟨minCoverage, he⟩ := hs.env k
    rw [he]
    obtain ⟨_, rows', hrow', hrows'⟩ := hall k minCoverage
    intro e he f
    have : rows e = rows' e := Except.ok.inj ((hrow e he).symm.trans (hrow' e he))
    rw [this]
    exact hrows' e he f) hn
  exact ⟨bound, r, model, g1, g2, predicted, fun limit e he => ⟨rows e, hrow e he, g3 limit e he⟩, g4⟩

/-- A row of a sparse matrix is treated like that of a dense matrix with the same elements. -/
theorem predict_eq_dense {csr : SparseData.SparseView} {matrix : Nat → Nat → FVal} (hd : SparseData.Denotes csr (fun e f => matrix f e)) {e : Nat}
    (he : e < csr.numMajor) (numLabels : Nat) (model : RuleList (Predictor.Rule K)) (limit : Nat) :
    predictDense numLabels model limit csr e = DecisionList.predictDense numLabels model limit ((List.range csr.numMinor).map (fun f => matrix f e)) ∧
      predictSparse numLabels model limit csr e =
        DecisionList.predictSparse numLabels model limit ((List.range csr.numMinor).map (fun f => matrix f e)) := by
  obtain ⟨a, b, row, _, _, hslice, _, hvalid, _, hlook⟩ := SparseData.slice_ok hd he
  obtain ⟨h1, h2⟩ := DecisionList.predict_csr_eq (K := K) numLabels csr.numMinor model limit row (some csr.sparseValue) hvalid.nodup hvalid.lt
  unfold predictDense predictSparse
  rw [hslice, ok_bind, ok_bind, h1, h2, SparseData.toDense_eq hlook]
  exact ⟨rfl, rfl⟩

/-- **C88**, sparse matrices: training on a CSC matrix and predictions for the rows of a CSR matrix with the same elements. -/
theorem seco_sparse_matrix_partial {csc csr : SparseData.SparseView} {matrix : Nat → Nat → FVal} (hlib : lib.Ok)
    (hinfo : ∀ f < csc.numMajor, info.createFeatureType f = .ok (kind f)) (hexamples : csc.numMinor = cfg.numExamples)
    (hm : ∀ k, SparseData.SparseOk kind (fun e => decide (weightAt (cfg.rounds k).weights e ≠ 0)) csc matrix)
    (hcsr : SparseData.Denotes csr (fun e f => matrix f e)) (hmajor : csr.numMajor = csc.numMinor) (hminor : csr.numMinor = csc.numMajor) :
    ∃ vectors, SparseData.createColumns lib info csc = .ok vectors ∧
      (Settings cfg label h lib vectors → Ending cfg h → 0 < cfg.numExamples → ∀ memory : List Nat, memory.length = cfg.numOutputs →
        ∃ bound r model, (∀ fuel, bound ≤ fuel → cfg.fit memory fuel = Run.done r) ∧ createModel r.model = .ok model ∧
          ∃ predicted : Nat → Nat → Nat → Bool,
            (∀ limit, ∀ e < cfg.numExamples,
              predictDense cfg.numOutputs model limit csr e = .ok ((List.range cfg.numOutputs).map (fun j => some (predicted limit e j)))) ∧
            (∀ limit, ∀ e < cfg.numExamples, ∃ labels, predictSparse cfg.numOutputs model limit csr e = .ok labels ∧ labels.Pairwise (· < ·) ∧
              ∀ j, j ∈ labels ↔ j < cfg.numOutputs ∧ (predicted limit e j = true ∨ cfg.useDefaultRule = true ∧ j ∈ r.majority)) ∧
            (cfg.useDefaultRule = true ∨ r.majority = [] → Errors cfg label r (predicted 0))) := by
  obtain ⟨vectors, h1, h2⟩ := SparseData.createColumns_ok hlib hinfo (hm 0)
  refine ⟨vectors, h1, fun hs hend hn memory hmem => ?_⟩
  have hall : ∀ k minCoverage, (TabularData.createEnv lib vectors csc.numMinor minCoverage
      (fun e => decide (weightAt (cfg.rounds k).weights e ≠ 0))).Ok csc.numMinor
        (TabularData.value kind (SparseData.columns csc.numMajor csc.numMinor matrix)) ∧
      Tabular.RowsOk (TabularData.createEnv lib vectors csc.numMinor minCoverage (fun e => decide (weightAt (cfg.rounds k).weights e ≠ 0)))
        csc.numMinor (TabularData.value kind (SparseData.columns csc.numMajor csc.numMinor matrix))
        (fun e => (List.range csc.numMajor).map (fun f => matrix f e)) := by
    intro k minCoverage
    obtain ⟨vectors', h1', h2'⟩ := SparseData.createColumns_ok hlib hinfo (hm k)
    rw [h1] at h1'
    cases h1'
    exact h2' minCoverage
  rw [hexamples] at hall
  have hok : ConfigOk cfg label (TabularData.value kind (SparseData.columns csc.numMajor cfg.numExamples matrix)) h :=
    hs.ok (fun k minCoverage => (hall k minCoverage).1)
  obtain ⟨bound, r, model, g1, g2, predicted, g3, g4, g5⟩ := seco_rows hok hend hmem
    (rows := fun e => (List.range csc.numMajor).map (fun f => matrix f e)) (fun k => by
      obtain ⟨minCoverage, he⟩ := hs.env k
      rw [he]
      exact (hall k minCoverage).2) hn
  refine ⟨bound, r, model, g1, g2, predicted, fun limit e he => ?_, fun limit e he => ?_, g5⟩
  · rw [(predict_eq_dense hcsr (by omega) _ _ _).1, hminor]
    exact g3 limit e he
  · rw [(predict_eq_dense hcsr (by omega) _ _ _).2, hminor]
    exact g4 limit e he

end

/-! ### Concrete cases -/

/-- The labels of the example of C83 and the features of the examples of C81 and C86. -/
def exConfig (vectors : List FeatureSpace.FeatureVector) : SecoTraining.Config ℚ where
  numExamples := 4
  numOutputs := 4
  labels := .dense exLabels
  grow := ⟨1, 0, 0⟩
  evaluation := singleEvaluation .precision
  useDefaultRule := true
  rounds _ := ⟨TabularData.createEnv TabularData.exLibrary vectors 4 1 (fun e => decide (weightAt (.equal 4 : Weights ℚ) e ≠ 0)), .equal 4,
    fun _ => [0, 1, 2, 3], none, fun _ => Induction.sequentially⟩
  maxRules := none
  timeLimit := none
  threshold := some 0
  clock n := n

def exLabel (i j : Nat) : Bool := (exLabels[i * 4 + j]?).getD false

theorem exConfig_settings (vectors : List FeatureSpace.FeatureVector) :
    Settings (exConfig vectors) exLabel .precision TabularData.exLibrary vectors where
  labels := exPrecision_ok.labels
  outputs := (by decide : 0 < 4)
  evaluation := .single _
  env k := ⟨1, rfl⟩
  weights k := rfl
  nonneg k e _ := zero_le_one
  sampled k l hl := by cases hl
  schedule k i candidates := Induction.sequentially_interleaving candidates

theorem exConfig_ending (vectors : List FeatureSpace.FeatureVector) : Ending (exConfig vectors) .precision :=
  ⟨fun _ => Nat.le_refl 4, Or.inl ⟨.precision, (by decide : 4 * 4 + 1 < 2 ^ 32)⟩⟩

theorem exWeights (k : Nat) (vectors : List FeatureSpace.FeatureVector) :
    ∀ e < 4, decide (weightAt ((exConfig vectors).rounds k).weights e ≠ 0) = true := by
  show ∀ e < 4, decide (weightAt (.equal 4 : Weights ℚ) e ≠ 0) = true
  decide +kernel

/-- Training on the dense matrix of C81. -/
example (info : TabularData.BitFeatureInfo)
    (hinfo : TabularData.exCalls.foldlM (fun info c => TabularData.BitFeatureInfo.set info c.1 c.2) (.create 4) = .ok info)
    (vectors : List FeatureSpace.FeatureVector) (hv : TabularData.createColumns TabularData.exLibrary (.mixed info) TabularData.exMatrix = .ok vectors) :
    ∃ bound r model, (∀ fuel, bound ≤ fuel → (exConfig vectors).fit [0, 0, 0, 0] fuel = Run.done r) ∧ createModel r.model = .ok model ∧
      ∃ predicted : Nat → Nat → Nat → Bool,
        (∀ limit, ∀ e < 4, ∃ values, TabularData.row TabularData.exMatrix e = .ok values ∧
          DecisionList.predictDense 4 model limit values = .ok ((List.range 4).map (fun j => some (predicted limit e j)))) ∧
        Errors (exConfig vectors) exLabel r (predicted 0) := by
  obtain ⟨info', h1, h2⟩ := TabularData.featureInfo_correct (n := 4) (calls := TabularData.exCalls) (by decide)
  rw [hinfo] at h1
  cases h1
  obtain ⟨vectors', h3, h4⟩ := seco_dense_matrix_partial (cfg := exConfig vectors) (label := exLabel) (h := .precision)
    (info := .mixed info) (matrix := TabularData.exMatrix) TabularData.exLibrary_ok h2
    (fun k => { TabularData.exMatrix_ok with ordinal := fun f _ _ e he => exWeights k vectors e he })
  rw [hv] at h3
  cases h3
  obtain ⟨bound, r, model, g1, g2, predicted, g3, g4⟩ := h4 (exConfig_settings _) (exConfig_ending _) (by decide : 0 < 4) [0, 0, 0, 0] rfl
  exact ⟨bound, r, model, g1, g2, predicted, g3, g4 (Or.inl rfl)⟩

/-- Training on the sparse matrix of C86. -/
example (info : TabularData.BitFeatureInfo)
    (hinfo : TabularData.exCalls.foldlM (fun info c => TabularData.BitFeatureInfo.set info c.1 c.2) (.create 4) = .ok info)
    (vectors : List FeatureSpace.FeatureVector) (hv : SparseData.createColumns TabularData.exLibrary (.mixed info) SparseData.exCsc = .ok vectors) :
    ∃ bound r model, (∀ fuel, bound ≤ fuel → (exConfig vectors).fit [0, 0, 0, 0] fuel = Run.done r) ∧ createModel r.model = .ok model ∧
      ∃ predicted : Nat → Nat → Nat → Bool,
        (∀ limit, ∀ e < 4, predictDense 4 model limit SparseData.exCsr e = .ok ((List.range 4).map (fun j => some (predicted limit e j)))) ∧
        Errors (exConfig vectors) exLabel r (predicted 0) := by
  obtain ⟨info', h1, h2⟩ := TabularData.featureInfo_correct (n := 4) (calls := TabularData.exCalls) (by decide)
  rw [hinfo] at h1
  cases h1
  obtain ⟨vectors', h3, h4⟩ := seco_sparse_matrix_partial (cfg := exConfig vectors) (label := exLabel) (h := .precision) (csc := SparseData.exCsc)
    (csr := SparseData.exCsr) TabularData.exLibrary_ok h2 rfl
    (fun k => { SparseData.exCsc_ok with ordinal := fun f _ _ e he => exWeights k vectors e he }) SparseData.exCsr_denotes rfl rfl
  rw [hv] at h3
  cases h3
  obtain ⟨bound, r, model, g1, g2, predicted, g3, _, g4⟩ := h4 (exConfig_settings _) (exConfig_ending _) (by decide : 0 < 4) [0, 0, 0, 0] rfl
  exact ⟨bound, r, model, g1, g2, predicted, g3, g4 (Or.inl rfl)⟩

/-- The number of rules, the sum of the weights of uncovered labels and the predictions for the rows of the sparse matrix. -/
def exPredictions (r : Run (Fitted ℚ)) : Option (Nat × ℚ × List (List (Option Bool)) × List (List Nat)) :=
  match (r >>= fun r => do
    let model ← Run.lift (createModel r.model)
    let dense ← Run.lift ((List.range 4).mapM (predictDense 4 model 0 SparseData.exCsr))
    let sparse ← Run.lift ((List.range 4).mapM (predictSparse 4 model 0 SparseData.exCsr))
    Run.done (r.model.rules.length, r.matrix.sumOfUncoveredWeights, dense, sparse) : Run (Nat × ℚ × List (List (Option Bool)) × List (List Nat))).run with
  | some (.ok x) => some x
  | _ => none

/-- **C88**, sparse predictions (witness): on the sparse matrix, the seven rules fit all labels, but the sparse predictor predicts the second label for the
second example, which does not have it. -/
theorem sparse_predictions_fail : exPredictions ((exConfig SparseData.exVectors).fit [0, 0, 0, 0] 20) =
      some (7, 0, (List.range 4).map (fun e => (List.range 4).map (fun j => some (exLabel e j))), [[0, 1], [1, 2, 3], [0, 1], [1, 2, 3]]) ∧
    exLabel 1 1 = false := by
  set_option synthInstance.maxSize 1000 in
  decide +kernel

end MLRL.SecoMatrix
