import Verif.Model.SampledBoosting
import Verif.Spec.SampledBoosting
import Verif.Props.TrainingLoss
import Verif.Props.RuleEval
import Verif.Lemma.BoostingTermination
import Verif.Lemma.TabularData

/-! # Lemmas on the recalculation of predictions -/

namespace MLRL.TrainingLoss

open RuleEval Predictor Boosting Induction

variable {K T : Type} [Field K] [LinearOrder K] [IsStrictOrderedRing K]

/-- The statistics of an example, as they are added to a subset. -/
def coveredStat (cells : List (Update.Cell (List K) (List (Stat K)))) (mask : Nat → Bool) (e : Nat) : Nat → K × K :=
  if mask e then weightedStat (fun _ => 1) cells e else 0

omit [LinearOrder K] [IsStrictOrderedRing K] in
theorem addCovered_foldlM {cells : List (Update.Cell (List K) (List (Stat K)))} {mask : Nat → Bool} :
    ∀ {examples : List Nat} {sums r : Nat → K × K}, examples.foldlM (addCovered cells mask) sums = .ok r →
      r = sums + (examples.map (coveredStat cells mask)).sum := by
  intro examples
  induction examples with
  | nil => intro sums r h; cases h; simp
  | cons e examples ih =>
    intro sums r h
    rw [List.foldlM_cons] at h
    rw [List.map_cons, List.sum_cons]
    unfold addCovered at h
    unfold coveredStat
    cases hm : mask e with
    | false =>
      rw [hm, if_neg (by simp), ok_bind] at h
      simp only [Bool.false_eq_true, if_false, zero_add]
      exact ih h
    | true =>
      rw [hm, if_pos rfl] at h
      simp only [if_true]
      by_cases he : e < cells.length
      · rw [if_pos he, ok_bind] at h
        rw [← add_assoc]
        exact ih h
      · rw [if_neg he] at h
        cases h

omit [LinearOrder K] [IsStrictOrderedRing K] in
theorem addCovered_total {cells : List (Update.Cell (List K) (List (Stat K)))} {mask : Nat → Bool} :
    ∀ {examples : List Nat} {sums : Nat → K × K}, (∀ e ∈ examples, e < cells.length) →
      ∃ r, examples.foldlM (addCovered cells mask) sums = .ok r := by
  intro examples
  induction examples with
  | nil => intro sums _; exact ⟨_, rfl⟩
  | cons e examples ih =>
    intro sums h
    rw [List.foldlM_cons]
    unfold addCovered
    cases hm : mask e with
    | false =>
      rw [if_neg (by simp), ok_bind]
      exact ih (fun x hx => h x (List.mem_cons_of_mem _ hx))
    | true =>
      rw [if_pos rfl, if_pos (h e List.mem_cons_self), ok_bind]
      exact ih (fun x hx => h x (List.mem_cons_of_mem _ hx))

/-- The sums that are calculated from the training examples are those of the specification. -/
theorem sum_coveredStat {data : Data K T} {update : T → K → Stat K} {cells : List (Update.Cell (List K) (List (Stat K)))} {scores : Nat → Nat → K}
    (hcells : GoodCells data (fun r : List K => r.length = data.numOutputs) (UpToDate data update) cells)
    (hsc : ScoresOf data.numOutputs Update.denseValue cells scores) {examples : List Nat} (hnd : examples.Nodup)
    (hlt : ∀ e ∈ examples, e < data.numExamples) (mask : Nat → Bool) {j : Nat} (hj : j < data.numOutputs) :
    (examples.map (coveredStat cells mask)).sum j =
      ((data.training examples).gradient update scores mask j, (data.training examples).hessian update scores mask j) := by
  have hs := sum_weightedStat (data := data.training examples) (update := update) (cells := cells) (scores := scores)
    (good_statistics hcells hsc) mask hj
  rw [← hs]
  refine congrFun ?_ j
  rw [← List.sum_toFinset _ hnd]
  have hsub : examples.toFinset ⊆ Finset.range data.numExamples := by
    intro e he
    exact Finset.mem_range.2 (hlt e (List.mem_toFinset.1 he))
  show _ = ∑ e ∈ Finset.range data.numExamples, _
  rw [← Finset.sum_subset hsub]
  · refine Finset.sum_congr rfl (fun e he => ?_)
    have he' := List.mem_toFinset.1 he
    unfold coveredStat
    cases mask e with
    | false => rfl
    | true =>
      simp only [if_true]
      funext j
      unfold weightedStat Data.training Data.weighted
      simp only [he', if_true]
  · intro e _ he
    have he' : e ∉ examples := fun h => he (List.mem_toFinset.2 h)
    cases mask e with
    | false => rfl
    | true =>
      simp only [if_true]
      funext j
      unfold weightedStat Data.training Data.weighted
      simp only [he', if_false, zero_mul]
      cases cells[e]? with
      | none => rfl
      | some c =>
        simp only
        cases c.statistics[j]? <;> rfl

omit [Field K] [LinearOrder K] [IsStrictOrderedRing K] in
theorem copyScores_ok {k : Nat} {values r : List K} (h : copyScores k values = .ok r) : k ≤ values.length ∧ r = values.take k := by
  unfold copyScores at h
  obtain ⟨h1, h2⟩ := Refinement.mapM_ok h
  rw [List.length_range] at h1
  have hall : ∀ i < k, r[i]? = values[i]? := by
    intro i hi
    obtain ⟨b, g1, g2⟩ := h2 i i (List.getElem?_range hi)
    rw [g1, readAt_eq_ok_iff.1 g2]
  have hle : k ≤ values.length := by
    by_contra hlt
    have := hall values.length (by omega)
    rw [List.getElem?_eq_none (Nat.le_refl _), List.getElem?_eq_none_iff] at this
    omega
  refine ⟨hle, List.ext_getElem? (fun i => ?_)⟩
  by_cases hi : i < k
  · rw [hall i hi, List.getElem?_take_of_lt hi]
  · rw [List.getElem?_eq_none (by omega), List.getElem?_eq_none (by rw [List.length_take]; omega)]

omit [Field K] [LinearOrder K] [IsStrictOrderedRing K] in
theorem copyScores_total {k : Nat} {values : List K} (h : k ≤ values.length) : copyScores k values = .ok (values.take k) := by
  have hm : ∀ i ∈ List.range k, ∃ x, readAt values i = .ok x := fun i hi =>
    ⟨_, readAt_of_lt (show i < values.length by have := List.mem_range.1 hi; omega)⟩
  obtain ⟨r, hr⟩ := mapM_total hm
  have hr' : copyScores k values = .ok r := hr
  rw [hr', (copyScores_ok hr').2]

/-- If a rule evaluation predicts for as many outputs as there are, it predicts for all outputs in the given order. This is not required of the
evaluations that are created for all outputs, unless heads are complete. -/
def Aligned (evaluation : Evaluation K) : Prop :=
  ∀ all outputs stats scores, (all = true → evaluation.complete = true) → outputs.length = stats.length →
    evaluation.calculateScores all outputs stats = .ok scores →
    scores.indices.length = outputs.length → scores.indices = outputs

theorem complete_aligned (l1 l2 : K) (scratch : List Nat → List K) (h : ∀ outputs, (scratch outputs).length = outputs.length) :
    Aligned (completeEvaluation l1 l2 scratch) := by
  intro all outputs stats scores _ hl hs _
  obtain ⟨_, _, _, _, _, _, h6⟩ := complete_scoring l1 l2 scratch h all outputs stats scores hl hs
  exact h6 rfl

theorem single_aligned (l1 l2 : K) : Aligned (singleEvaluation l1 l2) := by
  intro all outputs stats scores _ hl hs hlen
  simp only [singleEvaluation] at hs
  have hne : stats ≠ [] := by
    rintro rfl
    cases hs
  obtain ⟨b, t, o, h1, h2, h3, _⟩ := single_ok l1 l2 outputs stats hne hl
  rw [h3] at hs
  cases hs
  simp only [List.length_singleton] at hlen
  obtain ⟨a, rfl⟩ := List.length_eq_one_iff.1 hlen.symm
  have hb := (List.getElem?_eq_some_iff.1 h2).1
  obtain rfl : b = 0 := by simpa using hb
  cases h2
  rfl

theorem fixed_aligned (partialSort : Nat → List (Nat × K) → List (Nat × K)) (l1 l2 : K) (tmp : List Nat → List (Nat × K))
    (indices : List Nat → List Nat) (scratch : List Nat → List K) {scratch' : List Nat → List K}
    (h : ∀ outputs, (scratch' outputs).length = outputs.length) :
    Aligned (fixedEvaluation partialSort l1 l2 tmp indices scratch scratch') := by
  intro all outputs stats scores ha hl hs hlen
  cases all with
  | true => cases ha rfl
  | false => exact complete_aligned l1 l2 scratch' h false outputs stats scores (fun h => by cases h) hl hs hlen

theorem dynamic_aligned (pow : K → K) (threshold l1 l2 : K) (indices : List Nat → List Nat) {scratch : List Nat → List K}
    (h : ∀ outputs, (scratch outputs).length = outputs.length) :
    Aligned (dynamicEvaluation pow threshold l1 l2 indices scratch) := by
  intro all outputs stats scores ha hl hs hlen
  cases all with
  | true => cases ha rfl
  | false => exact complete_aligned l1 l2 scratch h false outputs stats scores (fun h => by cases h) hl hs hlen

/-- The scores that are copied are those of the outputs of a prediction. -/
theorem recalculated_scores {l1 l2 : K} {evaluation : Evaluation K} (he : Scoring l1 l2 evaluation) (ha : Aligned evaluation) {all : Bool}
    (hall : all = true → evaluation.complete = true) {outputs : List Nat} (hnd : outputs.Nodup) {stat : Nat → Stat K} {scores : ScoreVector K} 
    (hs : evaluation.calculateScores all outputs (outputs.map stat) = .ok scores)
    {values : List K} (hc : copyScores outputs.length scores.values = .ok values) : values = outputs.map (fun j => (stat j).score l1 l2) := by
  obtain ⟨chosen, c1, c2, c3, c4, _, _⟩ := he all outputs _ scores (by simp) hs
  obtain ⟨k1, k2⟩ := copyScores_ok hc
  have hmem : ∀ c ∈ chosen, c.1 ∈ outputs ∧ c.2 = stat c.1 := by
    intro c hc
    have := c1 c hc
    rw [List.zip_map_right, List.mem_map] at this
    obtain ⟨⟨a, b⟩, g1, rfl⟩ := this
    have g2 : a = b := by
      obtain ⟨i, hi⟩ := List.mem_iff_getElem?.1 g1
      rw [List.getElem?_zip_eq_some] at hi
      rw [hi.1] at hi
      exact Option.some.inj hi.2
    subst g2
    exact ⟨(List.of_mem_zip g1).1, rfl⟩
  have hle : (chosen.map Prod.fst).length ≤ outputs.length := by
    have hsub : (chosen.map Prod.fst).toFinset ⊆ outputs.toFinset := by
      intro j hj
      obtain ⟨c, hc, rfl⟩ := List.mem_map.1 (List.mem_toFinset.1 hj)
      exact List.mem_toFinset.2 (hmem c hc).1
    have := Finset.card_le_card hsub
    rwa [List.toFinset_card_of_nodup (c2 hnd), List.toFinset_card_of_nodup hnd] at this
  have hlen : chosen.length = outputs.length := by
    rw [c4, List.length_map] at k1
    rw [List.length_map] at hle
    omega
  have hidx := ha all outputs _ scores hall (by simp) hs (by rw [c3, List.length_map, hlen])
  rw [k2, c4, List.take_of_length_le (by rw [List.length_map, hlen])]
  rw [← hidx, c3, List.map_map]
  refine List.map_congr_left (fun c hc => ?_)
  simp only [Function.comp]
  rw [(hmem c hc).2]

/-- What is required of an evaluation that is used for recalculating predictions. -/
structure Recalculating (l1 l2 : K) (evaluation : Evaluation K) : Prop where
  scoring : Scoring l1 l2 evaluation
  aligned : Aligned evaluation

/-- Whether a head predicts for all outputs. -/
def isComplete : Head K → Bool
  | .complete _ => true
  | .partial_ _ => false

/-- A rule evaluation calculates as many scores as there are elements in a head. -/
def Predicts (evaluation : Evaluation K) (head : Head K) : Prop :=
  ∀ stats, (outputsOf head).length = stats.length → ∃ s, evaluation.calculateScores (isComplete head) (outputsOf head) stats = .ok s ∧
    (outputsOf head).length ≤ s.values.length

/-- A head is complete only if the rule evaluation predicts for all outputs. -/
def Suits (evaluation : Evaluation K) : Head K → Prop
  | .complete _ => evaluation.complete = true
  | .partial_ _ => True

omit [Field K] [LinearOrder K] [IsStrictOrderedRing K] in
theorem zip_map_self {α : Type} {f : Nat → α} (outputs : List Nat) : outputs.zip (outputs.map f) = outputs.map (fun j => (j, f j)) := by
  induction outputs with
  | nil => rfl
  | cons j outputs ih => rw [List.map_cons, List.zip_cons_cons, ih, List.map_cons]

/-- A prediction is recalculated as specified. -/
theorem recalculatePrediction_refits {l1 l2 : K} {evaluation : Evaluation K} (he : Recalculating l1 l2 evaluation) {data : Data K T}
    {update : T → K → Stat K} {examples : List Nat} (hnd : examples.Nodup) (hlt : ∀ e ∈ examples, e < data.numExamples)
    {cells : List (Update.Cell (List K) (List (Stat K)))} {scores : Nat → Nat → K}
    (hcells : GoodCells data (fun r : List K => r.length = data.numOutputs) (UpToDate data update) cells)
    (hsc : ScoresOf data.numOutputs Update.denseValue cells scores) {mask : Nat → Bool} {head head' : Head K}
    (hd : Distinct data.numOutputs head) (hsuit : Suits evaluation head)
    (h : recalculatePrediction evaluation data.numOutputs examples cells mask head = .ok head') :
    Distinct data.numOutputs head' ∧ Refits (data.training examples) update scores mask l1 l2 head head' := by
  have hscore : ∀ {sums : Nat → K × K}, examples.foldlM (addCovered cells mask) 0 = .ok sums → ∀ j < data.numOutputs,
      (⟨(sums j).1, (sums j).2⟩ : Stat K).score l1 l2 = outputScore ((data.training examples).gradient update scores mask j)
        ((data.training examples).hessian update scores mask j) l1 l2 := by
    intro sums hsums j hj
    rw [addCovered_foldlM hsums, zero_add, sum_coveredStat hcells hsc hnd hlt mask hj]
    rfl
  cases head with
  | complete values =>
    simp only [recalculatePrediction] at h
    obtain ⟨sums, h1, h⟩ := TabularData.ok_of_bind h
    obtain ⟨stats, h2, h⟩ := TabularData.ok_of_bind h
    obtain ⟨scoreVector, h3, h⟩ := TabularData.ok_of_bind h
    obtain ⟨values', h4, h⟩ := TabularData.ok_of_bind h
    cases h
    obtain ⟨k1, rfl⟩ := outputStats_ok h2
    have hv := recalculated_scores he.scoring he.aligned (fun _ => hsuit) List.nodup_range h3 (values := values') (by rw [List.length_range]; exact h4)
    have hd' : values.length = data.numOutputs := hd
    subst hv
    refine ⟨by simpa [Distinct] using hd', ⟨by simp [outputsOf], by simp, fun j hj => ?_⟩⟩
    have hj' : j < values.length := by simpa [outputsOf] using hj
    rw [← hscore h1 j (by omega)]
    simp [Spec.contribution, hj']
  | partial_ entries =>
    simp only [recalculatePrediction] at h
    obtain ⟨sums, h1, h⟩ := TabularData.ok_of_bind h
    obtain ⟨stats, h2, h⟩ := TabularData.ok_of_bind h
    obtain ⟨scoreVector, h3, h⟩ := TabularData.ok_of_bind h
    obtain ⟨values', h4, h⟩ := TabularData.ok_of_bind h
    cases h
    obtain ⟨k1, rfl⟩ := outputStats_ok h2
    have hv := recalculated_scores he.scoring he.aligned (fun h => by cases h) hd.2 h3 (values := values') (by rw [List.length_map]; exact h4)
    subst hv
    have hkeys : (((entries.map Prod.fst).zip ((entries.map Prod.fst).map (fun j => (⟨(sums j).1, (sums j).2⟩ : Stat K).score l1 l2))).map Prod.fst) =
        entries.map Prod.fst := by
      rw [List.map_fst_zip (by simp)]
    refine ⟨⟨fun e hm => k1 _ (List.of_mem_zip hm).1, ?_⟩, ⟨hkeys, by simp, fun j hj => ?_⟩⟩
    · rw [hkeys]
      exact hd.2
    · have hj' : j ∈ entries.map Prod.fst := hj
      rw [← hscore h1 j (k1 j hj')]
      refine contribution_mem _ ?_ (e := (j, _)) ?_
      · rw [hkeys]; exact hd.2
      · rw [zip_map_self]
        exact List.mem_map.2 ⟨j, hj', rfl⟩

theorem contribution_outside {n : Nat} {head : Head K} (hd : Distinct n head) {j : Nat} (h : j ∉ outputsOf head) :
    Spec.contribution j head = 0 := by
  cases head with
  | complete values =>
    have : ¬ j < values.length := by simpa [outputsOf] using h
    simp [Spec.contribution, this]
  | partial_ entries => exact contribution_not_mem _ _ h

/-- A recalculated prediction is not expected to increase the loss. -/
theorem refits_nonpos {l1 l2 : K} (h1 : 0 ≤ l1) (h2 : 0 ≤ l2) {data : Data K T} {update : T → K → Stat K} {scores : Nat → Nat → K}
    {mask : Nat → Bool} {head head' : Head K} (hd : Distinct data.numOutputs head')
    (hh : ∀ j < data.numOutputs, 0 ≤ data.hessian update scores mask j) (h : Refits data update scores mask l1 l2 head head') :
    data.estimate update scores mask (fun j => Spec.contribution j head') ≤ 0 := by
  refine Finset.sum_nonpos (fun j hj => ?_)
  beta_reduce
  by_cases hm : j ∈ outputsOf head
  · rw [h.scores j hm]
    exact score_nonpos h1 h2 (hh j (Finset.mem_range.1 hj))
  · rw [contribution_outside hd (by rw [h.outputs]; exact hm)]
    simp

end MLRL.TrainingLoss
