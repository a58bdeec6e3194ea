import Verif.Model.SecoPruning
import Verif.Props.SampledBoosting
import Verif.Props.SecoTraining

/-!
# C96: separate-and-conquer algorithms that prune rules and recalculate their predictions
-/

namespace MLRL.SecoTraining

open Predictor Induction Refinement Seco Statistics Stopping

section
variable {K : Type} [Field K] [LinearOrder K] [IsStrictOrderedRing K]
variable {cfg : Config K} {label : Nat → Nat → Bool} {values : Nat → Nat → Option Rat} {h : Heuristic K}

/-! ### Subsets -/

omit [IsStrictOrderedRing K] in
theorem outOfSample_ok {n : Nat} {w : Weights K} (hw : WeightsOk n w) : WeightsOk n (outOfSampleWeights w) := by
  cases w with
  | equal k => show (List.replicate k (0 : K)).length = n; rw [List.length_replicate]; exact hw
  | vector l => show (l.map _).length = n; rw [List.length_map]; exact hw

omit [IsStrictOrderedRing K] in
/-- If there are more examples than labels, no scores can be calculated. -/
theorem subsetScores_fault {n c : Nat} (hlt : c < n) (ev : Evaluation K) (majority : List Nat) (labels : LabelMatrix) {cells : List Nat}
    (hc : cells.length = n * c) {w : Weights K} (hw : WeightsOk n w) (head : Predictor.Head K) (examples : List Nat) (r : Seco.Head K (Option K)) :
    subsetScores ev majority labels n c cells w head examples ≠ .ok r := by
  intro hr
  unfold subsetScores at hr
  obtain ⟨v, h1, _⟩ := bind_ok hr
  exact subsetTotal_fault hlt _ _ hc hw v h1

/-- **C96**, negation: if there are more examples than labels, the evaluation of a rule on the examples that have not been sampled accesses invalid
memory. -/
theorem evaluate_fault {n c : Nat} (hlt : c < n) (ev : Evaluation K) (majority : List Nat) (labels : LabelMatrix) {cells : List Nat}
    (hc : cells.length = n * c) {w : Weights K} (hw : WeightsOk n w) (head : Predictor.Head K) (mask : Nat → Bool) (q : Option K) :
    evaluateOutOfSample ev majority labels n c cells w head mask ≠ .ok q := by
  intro hr
  unfold evaluateOutOfSample at hr
  obtain ⟨r, h1, _⟩ := bind_ok hr
  exact subsetScores_fault hlt _ _ _ hc (outOfSample_ok hw) _ _ r h1

/-- **C96**, negation: if there are more examples than labels, recalculating the prediction of a rule accesses invalid memory. -/
theorem recalculate_fault {n c : Nat} (hlt : c < n) (ev : Evaluation K) (majority : List Nat) (labels : LabelMatrix) {cells : List Nat}
    (hc : cells.length = n * c) (mask : Nat → Bool) (head head' : Predictor.Head K) :
    recalculatePrediction ev majority labels n c cells mask head ≠ .ok head' := by
  intro hr
  unfold recalculatePrediction at hr
  obtain ⟨r, h1, _⟩ := bind_ok hr
  exact subsetScores_fault hlt _ _ _ hc (show WeightsOk n (.equal n : Weights K) from rfl) _ _ r h1

/-! ### Heads -/

/-- The evaluation predicts for a single label. -/
def OneLabel (ev : Evaluation K) : Prop :=
  ∀ flag majority indices total covered r, ev.calculateScores flag majority indices total covered = .ok r → r.indices.length = 1

omit [IsStrictOrderedRing K] in
theorem oneLabel_single (h : Heuristic K) : OneLabel (singleEvaluation h) := by
  intro flag majority indices total covered r hr
  unfold singleEvaluation at hr
  obtain ⟨r', h1, h2⟩ := bind_ok hr
  cases h2
  unfold singleScores at h1
  obtain ⟨best, _, h1⟩ := bind_ok h1
  obtain ⟨it, _, h1⟩ := bind_ok h1
  cases h1
  rfl

/-- A head as it is learned by means of a rule evaluation. -/
def LearnedHead (ev : Evaluation K) (c : Nat) (majority : List Nat) (head : Predictor.Head K) : Prop :=
  ∃ indices : List Nat, head = .partial_ (indices.map (fun j => (j, inverseMajority majority j))) ∧ indices ≠ [] ∧ indices.Pairwise (· < ·) ∧
    (∀ j ∈ indices, j < c) ∧ (OneLabel ev → indices.length = 1)

theorem Growing.learned {round : Round K} {ev : Evaluation K} {majority : List Nat} {n c : Nat} {total : List (Confusion K)}
    {ex : Nat → ConfusionMatrices K} {gcfg : GrowConfig} (g : Growing round ev majority n c values h total ex) {fuel : Nat}
    {gr : Grown (FeatureSpace.Subspace Unit) Boosting.Condition (Predictor.Head K)}
    (hr : growRule (Tabular.subspaces round.env) better Boosting.sortHead gcfg
      (round.search ev majority c total (Tabular.searchFeature round.env) ex) (some 0) fuel = Run.done gr) {head : Predictor.Head K}
    (hh : gr.head = some head) : LearnedHead ev c majority head := by
  rw [g.transfer] at hr
  obtain ⟨gr', h1, h2⟩ := run_bind_done hr
  cases Run.done_inj h2
  obtain ⟨chosen, s, q, o, k1, _, rfl⟩ := growRule_greedy betterNumber_strictWeak (search_valid g.roundOk) h1
  cases k1 with
  | start => simp at hh
  | @step chosen s q o r x s' k1 _ _ hc hx hb hf =>
    simp only [List.getLast?_concat, Option.map_some] at hh
    cases hh
    obtain ⟨i1, _⟩ := g.greedy k1
    obtain ⟨result, c1, _, c3, _⟩ := g.candidate i1 hc (FirstBest.mem hx)
    obtain ⟨o1, o2, o3, o4⟩ := g.outputsOk i1
    obtain ⟨result', e1, e2⟩ := g.evaluate o1 o2 o3 o4 (fun e => Tabular.covers s.1 e && x.refinement.condition.holds values e)
    rw [c1] at e1
    cases e1
    rw [c3]
    refine ⟨_, sortHead_headOf e2 o3, ?_, insertionSort_strict e2.nodup, ?_, ?_⟩
    · intro hnil
      have := congrArg List.length hnil
      rw [List.length_insertionSort] at this
      exact e2.nonempty (List.length_eq_zero_iff.1 this)
    · intro j hj
      exact o3 j (e2.subset j ((List.mem_insertionSort _).1 hj))
    · intro hone
      rw [List.length_insertionSort]
      exact hone _ _ _ _ _ _ c1

/-- The head of a rule that is grown next. -/
theorem Trained.learned (hok : ConfigOk cfg label values h) {majority : List Nat} (hm : majority.Pairwise (· < ·)) {S : K} {st : State K}
    (ht : Trained cfg values h majority S st) {k fuel : Nat} {gr : Grown (FeatureSpace.Subspace Unit) Boosting.Condition (Predictor.Head K)}
    (hg : cfg.growNext majority k fuel st.matrix = Run.done gr) {head : Predictor.Head K} (hh : gr.head = some head) :
    LearnedHead cfg.evaluation cfg.numOutputs majority head := by
  obtain ⟨total, t1, _, g⟩ := growing hok hm ht.isCoverage k
  unfold Config.growNext at hg
  rw [t1] at hg
  exact g.learned hg hh

/-! ### Recalculating predictions -/

omit [IsStrictOrderedRing K] in
/-- The total sums of all labels are read. -/
theorem completeScores_reads {h : Heuristic K} {f : LiftFunction K} {majority indices : List Nat} {total covered : List (Confusion K)}
    {r : Seco.Head K (Option K)} (hr : completeScores h f majority indices total covered = .ok r) : ∀ j ∈ indices, j < total.length := by
  unfold completeScores at hr
  obtain ⟨s, h1, _⟩ := bind_ok hr
  have := loop_inv (fun i (_ : (Iterators.BinarySparseForward × Nat) × (List K × K)) => ∀ (k : Nat) (hk : k < indices.length), k < i →
    indices[k] < total.length) h1 (fun k _ hk => by omega) (by
    intro i s s' hi ih hb k hk hki
    unfold completeStep at hb
    obtain ⟨index, b1, hb⟩ := bind_ok hb
    obtain ⟨it, _, hb⟩ := bind_ok hb
    obtain ⟨t, b2, hb⟩ := bind_ok hb
    rcases Nat.lt_or_ge k i with hlt | hge
    · exact ih k hk hlt
    · have : k = i := by omega
      subst this
      rw [readAt_of_lt hk] at b1
      cases b1
      exact (List.getElem?_eq_some_iff.1 (readAt_eq_ok_iff.1 b2)).1)
  intro j hj
  obtain ⟨k, hk, rfl⟩ := List.mem_iff_getElem.1 hj
  exact this k hk hk

omit [IsStrictOrderedRing K] in
theorem singleScores_reads {h : Heuristic K} {majority : List Nat} {j : Nat} {total covered : List (Confusion K)}
    {r : Seco.Head K K} (hr : singleScores h majority [j] total covered = .ok r) : j < total.length := by
  unfold singleScores singleSearch at hr
  obtain ⟨s, h1, _⟩ := bind_ok hr
  obtain ⟨index, b1, h1⟩ := bind_ok h1
  obtain ⟨t, b2, h1⟩ := bind_ok h1
  cases b1
  exact (List.getElem?_eq_some_iff.1 (readAt_eq_ok_iff.1 b2)).1

/-- There are inputs for all lists of confusion matrices that are long enough. -/
theorem evalInput_exists (h : Heuristic K) {majority indices : List Nat} (hm : majority.Pairwise (· < ·)) (hi : indices.Pairwise (· < ·))
    {total covered : List (Confusion K)} (ht : ∀ j ∈ indices, j < total.length) (hc : covered.length = indices.length) :
    ∃ q, EvalInput h majority indices total covered q := by
  have hnd : indices.Nodup := hi.imp (fun h => Nat.ne_of_lt h)
  refine ⟨fun j => labelQuality h ((total[j]?).getD 0) ((covered[indices.idxOf j]?).getD 0), hm, hi, fun i hi => ?_⟩
  have h1 := ht _ (List.getElem_mem hi)
  refine ⟨total[indices[i]], covered[i], List.getElem?_eq_getElem h1, List.getElem?_eq_getElem (by omega), ?_⟩
  rw [hnd.idxOf_getElem i hi, List.getElem?_eq_getElem h1, List.getElem?_eq_getElem (by omega : i < covered.length)]
  rfl

/-- The total sums if there are at least as many labels as examples. -/
theorem subsetTotal_value {n c : Nat} {labels : LabelMatrix} (hl : IsLabels n c label labels) {cov : Nat → Nat → Nat} {cells : List Nat}
    (hc : IsCoverage n c cov cells) {w : Weights K} (hw : WeightsOk n w) {majority : List Nat} (hm : majority.Pairwise (· < ·)) (hle : n ≤ c) :
    ∃ v, subsetTotal majority labels n c cells w = .ok v ∧ v.length = n ∧ ∀ j < n, element v j = ((List.range n).map (fun e =>
      if cov e j = 0 then weightAt w e • (unitConfusion (label e j) (decide (j ∈ majority)) : Confusion K) else 0)).sum := by
  have hvalid := seCoData_valid hl hc hw
  have hsize : (seCoData labels n c cells w).weights.size = n := by
    show w.size = n
    cases w with
    | equal k => exact hw
    | vector l => exact hw
  obtain ⟨v, g1, g2, g3⟩ := totalSum_spec (confusionLaws (K := K) hm n) (d := { seCoData labels n c cells w with numCols := n }) (by
    simp only [hsize]
    refine ⟨hvalid.1, hvalid.2, fun r hr => ?_⟩
    obtain ⟨r1, r2, r3⟩ := hvalid.3 r hr
    exact ⟨by omega, fun array offset e => by have := r2 array offset e; omega, r3⟩) rfl
  refine ⟨v, g1, g2, fun j hj => ?_⟩
  have g4 : element v j = ((List.range (seCoData labels n c cells w).weights.size).map
      (stat (Row.value majority n) { seCoData labels n c cells w with numCols := n })).sum j := congrFun g3 j
  rw [g4, Seco.sum_apply, List.map_map, hsize]
  congr 1
  refine List.map_congr_left (fun e he => ?_)
  have he := List.mem_range.1 he
  rw [← seCoData_stat hl hc w majority he (show j < c by omega)]
  show stat (Row.value majority n) (seCoData labels n c cells w) e j = _
  unfold stat
  cases (seCoData labels n c cells w).rows[e]? with
  | none => rfl
  | some r =>
    have hrow : (Row.value majority n r : ConfusionMatrices K) j = Row.value majority c r j := by
      rw [rowValue_of_lt r hj, rowValue_of_lt r (show j < c by omega)]
    cases (seCoData labels n c cells w).weights with
    | equal k => exact hrow
    | vector l => exact congrArg (element l e • ·) hrow

theorem subsetTotal_ok {n c : Nat} {labels : LabelMatrix} (hl : IsLabels n c label labels) {cov : Nat → Nat → Nat} {cells : List Nat}
    (hc : IsCoverage n c cov cells) {w : Weights K} (hw : WeightsOk n w) {majority : List Nat} (hm : majority.Pairwise (· < ·)) (hle : n ≤ c) :
    ∃ v, subsetTotal majority labels n c cells w = .ok v ∧ v.length = n := by
  obtain ⟨v, h1, h2, _⟩ := subsetTotal_value hl hc hw hm hle
  exact ⟨v, h1, h2⟩

/-! ### The evaluation on examples that have not been sampled -/

/-- The confusion matrix of a label that takes into account the examples that have not been sampled, satisfy a condition and have not been covered by
previous rules. -/
def heldOutConfusion (label : Nat → Nat → Bool) (cov : Nat → Nat → Nat) (w : Weights K) (majority : List Nat) (n : Nat) (satisfies : Nat → Bool)
    (j : Nat) : Confusion K :=
  (((List.range n).filter (fun e => decide (weightAt w e = 0) && satisfies e && decide (cov e j = 0))).map
    (fun e => unitConfusion (label e j) (decide (j ∈ majority)))).sum

theorem weightAt_outOfSample {n : Nat} {w : Weights K} (hw : WeightsOk n w) {e : Nat} (he : e < n) :
    weightAt (outOfSampleWeights w) e = if weightAt w e = 0 then 1 else 0 := by
  cases w with
  | equal k =>
    show element (List.replicate k (0 : K)) e = if (1 : K) = 0 then 1 else 0
    rw [if_neg one_ne_zero]
    exact element_replicate_zero k e
  | vector l =>
    have hw : l.length = n := hw
    show element (l.map _) e = if element l e = 0 then 1 else 0
    unfold element
    rw [List.getElem?_map, List.getElem?_eq_getElem (by omega)]
    rfl

theorem sum_filter_ite {A : Type} [AddCommMonoid A] (p q : Nat → Bool) (f : Nat → A) (l : List Nat) :
    ((l.filter p).map (fun e => if q e = true then f e else 0)).sum = ((l.filter (fun e => p e && q e)).map f).sum := by
  induction l with
  | nil => rfl
  | cons e l ih => cases hp : p e <;> cases hq : q e <;> simp [hp, hq, ih]

/-- **C96**: if there are at least as many labels as examples, the quality of a rule with a single-output head on the examples that have not been
sampled is determined by the confusion matrices of these examples, provided that the index of the label is less than the number of examples. Otherwise,
invalid memory is accessed. -/
theorem evaluate_iff {n c : Nat} {labels : LabelMatrix} (hl : IsLabels n c label labels) {cov : Nat → Nat → Nat} {cells : List Nat}
    (hc : IsCoverage n c cov cells) {w : Weights K} (hw : WeightsOk n w) {majority : List Nat} (hm : majority.Pairwise (· < ·)) {j : Nat} (hj : j < c)
    (v : K) (mask : Nat → Bool) (q : Option K) :
    evaluateOutOfSample (singleEvaluation h) majority labels n c cells w (.partial_ [(j, v)]) mask = .ok q ↔
      n ≤ c ∧ j < n ∧ q = some (labelQuality h (heldOutConfusion label cov w majority n (fun _ => true) j)
        (heldOutConfusion label cov w majority n mask j)) := by
  by_cases hle : n ≤ c
  · have hw' : WeightsOk n (outOfSampleWeights w) := outOfSample_ok hw
    obtain ⟨total, t1, t2, t3⟩ := subsetTotal_value hl hc hw' hm hle
    have hidx : IndicesOk c (.select [j]) := ⟨fun k hk => by rw [List.mem_singleton.1 hk]; exact hj, List.pairwise_singleton _ _⟩
    obtain ⟨covered, s1, s2, s3⟩ := subsetSum_partial hl hc hw' hm hidx
      ((List.range n).filter (fun e => decide (weightAt (outOfSampleWeights w) e ≠ 0) && mask e)) (fun e he => List.mem_range.1 (List.mem_filter.1 he).1)
    have s2 : covered.length = 1 := s2
    have hform : evaluateOutOfSample (singleEvaluation h) majority labels n c cells w (.partial_ [(j, v)]) mask =
        ((singleEvaluation h).calculateScores false majority [j] total covered >>= fun r => .ok r.quality) := by
      unfold evaluateOutOfSample subsetScores headIndices headOutputs
      simp only [List.map_cons, List.map_nil]
      rw [t1, ok_bind, s1, ok_bind]
      rfl
    rw [hform]
    have hcov : element covered 0 = heldOutConfusion label cov w majority n mask j := by
      rw [s3 0 Nat.zero_lt_one]
      show (((List.range n).filter _).map (fun e => if cov e j = 0 then weightAt (outOfSampleWeights w) e •
        (unitConfusion (label e j) (decide (j ∈ majority)) : Confusion K) else 0)).sum = _
      unfold heldOutConfusion
      have hfilter : (List.range n).filter (fun e => decide (weightAt (outOfSampleWeights w) e ≠ 0) && mask e) =
          (List.range n).filter (fun e => decide (weightAt w e = 0) && mask e) := by
        refine List.filter_congr (fun e he => ?_)
        rw [weightAt_outOfSample hw (List.mem_range.1 he)]
        by_cases h0 : weightAt w e = 0 <;> simp [h0]
      rw [hfilter, ← sum_filter_ite (fun e => decide (weightAt w e = 0) && mask e) (fun e => decide (cov e j = 0))]
      congr 1
      refine List.map_congr_left (fun e he => ?_)
      obtain ⟨he, hp⟩ := List.mem_filter.1 he
      have h0 : weightAt w e = 0 := by
        simp only [Bool.and_eq_true, decide_eq_true_eq] at hp
        exact hp.1
      rw [weightAt_outOfSample hw (List.mem_range.1 he), if_pos h0, one_smul]
      simp only [decide_eq_true_eq]
    have htot : j < n → element total j = heldOutConfusion label cov w majority n (fun _ => true) j := by
      intro hjn
      rw [t3 j hjn]
      unfold heldOutConfusion
      have : ∀ e ∈ List.range n, (if cov e j = 0 then weightAt (outOfSampleWeights w) e • (unitConfusion (label e j) (decide (j ∈ majority)) :
          Confusion K) else 0) = if (decide (weightAt w e = 0) && true && decide (cov e j = 0)) = true then
            unitConfusion (label e j) (decide (j ∈ majority)) else 0 := by
        intro e he
        rw [weightAt_outOfSample hw (List.mem_range.1 he)]
        by_cases h0 : weightAt w e = 0 <;> by_cases h1 : cov e j = 0 <;> simp [h0, h1]
      rw [List.map_congr_left this, ← List.filter_true (List.range n), sum_filter_ite, List.filter_true]
      simp only [Bool.true_and]
    constructor
    · intro hr
      obtain ⟨r, r1, r2⟩ := bind_ok hr
      obtain ⟨r', r3, r4⟩ := bind_ok r1
      have hjt := singleScores_reads r3
      have hjn : j < n := by omega
      refine ⟨hle, hjn, ?_⟩
      obtain ⟨q', hq⟩ := evalInput_exists h hm (List.pairwise_singleton (· < ·) j) (fun k hk => by rw [List.mem_singleton.1 hk]; exact hjt)
        (show covered.length = [j].length from s2)
      obtain ⟨r'', l, g1, _, g2, _, g4, _⟩ := single_optimal hq (by simp)
      rw [r3] at g1
      cases g1
      cases r4
      cases r2
      rw [List.mem_singleton.1 g2] at g4
      obtain ⟨t, d, k1, k2, k3⟩ := hq.quality 0 (by simp)
      have k1 : total[j]? = some t := k1
      have k3 : q' j = labelQuality h t d := k3
      rw [← hcov, ← htot hjn]
      unfold element
      rw [k1, k2]
      show some r'.quality = some (labelQuality h t d)
      rw [g4, k3]
    · rintro ⟨_, hjn, rfl⟩
      obtain ⟨q', hq⟩ := evalInput_exists h hm (List.pairwise_singleton (· < ·) j)
        (fun k hk => by rw [List.mem_singleton.1 hk, t2]; exact hjn) (show covered.length = [j].length from s2)
      obtain ⟨r, l, g1, _, g2, _, g4, _⟩ := single_optimal hq (by simp)
      rw [List.mem_singleton.1 g2] at g4
      obtain ⟨t, d, k1, k2, k3⟩ := hq.quality 0 (by simp)
      have k1 : total[j]? = some t := k1
      have k3 : q' j = labelQuality h t d := k3
      rw [← hcov, ← htot hjn]
      show ((singleScores h majority [j] total covered >>= _) >>= _) = _
      rw [g1]
      show Except.ok (some r.quality) = _
      unfold element
      rw [k1, k2]
      show _ = Except.ok (some (labelQuality h t d))
      rw [g4, k3]
  · refine ⟨fun hr => absurd hr (evaluate_fault (by omega) _ _ _ hc.1 hw _ _ _), fun hr => absurd hr.1 hle⟩

/-! ### Recalculation is possible -/

/-- **C96**: the prediction of a rule can be recalculated if and only if there are at least as many labels as examples and the indices of the labels the
rule predicts for are less than the number of examples. The prediction does not change. -/
theorem recalculate_iff {n c : Nat} {labels : LabelMatrix} (hl : IsLabels n c label labels) {cov : Nat → Nat → Nat} {cells : List Nat}
    (hc : IsCoverage n c cov cells) {majority : List Nat} (hm : majority.Pairwise (· < ·)) {ev : Evaluation K} (hs : Supported c h ev)
    (mask : Nat → Bool) {head : Predictor.Head K} (hh : LearnedHead ev c majority head) (head' : Predictor.Head K) :
    recalculatePrediction ev majority labels n c cells mask head = .ok head' ↔
      head' = head ∧ n ≤ c ∧ ∀ j, (predictedValue head j).isSome = true → j < n := by
  obtain ⟨indices, rfl, hne, hsorted, hltc, hone⟩ := hh
  have hfst : (indices.map (fun j => (j, (inverseMajority majority j : K)))).map Prod.fst = indices := by
    rw [List.map_map]
    exact (List.map_congr_left (fun j _ => rfl)).trans (List.map_id' _)
  have hpred : (∀ j, (predictedValue (.partial_ (indices.map (fun j => (j, (inverseMajority majority j : K))))) j).isSome = true → j < n) ↔
      ∀ j ∈ indices, j < n := by
    refine forall_congr' (fun j => ?_)
    rw [predictedValue_map]
    by_cases hj : j ∈ indices <;> simp [hj]
  rw [hpred]
  have hidx : IndicesOk c (.select indices) := ⟨hltc, hsorted.imp (fun h => Nat.le_of_lt h)⟩
  have hw : WeightsOk n (.equal n : Weights K) := rfl
  obtain ⟨covered, s1, s2, _⟩ := subsetSum_partial hl hc hw hm hidx ((List.range n).filter mask)
    (fun e he => List.mem_range.1 (List.mem_filter.1 he).1)
  have s2 : covered.length = indices.length := s2
  -- the scores do not change
  have hreplace : ∀ r : List K, r = indices.map (inverseMajority majority) →
      replaceScores (.partial_ (indices.map (fun j => (j, inverseMajority majority j)))) r =
        .ok (.partial_ (indices.map (fun j => (j, (inverseMajority majority j : K))))) := by
    rintro r rfl
    unfold replaceScores
    simp only
    rw [TrainingLoss.copyScores_total (by simp), ok_bind, hfst, List.length_map, List.take_of_length_le (by simp), List.map_prod_left_eq_zip]
    rfl
  have hscores : ∀ total : List (Confusion K), (∀ j ∈ indices, j < total.length) →
      ∃ r, ev.calculateScores false majority indices total covered = .ok r ∧ r.values = indices.map (inverseMajority majority) := by
    intro total ht
    obtain ⟨q, hq⟩ := evalInput_exists h hm hsorted ht s2
    cases hs with
    | single =>
      obtain ⟨r, l, g1, _, g2, g3, _⟩ := single_optimal hq hne
      refine ⟨⟨some r.quality, r.indices, r.values⟩, ?_, ?_⟩
      · show (singleScores h majority indices total covered >>= _) = _
        rw [g1]
        rfl
      · obtain ⟨j, rfl⟩ := List.length_eq_one_iff.1 (hone (oneLabel_single h))
        rw [List.mem_singleton.1 g2] at g3
        rw [g3]
        rfl
    | nonneg =>
      obtain ⟨r, g1, _, g2, _⟩ := complete_spec (f := _) hq
      exact ⟨r, g1, g2⟩
    | lifted =>
      obtain ⟨r, g1, _, g2, _⟩ := complete_spec (f := _) hq
      exact ⟨r, g1, g2⟩
  have hreads : ∀ total r, ev.calculateScores false majority indices total covered = .ok r → ∀ j ∈ indices, j < total.length := by
    intro total r hr
    cases hs with
    | single =>
      obtain ⟨j, rfl⟩ := List.length_eq_one_iff.1 (hone (oneLabel_single h))
      obtain ⟨r', g1, _⟩ := bind_ok hr
      intro j' hj'
      rw [List.mem_singleton.1 hj']
      exact singleScores_reads g1
    | nonneg => exact completeScores_reads hr
    | lifted => exact completeScores_reads hr
  have hform : ∀ total, subsetTotal majority labels n c cells (.equal n : Weights K) = .ok total →
      recalculatePrediction ev majority labels n c cells mask (.partial_ (indices.map (fun j => (j, inverseMajority majority j)))) =
        (ev.calculateScores false majority indices total covered >>=
          fun r => replaceScores (.partial_ (indices.map (fun j => (j, inverseMajority majority j)))) r.values) := by
    intro total ht
    unfold recalculatePrediction subsetScores headIndices headOutputs
    simp only [hfst]
    rw [ht, ok_bind, s1, ok_bind]
  constructor
  · intro hr
    have hle : n ≤ c := by
      by_contra hlt
      exact recalculate_fault (by omega) _ _ _ hc.1 _ _ _ hr
    obtain ⟨total, t1, t2⟩ := subsetTotal_ok hl hc hw hm hle
    rw [hform total t1] at hr
    obtain ⟨r, r1, r2⟩ := bind_ok hr
    have hlt := hreads total r r1
    obtain ⟨r', r3, r4⟩ := hscores total hlt
    rw [r1] at r3
    cases r3
    rw [hreplace _ r4] at r2
    cases r2
    exact ⟨rfl, hle, fun j hj => t2 ▸ hlt j hj⟩
  · rintro ⟨rfl, hle, hlt⟩
    obtain ⟨total, t1, t2⟩ := subsetTotal_ok hl hc hw hm hle
    rw [hform total t1]
    obtain ⟨r', r3, r4⟩ := hscores total (fun j hj => by rw [t2]; exact hlt j hj)
    rw [r3, ok_bind]
    exact hreplace _ r4

/-! ### Training -/

omit [IsStrictOrderedRing K] in
theorem hasZeroWeights_iff {n : Nat} {w : Weights K} (hw : WeightsOk n w) : hasZeroWeights w = true ↔ ∃ e < n, weightAt w e = 0 := by
  cases w with
  | equal k =>
    refine ⟨fun e => (by cases e), ?_⟩
    rintro ⟨e, _, he⟩
    exact absurd (show (1 : K) = 0 from he) one_ne_zero
  | vector l =>
    have hw : l.length = n := hw
    show (l.any (fun w => decide (w = 0))) = true ↔ ∃ e < n, element l e = 0
    rw [List.any_eq_true]
    constructor
    · rintro ⟨x, hx, h0⟩
      obtain ⟨i, hi, rfl⟩ := List.mem_iff_getElem.1 hx
      refine ⟨i, by omega, ?_⟩
      unfold element
      rw [List.getElem?_eq_getElem hi]
      exact of_decide_eq_true h0
    · rintro ⟨e, he, h0⟩
      refine ⟨l[e], List.getElem_mem (by omega), decide_eq_true ?_⟩
      unfold element at h0
      rw [List.getElem?_eq_getElem (by omega)] at h0
      exact h0

/-- The condition under which the `i`-th rule does not cause invalid memory to be accessed. -/
def Admissible (cfg : Config K) (fin : Finishing K) (i : Nat) (rule : Induction.Rule Boosting.Condition K) : Prop :=
  (∃ e < cfg.numExamples, weightAt (cfg.rounds (i + if cfg.useDefaultRule then 1 else 0)).weights e = 0) →
    (fin.recalculate = true → cfg.numExamples ≤ cfg.numOutputs ∧ ∀ j, (predictedValue rule.head j).isSome = true → j < cfg.numExamples) ∧
    (fin.pruning.isSome = true → rule.conditions.length ≤ 1)

theorem pruneRule_iff {pruning : Option (Evaluation K)} (hp : pruning = none ∨ cfg.numOutputs < cfg.numExamples) {majority : List Nat} {k : Nat}
    {m : CoverageMatrix K} (hm : m.cells.length = cfg.numExamples * cfg.numOutputs) (hw : WeightsOk cfg.numExamples (cfg.rounds k).weights)
    {gr : Grown (FeatureSpace.Subspace Unit) Boosting.Condition (Predictor.Head K)} {head : Predictor.Head K}
    {p : Pruned (FeatureSpace.Subspace Unit) Boosting.Condition} :
    cfg.pruneRule pruning majority k m gr head = .ok p ↔
      p = ⟨gr.conditions, none, gr.subspace⟩ ∧ (pruning.isSome = true → gr.conditions.length ≤ 1) := by
  unfold Config.pruneRule
  cases pruning with
  | none =>
    simp only [Option.isSome_none, Bool.false_eq_true, false_implies, and_true]
    exact ⟨fun e => by cases e; rfl, fun e => by rw [e]⟩
  | some ev =>
    have hlt := hp.resolve_left (by simp)
    simp only [Option.isSome_some, true_implies]
    unfold Induction.prune
    by_cases hl : 1 < gr.conditions.length
    · rw [if_pos hl]
      refine ⟨fun e => ?_, fun e => absurd e.2 (by omega)⟩
      obtain ⟨q, h1, _⟩ := bind_ok e
      exact absurd h1 (evaluate_fault hlt _ _ _ hm hw _ _ _)
    · rw [if_neg hl]
      exact ⟨fun e => by cases e; exact ⟨rfl, by omega⟩, fun e => by rw [e.1]; rfl⟩

theorem finishRule_iff (hok : ConfigOk cfg label values h) {fin : Finishing K} (hp : fin.pruning = none ∨ cfg.numOutputs < cfg.numExamples)
    {majority : List Nat} (hm : majority.Pairwise (· < ·)) {S : K} {st : State K} (ht : Trained cfg values h majority S st)
    {gr : Grown (FeatureSpace.Subspace Unit) Boosting.Condition (Predictor.Head K)} {head : Predictor.Head K} {i : Nat}
    (hh : LearnedHead cfg.evaluation cfg.numOutputs majority head) {rule : Induction.Rule Boosting.Condition K} {s : FeatureSpace.Subspace Unit} :
    cfg.finishRule fin majority (i + if cfg.useDefaultRule then 1 else 0) st.matrix gr head = .ok (rule, s) ↔
      rule = ⟨gr.conditions, head⟩ ∧ s = gr.subspace ∧ Admissible cfg fin i ⟨gr.conditions, head⟩ := by
  unfold Config.finishRule Admissible
  rw [← hasZeroWeights_iff (hok.rounds _).weights]
  cases hz : hasZeroWeights (cfg.rounds (i + if cfg.useDefaultRule then 1 else 0)).weights with
  | false =>
    simp only [Bool.false_eq_true, false_implies, and_true]
    exact ⟨fun e => by cases e; exact ⟨rfl, rfl⟩, fun e => by rw [e.1, e.2]⟩
  | true =>
    simp only [true_implies]
    have hrec : ∀ (p : Pruned (FeatureSpace.Subspace Unit) Boosting.Condition) (head' : Predictor.Head K),
        cfg.recalculateHead fin.recalculate majority st.matrix p head = .ok head' ↔ head' = head ∧
          (fin.recalculate = true → cfg.numExamples ≤ cfg.numOutputs ∧ ∀ j, (predictedValue head j).isSome = true → j < cfg.numExamples) := by
      intro p head'
      unfold Config.recalculateHead
      cases fin.recalculate with
      | false =>
        simp only [Bool.false_eq_true, false_implies, and_true]
        exact ⟨fun e => by cases e; rfl, fun e => by rw [e]⟩
      | true =>
        simp only [true_implies]
        exact recalculate_iff hok.labels ht.isCoverage hm hok.evaluation _ hh _
    constructor
    · intro e
      obtain ⟨p, e1, e⟩ := bind_ok e
      obtain ⟨head', e2, e⟩ := bind_ok e
      cases e
      obtain ⟨rfl, e3⟩ := (pruneRule_iff hp ht.isCoverage.1 (hok.rounds _).weights).1 e1
      obtain ⟨rfl, e4⟩ := (hrec _ _).1 e2
      exact ⟨rfl, rfl, e4, e3⟩
    · rintro ⟨rfl, rfl, e4, e3⟩
      rw [(pruneRule_iff hp ht.isCoverage.1 (hok.rounds _).weights).2 ⟨rfl, e3⟩, ok_bind, (hrec _ _).2 ⟨rfl, e4⟩, ok_bind]
      rfl

omit [IsStrictOrderedRing K] in
theorem assembleWith_cases {fin : Finishing K} {majority : List Nat} {growFuel fuel numRules : Nat}
    {criteria : List (Criterion (CriterionState K) (CoverageMatrix K))} {st st' : State K} :
    cfg.assembleWith fin majority growFuel (fuel + 1) criteria numRules st = Run.done st' ↔
    ∃ result criteria', listTest criteria st.matrix numRules = .ok (result, criteria') ∧
      ((result.stop = true ∧ st' = st) ∨
      result.stop = false ∧ ∃ gr, cfg.growNext majority numRules growFuel st.matrix = Run.done gr ∧
        ((gr.head = none ∧ st' = st) ∨
        ∃ head rule s m, gr.head = some head ∧ cfg.finishRule fin majority numRules st.matrix gr head = .ok (rule, s) ∧
          execCall majority cfg.numExamples ⟨Tabular.covers s, rule.head, false⟩ st.matrix = .ok m ∧
          cfg.assembleWith fin majority growFuel fuel criteria' (numRules + 1) (st.addRule m rule) = Run.done st')) := by
  constructor
  · intro hr
    rw [Config.assembleWith] at hr
    obtain ⟨⟨result, criteria'⟩, h1, h2⟩ := lift_bind_done hr
    refine ⟨result, criteria', h1, ?_⟩
    simp only at h2
    cases hstop : result.stop with
    | true =>
      rw [hstop] at h2
      exact Or.inl ⟨rfl, (Run.done_inj h2).symm⟩
    | false =>
      rw [hstop] at h2
      refine Or.inr ⟨rfl, ?_⟩
      simp only at h2
      obtain ⟨x, h3, h4⟩ := run_bind_done h2
      unfold Config.induceRuleWith at h3
      obtain ⟨gr, h5, h6⟩ := run_bind_done h3
      refine ⟨gr, h5, ?_⟩
      cases hhead : gr.head with
      | none =>
        simp only [hhead] at h6
        cases Run.done_inj h6
        exact Or.inl ⟨rfl, (Run.done_inj h4).symm⟩
      | some head =>
        simp only [hhead] at h6
        obtain ⟨⟨rule, s⟩, h7, h8⟩ := lift_bind_done h6
        obtain ⟨m, h9, h10⟩ := lift_bind_done h8
        cases Run.done_inj h10
        exact Or.inr ⟨head, rule, s, m, rfl, h7, h9, h4⟩
  · rintro ⟨result, criteria', h1, h2⟩
    rw [Config.assembleWith, bind_lift_ok h1]
    rcases h2 with ⟨hs, rfl⟩ | ⟨hs, gr, hg, h3⟩
    · simp only [hs]
    · simp only [hs]
      unfold Config.induceRuleWith
      rw [hg]
      rcases h3 with ⟨hn, rfl⟩ | ⟨head, rule, s, m, hh, hf, hc, hr⟩
      · rw [Run.done_bind]
        simp only [hn]
        rfl
      · rw [Run.done_bind]
        simp only [hh]
        rw [bind_lift_ok hf]
        simp only
        rw [bind_lift_ok hc, Run.done_bind]
        exact hr

omit [IsStrictOrderedRing K] in
theorem assemble_step {majority : List Nat} {growFuel fuel numRules : Nat} {criteria criteria' : List (Criterion (CriterionState K) (CoverageMatrix K))}
    {st : State K} {result : Result} (h1 : listTest criteria st.matrix numRules = .ok (result, criteria')) :
    (result.stop = true → cfg.assemble majority growFuel (fuel + 1) criteria numRules st = Run.done st) ∧
    (result.stop = false → ∀ gr, cfg.growNext majority numRules growFuel st.matrix = Run.done gr →
      (gr.head = none → cfg.assemble majority growFuel (fuel + 1) criteria numRules st = Run.done st) ∧
      ∀ head m, gr.head = some head → execCall majority cfg.numExamples ⟨Tabular.covers gr.subspace, head, false⟩ st.matrix = .ok m →
        cfg.assemble majority growFuel (fuel + 1) criteria numRules st =
          cfg.assemble majority growFuel fuel criteria' (numRules + 1) (st.addRule m ⟨gr.conditions, head⟩)) := by
  rw [Config.assemble, bind_lift_ok h1]
  refine ⟨fun hs => by simp only [hs], fun hs gr hg => ?_⟩
  simp only [hs]
  unfold Config.induceRule
  rw [hg, Run.done_bind]
  refine ⟨fun hn => ?_, fun head m hh hc => ?_⟩
  · simp only [hn]
    rfl
  · simp only [hh]
    rw [bind_lift_ok hc, Run.done_bind]

/-- Training with and without pruning and recalculation. -/
theorem assembleWith_iff (hok : ConfigOk cfg label values h) {fin : Finishing K} (hp : fin.pruning = none ∨ cfg.numOutputs < cfg.numExamples)
    {majority : List Nat} (hm : majority.Pairwise (· < ·)) {S : K} {growFuel : Nat} :
    ∀ (fuel : Nat) (criteria : List (Criterion (CriterionState K) (CoverageMatrix K))) (st st' : State K),
      Trained cfg values h majority S st → st'.builder.rules.length < 2 ^ 32 →
      (cfg.assembleWith fin majority growFuel fuel criteria (st.builder.rules.length + (if cfg.useDefaultRule then 1 else 0)) st = Run.done st' ↔
        cfg.assemble majority growFuel fuel criteria (st.builder.rules.length + (if cfg.useDefaultRule then 1 else 0)) st = Run.done st' ∧
        ∀ i rule, st.builder.rules.length ≤ i → st'.builder.rules[i]? = some rule → Admissible cfg fin i rule)
  | 0, criteria, st, st', ht, hlen => by
    rw [Config.assemble, Config.assembleWith]
    exact ⟨fun e => absurd e.symm Run.done_ne_unfinished, fun e => absurd e.1.symm Run.done_ne_unfinished⟩
  | fuel + 1, criteria, st, st', ht, hlen => by
    have hnone : ∀ i rule, st.builder.rules.length ≤ i → st.builder.rules[i]? = some rule → Admissible cfg fin i rule := by
      intro i rule hi he
      rw [List.getElem?_eq_none hi] at he
      cases he
    have hnum : ∀ m rule, st.builder.rules.length + (if cfg.useDefaultRule then 1 else 0) + 1 =
        (st.addRule m rule).builder.rules.length + (if cfg.useDefaultRule then 1 else 0) := by
      intro m rule
      unfold State.addRule
      simp
      omega
    have hrules : ∀ m rule, (st.addRule m rule).builder.rules = st.builder.rules ++ [rule] := fun _ _ => rfl
    -- the rule that is added remains part of the model
    have hkeep : ∀ criteria' m rule, Trained cfg values h majority S (st.addRule m rule) →
        cfg.assemble majority growFuel fuel criteria' (st.builder.rules.length + (if cfg.useDefaultRule then 1 else 0) + 1) (st.addRule m rule) =
          Run.done st' → st.builder.rules.length + 1 < 2 ^ 32 ∧ st'.builder.rules[st.builder.rules.length]? = some rule := by
      intro criteria' m rule htr hr
      rw [hnum m rule] at hr
      obtain ⟨p1, _⟩ := assemble_grown hok hm fuel _ _ _ htr hr hlen
      rw [hrules] at p1
      obtain ⟨post, hpost⟩ := p1
      have hl := congrArg List.length hpost
      rw [List.length_append, List.length_append, List.length_singleton] at hl
      refine ⟨by omega, ?_⟩
      rw [← hpost, List.append_assoc, List.getElem?_append_right (Nat.le_refl _), Nat.sub_self]
      rfl
    constructor
    · intro hr
      obtain ⟨result, criteria', h1, h2⟩ := assembleWith_cases.1 hr
      obtain ⟨a1, a2⟩ := assemble_step (cfg := cfg) (majority := majority) (growFuel := growFuel) (fuel := fuel) h1
      rcases h2 with ⟨hs, rfl⟩ | ⟨hs, gr, hg, ⟨hn, rfl⟩ | ⟨head, rule, s, m, hhead, hf, hcall, h3⟩⟩
      · exact ⟨a1 hs, hnone⟩
      · exact ⟨(a2 hs gr hg).1 hn, hnone⟩
      · obtain ⟨rfl, rfl, hadm⟩ := (finishRule_iff hok hp hm ht (ht.learned hok hm hg hhead)).1 hf
        have hlong : ∀ (fuel numRules : Nat) (criteria : List (Criterion (CriterionState K) (CoverageMatrix K))) (st st' : State K),
            cfg.assembleWith fin majority growFuel fuel criteria numRules st = Run.done st' →
            st.builder.rules.length ≤ st'.builder.rules.length := by
          intro fuel
          induction fuel with
          | zero =>
            intro numRules criteria st st' e
            rw [Config.assembleWith] at e
            exact absurd e.symm Run.done_ne_unfinished
          | succ fuel ih =>
            intro numRules criteria st st' e
            obtain ⟨result, criteria', _, e2⟩ := assembleWith_cases.1 e
            rcases e2 with ⟨_, rfl⟩ | ⟨_, gr, _, ⟨_, rfl⟩ | ⟨head, rule, s, m, _, _, _, e3⟩⟩
            · exact le_rfl
            · exact le_rfl
            · have := ih _ _ _ _ e3
              unfold State.addRule at this
              simp at this
              omega
        have hlen' : st.builder.rules.length + 1 < 2 ^ 32 := by
          have := hlong _ _ _ _ _ h3
          rw [hrules, List.length_append, List.length_singleton] at this
          omega
        obtain ⟨_, gr', _, huniq, hadd⟩ := ht.induce hok hm (st.builder.rules.length + (if cfg.useDefaultRule then 1 else 0))
        cases huniq _ _ hg
        obtain ⟨m', m1, m2⟩ := hadd head hhead hlen'
        rw [hcall] at m1
        cases m1
        rw [hnum m ⟨gr.conditions, head⟩] at h3
        obtain ⟨i1, i2⟩ := (assembleWith_iff hok hp hm fuel _ _ _ m2 hlen).1 h3
        refine ⟨by rw [(a2 hs gr hg).2 head m hhead hcall, hnum m ⟨gr.conditions, head⟩]; exact i1, fun i rule hi he => ?_⟩
        rcases Nat.lt_or_ge st.builder.rules.length i with hlt | hge
        · exact i2 i rule (by rw [hrules, List.length_append, List.length_singleton]; omega) he
        · have hi' : i = st.builder.rules.length := by omega
          subst hi'
          rw [← hnum m ⟨gr.conditions, head⟩] at i1
          rw [(hkeep _ _ _ m2 i1).2] at he
          cases he
          exact hadm
    · rintro ⟨hr, hadm⟩
      obtain ⟨result, criteria', h1, h2⟩ := assemble_cases hr
      rcases h2 with ⟨hs, rfl⟩ | ⟨hs, gr, hg, ⟨hn, rfl⟩ | ⟨head, m, hhead, hcall, h3⟩⟩
      · exact assembleWith_cases.2 ⟨result, criteria', h1, Or.inl ⟨hs, rfl⟩⟩
      · exact assembleWith_cases.2 ⟨result, criteria', h1, Or.inr ⟨hs, gr, hg, Or.inl ⟨hn, rfl⟩⟩⟩
      · have hlen' : st.builder.rules.length + 1 < 2 ^ 32 := by
          have := (assemble_default _ _ _ _ _ h3).2
          rw [hrules, List.length_append, List.length_singleton] at this
          omega
        obtain ⟨_, gr', _, huniq, hadd⟩ := ht.induce hok hm (st.builder.rules.length + (if cfg.useDefaultRule then 1 else 0))
        cases huniq _ _ hg
        obtain ⟨m', m1, m2⟩ := hadd head hhead hlen'
        rw [hcall] at m1
        cases m1
        have hf := (finishRule_iff hok hp hm ht (gr := gr) (ht.learned hok hm hg hhead)).2
          ⟨rfl, rfl, hadm _ _ (Nat.le_refl _) (hkeep _ _ _ m2 h3).2⟩
        refine assembleWith_cases.2 ⟨result, criteria', h1, Or.inr ⟨hs, gr, hg, Or.inr ⟨head, _, _, m, hhead, hf, hcall, ?_⟩⟩⟩
        rw [hnum m ⟨gr.conditions, head⟩] at h3 ⊢
        refine (assembleWith_iff hok hp hm fuel _ _ _ m2 hlen).2 ⟨h3, fun i rule hi he => hadm i rule ?_ he⟩
        rw [hrules, List.length_append, List.length_singleton] at hi
        omega

/-- **C96**: if rules are not pruned, or if there are more examples than labels, training ends with the same model as training without pruning and
recalculation (see C83), if and only if, for each rule that is learned from a sample, there are at least as many labels as examples and the rule
predicts for labels whose indices are less than the number of examples (if predictions are recalculated), and the rule has at most one condition (if
rules are pruned). Otherwise, invalid memory is accessed. What is missing: pruning if there are at most as many examples as labels. -/
theorem seco_finishing_partial (hok : ConfigOk cfg label values h) {fin : Finishing K} (hp : fin.pruning = none ∨ cfg.numOutputs < cfg.numExamples)
    {memory : List Nat} (hmem : memory.length = cfg.numOutputs) {fuel : Nat} {r : Fitted K} (hlen : r.model.rules.length < 2 ^ 32) :
    cfg.fitWith fin memory fuel = Run.done r ↔ cfg.fit memory fuel = Run.done r ∧
      ∀ i rule, r.model.rules[i]? = some rule → Admissible cfg fin i rule := by
  unfold Config.fitWith Config.fit
  rw [bind_lift_ok (createStatistics_ok hok hmem), bind_lift_ok (createStatistics_ok hok hmem)]
  simp only
  unfold Config.induceRulesWith Config.induceRules
  cases hst : cfg.start (majorityLabels cfg.numExamples cfg.numOutputs label) ⟨cfg.numOutputs, List.replicate (cfg.numExamples * cfg.numOutputs) 0,
    (numCells cfg.numExamples cfg.numOutputs (fun i j => label i j ≠ isMajority cfg.numExamples label j) : K)⟩ with
  | error e =>
    refine ⟨fun hr => ?_, fun hr => ?_⟩
    · obtain ⟨st, h1, _⟩ := run_bind_done hr
      obtain ⟨st0, h2, _⟩ := lift_bind_done h1
      cases h2
    · obtain ⟨st, h1, _⟩ := run_bind_done hr.1
      obtain ⟨st0, h2, _⟩ := lift_bind_done h1
      cases h2
  | ok st0 =>
    obtain ⟨t1, t2⟩ := start_trained (values := values) (h := h) (majorityLabels_sorted _ _ _) hst
    have hnum : (if cfg.useDefaultRule then 1 else 0) = st0.builder.rules.length + (if cfg.useDefaultRule then 1 else 0) := by
      rw [t2]
      simp
    have hzero : st0.builder.rules.length = 0 := by rw [t2]; rfl
    rw [bind_lift_ok rfl, bind_lift_ok rfl]
    have hmodel : ∀ st : State K, (st.builder.buildModel false).rules = st.builder.rules := fun st => by
      rw [IntermediateModelBuilder.buildModel_eq]
    constructor
    · intro hr
      obtain ⟨st, h1, h2⟩ := run_bind_done hr
      cases Run.done_inj h2
      rw [hmodel] at hlen
      rw [hnum] at h1
      obtain ⟨k1, k2⟩ := (assembleWith_iff hok hp (majorityLabels_sorted _ _ _) _ _ _ _ t1 hlen).1 h1
      rw [← hnum] at k1
      rw [k1]
      refine ⟨rfl, fun i rule he => k2 i rule (by omega) ?_⟩
      rw [← hmodel]
      exact he
    · rintro ⟨hr, hadm⟩
      obtain ⟨st, h1, h2⟩ := run_bind_done hr
      cases Run.done_inj h2
      rw [hmodel] at hlen
      rw [hnum] at h1
      have k := (assembleWith_iff (fin := fin) hok hp (majorityLabels_sorted _ _ _) _ _ _ _ t1 hlen).2 ⟨h1, fun i rule _ he => hadm i rule (by
        show (st.builder.buildModel false).rules[i]? = _
        rw [hmodel]
        exact he)⟩
      rw [← hnum] at k
      rw [k]
      rfl

/-- **C96**, negation: if each rule is learned from a sample, predictions are recalculated (as it is the case by default) and there are more examples
than labels, training never ends with a model that contains any rule. -/
theorem seco_recalculate_fault (hok : ConfigOk cfg label values h) {fin : Finishing K} (hrec : fin.recalculate = true)
    (hlt : cfg.numOutputs < cfg.numExamples) (hz : ∀ k, ∃ e < cfg.numExamples, weightAt (cfg.rounds k).weights e = 0)
    {memory : List Nat} (hmem : memory.length = cfg.numOutputs) {fuel : Nat} {r : Fitted K} (hlen : r.model.rules.length < 2 ^ 32)
    (hr : cfg.fitWith fin memory fuel = Run.done r) : r.model.rules = [] ∧ cfg.useDefaultRule = false := by
  obtain ⟨h1, h2⟩ := (seco_finishing_partial hok (Or.inr hlt) hmem hlen).1 hr
  constructor
  · cases hrules : r.model.rules with
    | nil => rfl
    | cons rule rules =>
      have := ((h2 0 rule (by rw [hrules]; rfl)) (hz _)).1 hrec
      omega
  · cases hd : cfg.useDefaultRule with
    | false => rfl
    | true => exact absurd h1 (seco_default_fault hok hmem hd hlt fuel r)

/-- **C96**, negation: if each rule is learned from a sample, rules are pruned and there are more examples than labels, training never ends with a model
that contains a rule with more than one condition. -/
theorem seco_pruning_fault (hok : ConfigOk cfg label values h) {fin : Finishing K} (hpr : fin.pruning.isSome = true)
    (hlt : cfg.numOutputs < cfg.numExamples) (hz : ∀ k, ∃ e < cfg.numExamples, weightAt (cfg.rounds k).weights e = 0)
    {memory : List Nat} (hmem : memory.length = cfg.numOutputs) {fuel : Nat} {r : Fitted K} (hlen : r.model.rules.length < 2 ^ 32)
    (hr : cfg.fitWith fin memory fuel = Run.done r) : ∀ rule ∈ r.model.rules, rule.conditions.length ≤ 1 := by
  obtain ⟨_, h2⟩ := (seco_finishing_partial hok (Or.inr hlt) hmem hlen).1 hr
  intro rule hrule
  obtain ⟨i, hi, rfl⟩ := List.mem_iff_getElem.1 hrule
  exact (h2 i _ (List.getElem?_eq_getElem hi) (hz _)).2 hpr

end

/-! ### Examples -/

/-- The weights of the examples: they are drawn with replacement. -/
def exDrawnWeights (even : Bool) : List ℚ := if even then [1, 1, 2, 0] else [0, 2, 1, 1]

/-- A separate-and-conquer algorithm that learns each rule from a sample of four examples with `c` labels. -/
def exDrawn (c : Nat) (labels : List Bool) (features : List Nat) (useDefaultRule : Bool) : Config ℚ where
  numExamples := 4
  numOutputs := c
  labels := .dense labels
  grow := ⟨1, 2, 0⟩
  evaluation := singleEvaluation .precision
  useDefaultRule := useDefaultRule
  rounds k := ⟨TrainingLoss.drawnEnv (k % 2 == 0), .vector (exDrawnWeights (k % 2 == 0)), fun _ => features, none, fun _ => Induction.sequentially⟩
  maxRules := some 6
  timeLimit := none
  threshold := some 0
  clock n := n

theorem exDrawn_ok {c : Nat} {labels : List Bool} (features : List Nat) (useDefaultRule : Bool) (hc : 0 < c) (hlen : labels.length = 4 * c) :
    ConfigOk (exDrawn c labels features useDefaultRule) (fun i j => (labels[i * c + j]?).getD false) Tabular.exTableValues .precision where
  labels := .dense labels hlen (fun i (hi : i < 4) j (hj : j < c) => by
    show labels[i * c + j]? = _
    have : i * c + j < labels.length := by
      rw [hlen]
      have := row_le (c := c) hi
      have : i * c + c ≤ 4 * c := this
      omega
    rw [List.getElem?_eq_getElem this]
    rfl)
  outputs := hc
  evaluation := .single .precision
  rounds k := by
    have key : ∀ b, RoundOk (⟨TrainingLoss.drawnEnv b, .vector (exDrawnWeights b), fun _ => features, none, fun _ => Induction.sequentially⟩ : Round ℚ)
        4 c Tabular.exTableValues := fun b =>
      { table := TrainingLoss.drawnEnv_ok b
        weights := by cases b <;> rfl
        nonneg := fun e he => by
          show 0 ≤ weightAt (.vector (exDrawnWeights b) : Weights ℚ) e
          match e, he with
          | 0, _ | 1, _ | 2, _ | 3, _ => cases b <;> decide +kernel
        nonZero := fun e he => by
          show (TrainingLoss.drawnEnv b).nonZero e = decide (weightAt (.vector (exDrawnWeights b) : Weights ℚ) e ≠ 0)
          match e, he with
          | 0, _ | 1, _ | 2, _ | 3, _ => cases b <;> decide +kernel
        sampled := fun l hl => by cases hl
        schedule := fun k candidates => Induction.sequentially_interleaving candidates }
    exact key _

theorem exDrawn_zero {c : Nat} {labels : List Bool} {features : List Nat} {useDefaultRule : Bool} (k : Nat) :
    ∃ e < (exDrawn c labels features useDefaultRule).numExamples, weightAt ((exDrawn c labels features useDefaultRule).rounds k).weights e = 0 := by
  show ∃ e < 4, weightAt (.vector (exDrawnWeights (k % 2 == 0)) : Weights ℚ) e = 0
  cases (k % 2 == 0)
  · exact ⟨0, by decide, by decide +kernel⟩
  · exact ⟨3, by decide, by decide +kernel⟩

-- four labels and four examples: predictions are recalculated without accessing invalid memory and training ends with the same model
example : exSummary ((exDrawn 4 exLabels [0, 1, 2] true).fitWith ⟨none, true⟩ [0, 0, 0, 0] 20) =
      some (4, [1], [1, 0, 1, 1, 0, 0, 0, 0, 1, 0, 0, 0, 1, 0, 1, 1], 0) ∧
    exSummary ((exDrawn 4 exLabels [0, 1, 2] true).fit [0, 0, 0, 0] 20) =
      some (4, [1], [1, 0, 1, 1, 0, 0, 0, 0, 1, 0, 0, 0, 1, 0, 1, 1], 0) := by decide +kernel

-- two labels: rules are found, but their predictions cannot be recalculated
example : exSummary ((exDrawn 2 (exLabels.take 8) [0, 1, 2] false).fit [0, 0] 20) = some (2, [], [1, 1, 0, 0, 0, 0, 1, 1], 0) ∧
    exSummary ((exDrawn 2 (exLabels.take 8) [0, 1, 2] false).fitWith ⟨none, true⟩ [0, 0] 20) = none := by decide +kernel

example (fuel : Nat) (r : Fitted ℚ) (hlen : r.model.rules.length < 2 ^ 32)
    (hr : (exDrawn 2 (exLabels.take 8) [0, 1, 2] false).fitWith (.default (singleEvaluation .precision)) [0, 0] fuel = Run.done r) :
    r.model.rules = [] :=
  (seco_recalculate_fault (exDrawn_ok [0, 1, 2] false (by decide) (by decide)) rfl (show 2 < 4 by decide) exDrawn_zero rfl hlen hr).1

-- rules with a single condition are not affected by pruning
example : exSummary ((exDrawn 2 (exLabels.take 8) [0, 1, 2] false).fitWith ⟨some (singleEvaluation .precision), false⟩ [0, 0] 20) =
    some (2, [], [1, 1, 0, 0, 0, 0, 1, 1], 0) := by decide +kernel

/-- Only one of the examples has a relevant label. A rule with two conditions is learned to distinguish it from the other ones. -/
abbrev exTwoConditions : Config ℚ := exDrawn 2 [false, false, true, false, false, false, false, false] [0, 1, 2] false

example : exSummary (exTwoConditions.fit [0, 0] 20) = some (1, [], [0, 0, 1, 0, 0, 0, 1, 0], -1) ∧
    exSummary (exTwoConditions.fitWith ⟨some (singleEvaluation .precision), false⟩ [0, 0] 20) = none := by decide +kernel

example (fuel : Nat) (r : Fitted ℚ) (hlen : r.model.rules.length < 2 ^ 32)
    (hr : exTwoConditions.fitWith ⟨some (singleEvaluation .precision), false⟩ [0, 0] fuel = Run.done r) :
    ∀ rule ∈ r.model.rules, rule.conditions.length ≤ 1 :=
  seco_pruning_fault (exDrawn_ok [0, 1, 2] false (by decide) (by decide)) rfl (show 2 < 4 by decide) exDrawn_zero rfl hlen hr

-- as many labels as examples: one of the two examples that have not been sampled is covered, its label is relevant
example : WeightsOk 4 (.vector ([1, 0, 2, 0] : List ℚ)) ∧ IsCoverage 4 4 (fun _ _ => 0) (List.replicate 16 0) ∧
    evaluateOutOfSample (singleEvaluation .precision) [] (.dense exLabels) 4 4 (List.replicate 16 0) (.vector ([1, 0, 2, 0] : List ℚ))
      (.partial_ [(3, 1)]) (fun e => decide (e ≤ 1)) = .ok (some 1) ∧
    evaluateOutOfSample (singleEvaluation .precision) [] (.dense exLabels) 4 4 (List.replicate 16 0) (.vector ([1, 0, 2, 0] : List ℚ))
      (.partial_ [(0, 1)]) (fun e => decide (e ≤ 1)) = .ok (some 0) := by
  refine ⟨rfl, ?_, ?_⟩
  · unfold IsCoverage
    decide
  · decide +kernel

end MLRL.SecoTraining
