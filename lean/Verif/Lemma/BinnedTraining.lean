import Verif.Model.BinnedTraining
import Verif.Lemma.TrainingLoss
import Verif.Props.LabelBinning

/-! # Lemmas about rule evaluations with label binning -/

namespace MLRL.BinnedTraining

open RuleEval Predictor Induction TrainingLoss LabelBinning

section
variable {K : Type} [Field K] [LinearOrder K] [IsStrictOrderedRing K]

/-- What is required of a rule evaluation: scores are calculated for some of the available outputs, and the quality is not less than the change of
the loss that is expected according to the gradients and Hessians of these outputs. -/
def Bounded (evaluation : Boosting.Evaluation K) : Prop :=
  ∀ all outputs stats scores, outputs.length = stats.length → evaluation.calculateScores all outputs stats = .ok scores →
    ∃ chosen : List ((Nat × Stat K) × K), (∀ c ∈ chosen, c.1 ∈ outputs.zip stats) ∧ (outputs.Nodup → (chosen.map (fun c => c.1.1)).Nodup) ∧
      scores.indices = chosen.map (fun c => c.1.1) ∧ scores.values = chosen.map Prod.snd ∧
      (chosen.map (fun c => c.2 * c.1.2.gradient + 1 / 2 * (c.2 * c.2) * c.1.2.hessian)).sum ≤ scores.quality ∧
      (evaluation.complete = true → scores.indices = outputs)

/-- The head that results from a rule evaluation. -/
theorem bounded_head {evaluation : Boosting.Evaluation K} (he : Bounded evaluation) {n : Nat}
    {outputs : List Nat × Bool} (hall : outputs.2 = true → outputs.1 = List.range n) {sums : Nat → K × K}
    {stats : List (Stat K)} (hst : Boosting.outputStats n outputs.1 sums = .ok stats) {scores : ScoreVector K}
    (hs : evaluation.calculateScores outputs.2 outputs.1 stats = .ok scores) :
    Update.Fits n (Boosting.headOf (evaluation.complete && outputs.2) scores) ∧
      (outputs.1.Nodup → Distinct n (Boosting.headOf (evaluation.complete && outputs.2) scores) ∧
      ∑ j ∈ Finset.range n, (Spec.contribution j (Boosting.headOf (evaluation.complete && outputs.2) scores) * (sums j).1 +
        1 / 2 * (Spec.contribution j (Boosting.headOf (evaluation.complete && outputs.2) scores) *
          Spec.contribution j (Boosting.headOf (evaluation.complete && outputs.2) scores)) * (sums j).2) ≤ scores.quality) := by
  obtain ⟨hlt, rfl⟩ := outputStats_ok hst
  obtain ⟨chosen, c1, c2, c3, c4, c5, c6⟩ := he outputs.2 outputs.1 _ scores (by simp) hs
  have hmem : ∀ c ∈ chosen, c.1.1 ∈ outputs.1 ∧ c.1.2 = ⟨(sums c.1.1).1, (sums c.1.1).2⟩ := by
    intro c hc
    have := c1 c hc
    rw [List.zip_map_right, List.mem_map] at this
    obtain ⟨⟨a, b⟩, g1, g0⟩ := this
    have g2 : a = b := by
      obtain ⟨i, hi⟩ := List.mem_iff_getElem?.1 g1
      rw [List.getElem?_zip_eq_some] at hi
      rw [hi.1] at hi
      exact Option.some.inj hi.2
    subst g2
    rw [← g0]
    exact ⟨(List.of_mem_zip g1).1, rfl⟩
  have hzip : scores.indices.zip scores.values = chosen.map (fun c => (c.1.1, c.2)) := by
    rw [c3, c4, List.zip_map']
  have hlim : ∀ e ∈ scores.indices.zip scores.values, e.1 < n := by
    intro e hm
    rw [hzip] at hm
    obtain ⟨c, hc, rfl⟩ := List.mem_map.1 hm
    exact hlt _ (hmem c hc).1
  have hlen : (evaluation.complete && outputs.2) = true → scores.values.length = n ∧ scores.indices = List.range n := by
    intro hc
    rw [Bool.and_eq_true] at hc
    have hidx := c6 hc.1
    rw [hall hc.2] at hidx
    refine ⟨?_, hidx⟩
    have e1 := congrArg List.length c3
    have e2 := congrArg List.length c4
    rw [hidx] at e1
    simp at e1 e2
    omega
  constructor
  · unfold Boosting.headOf
    split
    · exact (hlen ‹_›).1
    · exact hlim
  intro hnd
  have hkeys : ((scores.indices.zip scores.values).map Prod.fst).Nodup := by
    rw [hzip, List.map_map]
    exact c2 hnd
  have hpart := sum_contribution (fun j v => v * (sums j).1 + 1 / 2 * (v * v) * (sums j).2) (by simp) n
    (scores.indices.zip scores.values) hlim hkeys
  have hsum : ((scores.indices.zip scores.values).map (fun e => e.2 * (sums e.1).1 + 1 / 2 * (e.2 * e.2) * (sums e.1).2)).sum ≤
      scores.quality := by
    refine le_trans (le_of_eq ?_) c5
    rw [hzip, List.map_map]
    refine congrArg List.sum (List.map_congr_left (fun c hc => ?_))
    simp only [Function.comp]
    rw [(hmem c hc).2]
  unfold Boosting.headOf
  split
  · obtain ⟨hl, hidx⟩ := hlen ‹_›
    refine ⟨hl, ?_⟩
    rw [hidx] at hpart hsum
    refine le_trans (le_of_eq ?_) hsum
    rw [← hpart]
    refine Finset.sum_congr rfl (fun j hj => ?_)
    rw [contribution_complete hl (Finset.mem_range.1 hj)]
  · exact ⟨⟨hlim, hkeys⟩, hpart.le.trans hsum⟩

/-- Rule evaluations without label binning meet the requirement. -/
theorem scoring_bounded {l1 l2 : K} (h1 : 0 ≤ l1) (h2 : 0 ≤ l2) {evaluation : Boosting.Evaluation K} (he : Scoring l1 l2 evaluation) :
    Bounded evaluation := by
  intro all outputs stats scores hl hs
  obtain ⟨chosen, c1, c2, c3, c4, c5, c6⟩ := he all outputs stats scores hl hs
  refine ⟨chosen.map (fun c => (c, c.2.score l1 l2)), ?_, ?_, ?_, ?_, ?_, c6⟩
  · intro c hc
    obtain ⟨c', hc', rfl⟩ := List.mem_map.1 hc
    exact c1 c' hc'
  · simpa [Function.comp_def] using c2
  · simpa [Function.comp_def] using c3
  · simpa [Function.comp_def] using c4
  · rw [c5, List.map_map]
    exact List.sum_le_sum (fun c _ => quality_ge c.2 h1 h2 _)

end

/-! ### Label binning -/

/-- The arrays have the sizes the constructor has allocated, and the score of the bin for outputs with a criterion of zero is zero. -/
structure ArraysOk (maxBins numOutputs : Nat) (a : Arrays) : Prop where
  statistics : a.statistics.length = maxBins
  numElementsPerBin : a.numElementsPerBin.length = maxBins
  binIndices : a.binIndices.length = numOutputs
  binValues : a.binValues.length = maxBins + 1
  zero : a.binValues[maxBins]? = some 0

theorem mapM_ok_getElem {α β : Type} {f : α → Res β} : ∀ {l : List α} {r : List β}, l.mapM f = .ok r →
    r.length = l.length ∧ ∀ (i : Nat) (x : α), l[i]? = some x → ∃ y, r[i]? = some y ∧ f x = .ok y
  | [], r, h => by
    cases h
    exact ⟨rfl, fun i x hx => by simp at hx⟩
  | a :: l, r, h => by
    rw [List.mapM_cons] at h
    cases ha : f a with
    | error e => rw [ha] at h; cases h
    | ok b =>
      rw [ha, ok_bind] at h
      cases hl : l.mapM f with
      | error e => rw [hl] at h; cases h
      | ok r' =>
        rw [hl, ok_bind] at h
        cases h
        obtain ⟨g1, g2⟩ := mapM_ok_getElem hl
        refine ⟨by simp [g1], fun i x hx => ?_⟩
        cases i with
        | zero =>
          simp at hx
          exact ⟨b, by simp, hx ▸ ha⟩
        | succ i =>
          obtain ⟨y, h1, h2⟩ := g2 i x (by simpa using hx)
          exact ⟨y, by simpa using h1, h2⟩

theorem loopFrom_each {σ : Type} {f : Nat → σ → Res σ} : ∀ {k i : Nat} {s s' : σ}, loopFrom f i k s = .ok s' →
    ∀ j, i ≤ j → j < i + k → ∃ t t', f j t = .ok t'
  | 0, i, s, s', _, j, h1, h2 => by omega
  | k + 1, i, s, s', h, j, h1, h2 => by
    rw [loopFrom_succ] at h
    cases hs : f i s with
    | error e => rw [hs] at h; cases h
    | ok t =>
      rw [hs, ok_bind] at h
      rcases Nat.eq_or_lt_of_le h1 with rfl | h1
      · exact ⟨s, t, hs⟩
      · exact loopFrom_each h j h1 (by omega)

/-- If scores can be calculated without undefined behaviour, neither the negative nor the positive criteria are all equal, the arrays are large
enough and there are outputs. -/
theorem completeBinned_spread {cfg : LabelBinning.Config} {maxBins : Nat} {l1 l2 : Rat} {stats : List (Stat Rat)} {a : Arrays} {r : Arrays × Rat}
    (h1 : a.statistics.length = maxBins) (h : completeBinned cfg maxBins l1 l2 stats a = .ok r) :
    stats ≠ [] ∧ Spread (stats.map (fun t => t.score l1 l2)) ∧
      (cfg.getLabelInfo (stats.map (fun t => t.score l1 l2))).numPositiveBins +
        (cfg.getLabelInfo (stats.map (fun t => t.score l1 l2))).numNegativeBins ≤ maxBins := by
  unfold completeBinned at h
  generalize hc : stats.map (fun t => t.score l1 l2) = criteria at h ⊢
  have hb : (cfg.getLabelInfo criteria).numPositiveBins + (cfg.getLabelInfo criteria).numNegativeBins ≤ maxBins := by
    by_contra hlt
    rw [too_many_bins h1 (by omega)] at h
    cases h
  unfold binnedScores at h
  simp only at h
  cases hz1 : setZeros (⟨0, 0⟩ : Stat Rat) a.statistics ((cfg.getLabelInfo criteria).numPositiveBins +
      (cfg.getLabelInfo criteria).numNegativeBins) with
  | error e => rw [hz1] at h; cases h
  | ok s1 =>
    rw [hz1, ok_bind] at h
    cases hz2 : setZeros 0 a.numElementsPerBin ((cfg.getLabelInfo criteria).numPositiveBins +
        (cfg.getLabelInfo criteria).numNegativeBins) with
    | error e => rw [hz2] at h; cases h
    | ok s2 =>
      rw [hz2, ok_bind] at h
      cases hcb : (cfg.getLabelInfo criteria).createBins criteria (onBin stats) (onZero maxBins)
          { a with statistics := s1, numElementsPerBin := s2 } with
      | error e => rw [hcb] at h; cases h
      | ok a' =>
        unfold LabelInfo.createBins at hcb
        have hne : criteria ≠ [] := by
          rintro rfl
          unfold Config.getLabelInfo at hcb
          simp only [List.length_nil, lt_irrefl, if_false, useInit] at hcb
          cases hcb
        cases hu : useInit (cfg.getLabelInfo criteria).ranges with
        | error e => rw [hu] at hcb; cases hcb
        | ok ranges =>
          rw [hu, ok_bind] at hcb
          have hbin : ∀ c ∈ criteria, (cfg.getLabelInfo criteria).binOf c ≠ .error .badCast := by
            intro c hmem hbad
            obtain ⟨i, hi, rfl⟩ := List.getElem_of_mem hmem
            unfold loop at hcb
            obtain ⟨t, t', ht⟩ := loopFrom_each hcb i (by omega) (by omega)
            simp only [readAt_of_lt hi] at ht
            rw [ok_bind, hbad] at ht
            cases ht
          refine ⟨fun h0 => hne (by rw [← hc, h0]; rfl), ⟨fun c hm h0 => ?_, fun c hm h0 => ?_⟩, hb⟩
          · by_contra hno
            exact hbin c hm (equal_negative_undefined hm h0 (fun c' hc' hn => by_contra (fun hne => hno ⟨c', hc', hn, hne⟩)))
          · by_contra hno
            exact hbin c hm (equal_positive_undefined hm h0 (fun c' hc' hn => by_contra (fun hne => hno ⟨c', hc', hn, hne⟩)))

end MLRL.BinnedTraining
