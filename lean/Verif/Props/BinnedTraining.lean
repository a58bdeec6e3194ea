import Verif.Lemma.BinnedTraining
import Verif.Props.TrainingLoss

/-! # C87: boosting with label binning -/

namespace MLRL.BinnedTraining

open RuleEval Predictor Induction TrainingLoss LabelBinning Refinement

/-- **C87** for a single evaluation: whenever scores are calculated for complete heads without undefined behaviour, the scores in the head are those of the bins
the outputs belong to, and the quality is not less than the change of the loss that is expected if these scores are predicted. -/
theorem complete_bounded {cfg : LabelBinning.Config} (hcfg : Accepted cfg) {l1 l2 : Rat} (h1 : 0 ≤ l1) (h2 : 0 ≤ l2) {arrays : List Nat → Arrays}
    (ha : ∀ outputs, ArraysOk (cfg.getMaxBins outputs.length) outputs.length (arrays outputs)) :
    Bounded (completeEvaluation cfg l1 l2 arrays) := by
  intro all outputs stats scores hl hs
  simp only [completeEvaluation] at hs
  by_cases hsmall : 2 ^ 32 ≤ outputs.length
  · rw [if_pos hsmall] at hs
    cases hs
  rw [if_neg hsmall] at hs
  cases hc : completeBinned cfg (cfg.getMaxBins outputs.length) l1 l2 stats (arrays outputs) with
  | error e => rw [hc] at hs; cases hs
  | ok r =>
    rw [hc, ok_bind] at hs
    cases hv : binnedValues r.1 outputs.length with
    | error e => rw [hv] at hs; cases hs
    | ok values =>
      rw [hv, ok_bind] at hs
      cases hs
      have hok := ha outputs
      obtain ⟨s1, s2, s3⟩ := completeBinned_spread hok.statistics hc
      obtain ⟨a', quality, p, idx, p1, p2, -, -, p5, -⟩ := completeBinned_optimal_partial hcfg s1 (by omega) s2 s3 hok.statistics
        hok.numElementsPerBin (by rw [hok.binIndices, hl]) hok.binValues hok.zero
      rw [hc] at p1
      cases p1
      obtain ⟨v1, v2⟩ := mapM_ok_getElem hv
      rw [List.length_range] at v1
      have hval : ∀ i < outputs.length, values[i]? = some (p i) := by
        intro i hi
        obtain ⟨y, y1, y2⟩ := v2 i i (by simp [hi])
        obtain ⟨q1, q2⟩ := p2 i (by omega)
        rw [y1]
        unfold LabelBinning.prediction at q2
        rw [q1] at q2
        simp only [readAt, q1] at y2
        rw [ok_bind] at y2
        simp only [Option.bind_eq_bind, Option.bind_some] at q2
        rw [q2] at y2
        cases y2
        rfl
      refine ⟨(outputs.zip stats).zip values, fun c hc => (List.of_mem_zip hc).1, fun hn => ?_, ?_, ?_, ?_, fun _ => rfl⟩
      · rw [show (fun c : (Nat × Stat Rat) × Rat => c.1.1) = Prod.fst ∘ Prod.fst from rfl, ← List.map_map, List.map_fst_zip (by simp; omega)]
        exact zip_fst_nodup hn hl
      · rw [show (fun c : (Nat × Stat Rat) × Rat => c.1.1) = Prod.fst ∘ Prod.fst from rfl, ← List.map_map, List.map_fst_zip (by simp; omega),
          List.map_fst_zip (by omega)]
      · rw [List.map_snd_zip (by simp; omega)]
      · rw [p5]
        have hlist : ((outputs.zip stats).zip values).map (fun c => c.2 * c.1.2.gradient + 1 / 2 * (c.2 * c.2) * c.1.2.hessian) =
            (List.range stats.length).map (fun i => p i * (statAt stats i).gradient + 1 / 2 * (p i * p i) * (statAt stats i).hessian) := by
          refine List.ext_getElem (by simp; omega) (fun i g1 g2 => ?_)
          have hi : i < stats.length := by simpa using g2
          have hvi := hval i (by omega)
          rw [List.getElem?_eq_getElem (by omega), Option.some.injEq] at hvi
          have hsi : statAt stats i = stats[i] := by
            unfold statAt
            rw [List.getElem?_eq_getElem hi]
            rfl
          simp only [List.getElem_map, List.getElem_zip, List.getElem_range, hvi, hsi]
        rw [hlist, list_sum_range]
        unfold totalObjective
        refine Finset.sum_le_sum (fun i _ => ?_)
        unfold objective
        have e1 : 0 ≤ l1 * |p i| := mul_nonneg h1 (abs_nonneg _)
        have e2 : 0 ≤ l2 * (p i * p i) := mul_nonneg h2 (mul_self_nonneg _)
        nlinarith

section
variable {σ T : Type} {K : Type} [Field K] [LinearOrder K] [IsStrictOrderedRing K]

/-- What is assumed of a boosting algorithm: rules are evaluated by an evaluation that is `Bounded`, everything else is as assumed in C79. -/
structure BoundedOk (cfg : Boosting.Config σ K) (data : Data K T) (update : T → K → Stat K) (values : Nat → Nat → Option Rat)
    (l1 l2 : K) : Prop where
  evaluation : Bounded cfg.evaluation
  other : ConfigOk { cfg with evaluation := cfg.defaultEvaluation } data update values l1 l2

theorem bounded_setup {cfg : Boosting.Config σ K} {data : Data K T} {update : T → K → Stat K} {values : Nat → Nat → Option Rat} {l1 l2 : K}
    (hb : BoundedOk cfg data update values l1 l2) :
    BoostingOk cfg.setup data update (Boosting.Condition.holds values) (fun r : List K => r.length = data.numOutputs) Update.denseValue
      (UpToDate data update) cfg.shrinkage := by
  have h := hb.other
  have hbase := config_setup h
  refine ⟨⟨hbase.setup.learner, fun n => ⟨fun cells => h.searchSchedule n, ?_, ?_⟩, hbase.setup.defaultHead, fun _ => Or.inr rfl⟩, h.numExamples, rfl, rfl,
    h.positive, h.atMostOne, contribution_shrink _, h.weights, ?_⟩
  · intro cells k s o candidates hc x hx
    simp only [Boosting.Config.setup, Boosting.Config.round] at hc
    obtain ⟨f, _, l, hl, c, hcl, stats, scoreVector, hst, hev, rfl⟩ := candidates_origin hc x hx
    have hn : cfg.numOutputs = data.numOutputs := h.numOutputs
    rw [hn] at hst hev ⊢
    have hall : (Boosting.searchOutputs data.numOutputs (cfg.sampledOutputs n) o).2 = true →
        (Boosting.searchOutputs data.numOutputs (cfg.sampledOutputs n) o).1 = List.range data.numOutputs := by
      cases o with
      | none => cases hsm : cfg.sampledOutputs n <;> simp [Boosting.searchOutputs]
      | some hd => cases hd <;> simp [Boosting.searchOutputs]
    have hfit := (bounded_head hb.evaluation hall hst hev).1
    simp only [Boosting.Config.setup, Boosting.Config.learner]
    revert hfit
    cases Boosting.headOf (cfg.evaluation.complete && (Boosting.searchOutputs data.numOutputs (cfg.sampledOutputs n) o).2) scoreVector with
    | complete values => exact id
    | partial_ entries =>
      intro hfit e he
      exact hfit e ((List.perm_insertionSort _ _).mem_iff.1 he)
  · show ∀ call, Interleaving (Update.Call.tasks cfg.updates call cfg.numExamples) (cfg.applySchedule n call)
    have hn : cfg.numExamples = data.numExamples := h.numExamples
    rw [hn]
    exact h.applySchedule n
  · intro n cells scores hcells hsc k s o candidates ho hc x hx
    simp only [Boosting.Config.setup, Boosting.Config.round] at hc
    obtain ⟨f, _, l, hl, c, hcl, stats, scoreVector, hst, hev, rfl⟩ := candidates_origin hc x hx
    have hn : cfg.numOutputs = data.numOutputs := h.numOutputs
    have hweight : cfg.weight = data.weight := h.weight
    rw [hn] at hst hev ⊢
    rw [hweight] at hl
    obtain ⟨o1, o2⟩ := searchOutputs_ok (h.sampledOutputs n) ho
    obtain ⟨g1, g2⟩ := (bounded_head hb.evaluation o2 hst hev).2 o1
    refine ⟨distinct_sortHead g1, le_trans (le_of_eq ?_) g2⟩
    have hsum := h.searchFeature f s _ l (by
      intro e hz
      have hw : data.weight e = 0 := by simpa using hz
      funext j
      unfold Boosting.weightedStat
      split
      · rfl
      · split
        · rfl
        · rw [hw, zero_mul, zero_mul]; rfl) hl c hcl
    unfold Data.estimate
    refine Finset.sum_congr rfl (fun j hj => ?_)
    have hj' := congrFun hsum j
    rw [sum_weightedStat (good_statistics hcells hsc) _ (Finset.mem_range.1 hj)] at hj'
    simp only [Boosting.Config.setup, Boosting.Config.learner, contribution_sortHead]
    rw [hj']

/-- **C87.** If rules are evaluated by an evaluation that is `Bounded`, each rule that is learned after the default rule decreases the weighted training loss. -/
theorem bounded_decreases {cfg : Boosting.Config σ K} {data : Data K T} {update : T → K → Stat K} {values : Nat → Nat → Option Rat}
    {l1 l2 : K} (hb : BoundedOk cfg data update values l1 l2) {evaluate : T → K → K} {factor : K} (hm : Majorised update evaluate factor)
    {cells : List (Update.Cell (List K) (List (Stat K)))}
    (hi : Training.Initial data.numExamples data.numOutputs (fun r : List K => r.length = data.numOutputs) Update.denseValue
      (UpToDate data update) cells) {fuel : Nat} {st : Training.State Boosting.Condition K (List K) (List (Stat K))}
    (h : cfg.setup.induceRules fuel cells = Run.done st) :
    Stepwise (· < ·) (fun rules => data.loss evaluate (modelScores (Boosting.Condition.holds values) rules))
      (if cfg.useDefaultRule then 1 else 0) st.allRules :=
  training_decreases (bounded_setup hb) hm (fun _ => Or.inr rfl) hi h

/-- The default rule is not affected by the evaluation that is used for other rules. -/
theorem bounded_default {cfg : Boosting.Config σ K} {data : Data K T} {update : T → K → Stat K} {values : Nat → Nat → Option Rat}
    {l1 l2 : K} (hb : BoundedOk cfg data update values l1 l2) {evaluate : T → K → K} {factor : K} (hm : Majorised update evaluate factor)
    {cells : List (Update.Cell (List K) (List (Stat K)))}
    (hi : Training.Initial data.numExamples data.numOutputs (fun r : List K => r.length = data.numOutputs) Update.denseValue
      (UpToDate data update) cells) {st : Training.State Boosting.Condition K (List K) (List (Stat K))}
    (h : cfg.setup.start cells = .ok st) :
    data.unweighted.loss evaluate (modelScores (Boosting.Condition.holds values) st.builder.defaultRule.toList) ≤
      data.unweighted.loss evaluate (fun _ _ => 0) :=
  boosting_default hb.other hm hi h

end

/-- **C87**: boosting algorithms with complete heads and label binning. -/
theorem binned_training {σ T : Type} {cfg : Boosting.Config σ Rat} {data : Data Rat T} {update : T → Rat → Stat Rat} {values : Nat → Nat → Option Rat}
    {l1 l2 : Rat} {binning : LabelBinning.Config} (hbin : Accepted binning) {arrays : List Nat → Arrays}
    (ha : ∀ outputs, ArraysOk (binning.getMaxBins outputs.length) outputs.length (arrays outputs))
    (hother : ConfigOk { cfg with evaluation := cfg.defaultEvaluation } data update values l1 l2)
    {evaluate : T → Rat → Rat} {factor : Rat} (hm : Majorised update evaluate factor)
    {cells : List (Update.Cell (List Rat) (List (Stat Rat)))}
    (hi : Training.Initial data.numExamples data.numOutputs (fun r : List Rat => r.length = data.numOutputs) Update.denseValue
      (UpToDate data update) cells) {fuel : Nat} {st : Training.State Boosting.Condition Rat (List Rat) (List (Stat Rat))}
    (h : { cfg with evaluation := completeEvaluation binning l1 l2 arrays }.setup.induceRules fuel cells = Run.done st) :
    Stepwise (· < ·) (fun rules => data.loss evaluate (modelScores (Boosting.Condition.holds values) rules))
      (if cfg.useDefaultRule then 1 else 0) st.allRules :=
  bounded_decreases (cfg := { cfg with evaluation := completeEvaluation binning l1 l2 arrays })
    ⟨complete_bounded hbin hother.regularization.1 hother.regularization.2 ha, hother⟩ hm hi h

/-! ### Concrete cases -/

/-- Half as many bins as outputs with negative (positive) scores. -/
def exBinning : LabelBinning.Config := ⟨1 / 2, 1, 0⟩

theorem exBinning_accepted : Accepted exBinning := ⟨by norm_num [exBinning], by norm_num [exBinning], le_rfl⟩

/-- Newly allocated arrays for the given number of outputs. -/
def exArrays (numOutputs : Nat) : Arrays :=
  ⟨List.replicate (exBinning.getMaxBins numOutputs) ⟨0, 0⟩, List.replicate (exBinning.getMaxBins numOutputs) 0, List.replicate numOutputs 0,
    List.replicate (exBinning.getMaxBins numOutputs + 1) 0⟩

theorem exArrays_ok (n : Nat) : ArraysOk (exBinning.getMaxBins n) n (exArrays n) :=
  ⟨by simp [exArrays], by simp [exArrays], by simp [exArrays], by simp [exArrays], by simp [exArrays]⟩

/-- Four outputs; the first two are negative, the others positive. -/
def exTruth (i j : Nat) : ℚ :=
  match j with
  | 0 => -8 - i
  | 1 => -4 - ((i * 3 + 1) % 4 : Nat)
  | 2 => 3 + i
  | _ => 12 - i

/-- Targets for which training with partial heads fails. -/
def badTruth (i j : Nat) : ℚ :=
  match j with
  | 0 => -5
  | 1 => -6
  | 2 => 10
  | _ => 20 + i

/-- The features and weights are those of the example for C79. -/
def exData (truth : Nat → Nat → ℚ) : Data ℚ ℚ := ⟨4, 4, TrainingLoss.exData.weight, truth⟩

def exUpdates (truth : Nat → Nat → ℚ) : Update.Ops ℚ (List ℚ) (List (Stat ℚ)) :=
  ⟨Update.changeDense (· + ·), Update.changeDense (· - ·), fun i _ scores _ =>
    .ok ((List.range 4).map (fun j => exUpdate ((exData truth).truth i j) (Update.denseValue scores j)))⟩

/-- Without a default rule. -/
def exConfig (truth : Nat → Nat → ℚ) (numRules : Nat) : Boosting.Config (List Nat) ℚ :=
  { TrainingLoss.exConfig with
    updates := exUpdates truth
    numOutputs := 4
    useDefaultRule := false
    evaluation := TrainingLoss.exConfig.defaultEvaluation
    applySchedule := fun _ call => sequentially (call.tasks (exUpdates truth) 4)
    stopping := ⟨some numRules, none, none⟩ }

theorem exConfig_ok (truth : Nat → Nat → ℚ) (numRules : Nat) : ConfigOk (exConfig truth numRules) (exData truth) exUpdate exValues 0 1 where
  numExamples := rfl
  numOutputs := rfl
  weight := rfl
  regularization := ⟨le_rfl, zero_le_one⟩
  weights := TrainingLoss.exConfig_ok.weights
  positive := TrainingLoss.exConfig_ok.positive
  atMostOne := TrainingLoss.exConfig_ok.atMostOne
  evaluation := complete_scoring 0 1 _ (fun _ => by simp)
  defaultEvaluation := complete_scoring 0 1 _ (fun _ => by simp)
  subspaces := exSubspaces_laws
  searchFeature := exSearch_law
  sampledOutputs k l h := by cases h
  searchSchedule _ _ _ := sequentially_interleaving _
  applySchedule _ _ := sequentially_interleaving _
  updates := Update.dense_laws 4 _ _ (fun i _ _ r' _ _ _ _ _ _ => ⟨_, rfl, rfl⟩)

def exCells (truth : Nat → Nat → ℚ) : List (Update.Cell (List ℚ) (List (Stat ℚ))) :=
  (List.range 4).map (fun i => ⟨[0, 0, 0, 0], (List.range 4).map (fun j => exUpdate (truth i j) 0)⟩)

theorem exCells_initial (truth : Nat → Nat → ℚ) :
    Training.Initial 4 4 (fun r : List ℚ => r.length = 4) Update.denseValue (UpToDate (exData truth) exUpdate) (exCells truth) := by
  refine ⟨rfl, fun i c hc => ?_⟩
  unfold exCells at hc
  rw [List.getElem?_map, Option.map_eq_some_iff] at hc
  obtain ⟨i', hi', rfl⟩ := hc
  obtain ⟨_, rfl⟩ := List.getElem?_eq_some_iff.1 hi'
  rw [List.getElem_range]
  have hz : ∀ j < 4, Update.denseValue [(0 : ℚ), 0, 0, 0] j = 0 := by decide +kernel
  refine ⟨⟨rfl, ?_⟩, hz⟩
  exact List.map_congr_left (fun j hj => by rw [hz j (List.mem_range.1 hj)]; rfl)

/-- The losses of the models that consist of the first rules. -/
def exLosses (truth : Nat → Nat → ℚ) (st : Training.State Boosting.Condition ℚ (List ℚ) (List (Stat ℚ))) : List ℚ :=
  (List.range (st.allRules.length + 1)).map
    (fun k => (exData truth).loss exEvaluate (modelScores (Boosting.Condition.holds exValues) (st.allRules.take k)))

/-- The assumptions of `binned_training` are met. -/
example (fuel : Nat) (st : Training.State Boosting.Condition ℚ (List ℚ) (List (Stat ℚ)))
    (h : { exConfig exTruth 3 with evaluation := completeEvaluation exBinning 0 1 (fun outputs => exArrays outputs.length) }.setup.induceRules fuel
      (exCells exTruth) = Run.done st) :
    Stepwise (· < ·) (fun rules => (exData exTruth).loss exEvaluate (modelScores (Boosting.Condition.holds exValues) rules)) 0 st.allRules :=
  binned_training exBinning_accepted (fun _ => exArrays_ok _) (exConfig_ok exTruth 3) exMajorised (exCells_initial exTruth) h

/-- Three rules are learned. -/
example : ({ exConfig exTruth 3 with evaluation := completeEvaluation exBinning 0 1 (fun outputs => exArrays outputs.length) }.setup.induceRules 20
    (exCells exTruth) >>= fun st => Run.done (exLosses exTruth st)) =
      Run.done [1298, 53003 / 64, 350947 / 576, 15695083 / 36864] := by decide +kernel

/-- The scores in order of decreasing absolute values. -/
def byAbs (_ : Nat) (l : List (Nat × Rat)) : List (Nat × Rat) := l.insertionSort (fun a b => |b.2| ≤ |a.2|)

/-- **C87** does not hold for partial heads that predict for a fixed number of outputs: the assumptions are met except that rules with two outputs are
learned. The rule that is learned predicts the scores of the first two outputs for the others and increases the loss. -/
theorem fixed_training_fails :
    ConfigOk (exConfig badTruth 1) (exData badTruth) exUpdate exValues 0 1 ∧ Majorised exUpdate exEvaluate 2 ∧
      Training.Initial 4 4 (fun r : List ℚ => r.length = 4) Update.denseValue (UpToDate (exData badTruth) exUpdate) (exCells badTruth) ∧
      ({ exConfig badTruth 1 with
          evaluation := fixedEvaluation exBinning byAbs 0 1 (fun _ => 2) (fun _ => exArrays 2) (fun outputs => exArrays outputs.length) }.setup.induceRules
        20 (exCells badTruth) >>= fun st => Run.done (exLosses badTruth st)) = Run.done [3188, 463075 / 128] :=
  ⟨exConfig_ok _ _, exMajorised, exCells_initial _, by decide +kernel⟩

/-- The same applies to partial heads that predict for a varying number of outputs. -/
theorem dynamic_training_fails :
    ({ exConfig badTruth 1 with evaluation := dynamicEvaluation exBinning (fun x => x) (3 / 4) 0 1 (fun outputs => exArrays outputs.length)
      }.setup.induceRules 20 (exCells badTruth) >>= fun st => Run.done (exLosses badTruth st)) = Run.done [3188, 463075 / 128] := by
  decide +kernel

/-- Evaluations with label binning have undefined behaviour if there is a single output, unless its score is zero. -/
theorem single_output_undefined {binning : LabelBinning.Config} {l1 l2 : Rat} {arrays : List Nat → Arrays} (all : Bool) (o : Nat) (t : Stat Rat)
    (ha : (arrays [o]).statistics.length = binning.getMaxBins 1) (ht : t.score l1 l2 ≠ 0) :
    ∃ e, (completeEvaluation binning l1 l2 arrays).calculateScores all [o] [t] = .error e := by
  cases hc : (completeEvaluation binning l1 l2 arrays).calculateScores all [o] [t] with
  | error e => exact ⟨e, rfl⟩
  | ok scores =>
    exfalso
    simp only [completeEvaluation] at hc
    rw [if_neg (by simp)] at hc
    cases hb : completeBinned binning (binning.getMaxBins [o].length) l1 l2 [t] (arrays [o]) with
    | error e => rw [hb] at hc; cases hc
    | ok r =>
      obtain ⟨-, hs, -⟩ := completeBinned_spread (by simpa using ha) hb
      rcases lt_or_gt_of_ne ht with h0 | h0
      · obtain ⟨c', hc', -, hne⟩ := hs.1 (t.score l1 l2) (by simp) h0
        simp at hc'
        exact hne hc'
      · obtain ⟨c', hc', -, hne⟩ := hs.2 (t.score l1 l2) (by simp) h0
        simp at hc'
        exact hne hc'

example : ∃ e, (completeEvaluation exBinning 0 1 (fun outputs => exArrays outputs.length)).calculateScores true [0] [⟨3, 5⟩] = .error e :=
  single_output_undefined true 0 ⟨3, 5⟩ (by simp [exArrays]) (by decide +kernel)

end MLRL.BinnedTraining
