import Verif.Lemma.BeamTraining
import Verif.Lemma.TabularCopy
import Verif.Props.TabularTermination

/-! # C89: boosting algorithms that use a beam search -/

namespace MLRL.Boosting

open Predictor Induction Refinement RuleEval TrainingLoss Beam

section
variable {σ K T : Type} [Field K] [LinearOrder K] [IsStrictOrderedRing K]
  {cfg : Config σ K} {o : BeamOptions σ K} {data : Data K T} {values : Nat → Nat → Option Rat} {l1 l2 : K} {Inv : σ → Prop} {update : T → K → Stat K}

/-- Rules are applied as by an algorithm whose subspaces consist of the covered examples. -/
theorem finishRule_masked (cfg : Config σ K) (values : Nat → Nat → Option Rat) (k : Nat) (cells : List (Update.Cell (List K) (List (Stat K)))) (found : List Condition)
    (s : σ) (head : Head K) :
    cfg.learner.finishRule (cfg.round k) cells found s head =
      (cfg.masked values).learner.finishRule ((cfg.masked values).round k) cells found (cfg.subspaces.covers s) head := by
  have h1 : ∀ (l : Learner σ Condition K K (List K) (List (Stat K))) (round : Round σ Condition K K (List K) (List (Stat K))), l.pruning = none → l.recalculate = none →
      l.finishRule round cells found s head =
        (do
          let cells ← Update.exec (round.applySchedule ⟨l.subspaces.covers s, l.postProcess head, false⟩) cells
          return (cells, ⟨found, l.postProcess head⟩)) := by
    intro l round hp hr
    unfold Learner.finishRule Learner.pruneRule Learner.recalculateHead
    rw [hp, hr]
    cases round.hasZeroWeights <;> rfl
  have h2 : ∀ (l : Learner (Nat → Bool) Condition K K (List K) (List (Stat K))) (round : Round (Nat → Bool) Condition K K (List K) (List (Stat K))) (s : Nat → Bool),
      l.pruning = none → l.recalculate = none →
      l.finishRule round cells found s head =
        (do
          let cells ← Update.exec (round.applySchedule ⟨l.subspaces.covers s, l.postProcess head, false⟩) cells
          return (cells, ⟨found, l.postProcess head⟩)) := by
    intro l round s hp hr
    unfold Learner.finishRule Learner.pruneRule Learner.recalculateHead
    rw [hp, hr]
    cases round.hasZeroWeights <;> rfl
  rw [h1 _ _ rfl rfl, h2 _ _ _ rfl rfl]
  rfl

theorem start_masked (cfg : Config σ K) (values : Nat → Nat → Option Rat) (cells : List (Update.Cell (List K) (List (Stat K)))) :
    cfg.setup.start cells = (cfg.masked values).setup.start cells := rfl

theorem BeamTrainable.setup (h : BeamTrainable cfg o data values l1 l2 Inv)
    (hu : Update.Laws cfg.updates data.numOutputs (fun r : List K => r.length = data.numOutputs) Update.denseValue (UpToDate data update)) :
    BoostingOk (cfg.masked values).setup data update (Condition.holds values) (fun r : List K => r.length = data.numOutputs) Update.denseValue
      (UpToDate data update) cfg.shrinkage :=
  config_setup (ConfigOk.mk h.masked.toComponentsOk hu)

theorem BeamTrainable.valid (h : BeamTrainable cfg o data values l1 l2 Inv) (k : Nat) (cells : List (Update.Cell (List K) (List (Stat K)))) :
    (cfg.beamSearch o k cells).Valid := h.schedule k

/-- **C89** for a single rule: after the rule has been added to the model, the scores of the training examples are those of the model, the weighted training
loss is smaller than before, and each condition results from a search. -/
theorem beamInduce_rule (h : BeamTrainable cfg o data values l1 l2 Inv)
    (hu : Update.Laws cfg.updates data.numOutputs (fun r : List K => r.length = data.numOutputs) Update.denseValue (UpToDate data update))
    {fuel k : Nat} {cells cells' : List (Update.Cell (List K) (List (Stat K)))} {rules : List (Induction.Rule Condition K)} {rule : Induction.Rule Condition K}
    (ht : Training.Trained data.numExamples data.numOutputs (Condition.holds values) (fun r : List K => r.length = data.numOutputs) Update.denseValue
      (UpToDate data update) rules cells)
    (hr : cfg.beamInduce o fuel k cells = Run.done (some (cells', rule))) :
    Training.Trained data.numExamples data.numOutputs (Condition.holds values) (fun r : List K => r.length = data.numOutputs) Update.denseValue
      (UpToDate data update) (rules ++ [rule]) cells' ∧
    (∀ {evaluate : T → K → K} {factor : K}, Majorised update evaluate factor →
      data.loss evaluate (modelScores (Condition.holds values) (rules ++ [rule])) < data.loss evaluate (modelScores (Condition.holds values) rules)) ∧
    rule.conditions ≠ [] ∧
    ∀ c ∈ rule.conditions, ∃ f s l candidate, Inv s ∧ cfg.searchFeature f s (weightedStat data.weight cells) = .ok l ∧ candidate ∈ l ∧ c = conditionOf f candidate := by
  obtain ⟨c1, c2⟩ := trained_scoresOf ht
  unfold Config.beamInduce Beam.induceRule at hr
  obtain ⟨g, h1, hr⟩ := run_bind_done hr
  rcases growRule_path (cfg := cfg.beam o) (better_strictWeak (K := K)) h.sorts (h.valid k cells) h.width (h.succeeds k cells) h1 with ⟨rfl, _⟩ | ⟨chosen, s, outputs, last, k1, k2, rfl, k3⟩
  · cases Run.done_inj hr
  · simp only at hr
    obtain ⟨r, h2, hr⟩ := lift_bind_done hr
    cases Run.done_inj hr
    obtain ⟨p1, p2, p3, p4, p5⟩ := h.path k1
    obtain ⟨q1, q2, q3⟩ := p5 last k2
    have hne : chosen ≠ [] := by
      intro hn
      rw [hn] at k2
      cases k2
    have hset := h.setup hu
    have hl := hset.setup.learner
    have hround := hset.setup.rounds k
    rw [hset.numExamples] at hl hround
    rw [finishRule_masked cfg values] at h2
    obtain ⟨e1, e2, found, applied, _, _, e3, _, e4⟩ := finishRule_effect hl hround.applied ht.1 ht.2.1 (by simpa using hne) p2 q1 h2
    obtain ⟨h5, h6⟩ := e3 (Or.inr (Or.inl rfl))
    obtain ⟨head', h7, h8⟩ := finishRule_rule (Or.inr rfl) h2
    have h9 : head' = last.refinement.head := by
      unfold Learner.recalculateHead at h7
      split at h7
      · rename_i a b
        cases b
      · cases h7
        rfl
    rw [h9] at h8
    subst h8
    refine ⟨⟨e2, ?_, ?_, ?_⟩, ?_, by simpa using hne, ?_⟩
    · intro i c' hi
      have hlt : i < cells.length := by
        have h10 : i < cells'.length := (List.getElem?_eq_some_iff.1 hi).1
        rw [ht.1, ← e2]
        exact h10
      obtain ⟨c1, g1, g2, _⟩ := e4 i _ (List.getElem?_eq_getElem hlt)
      rw [hi] at g1
      cases g1
      exact g2
    · intro x hx
      rcases List.mem_append.1 hx with hx | hx
      · exact ht.2.2.1 x hx
      · rw [List.mem_singleton] at hx; subst hx; exact e1
    · intro i c' hi j hj
      have hlt : i < cells.length := by
        have h10 : i < cells'.length := (List.getElem?_eq_some_iff.1 hi).1
        rw [ht.1, ← e2]
        exact h10
      obtain ⟨c1, g1, _, g3⟩ := e4 i _ (List.getElem?_eq_getElem hlt)
      rw [hi] at g1
      cases g1
      rw [g3 j hj, h6, ← h5, ht.2.2.2 i _ (List.getElem?_eq_getElem hlt) j hj, List.map_append, List.sum_append]
      simp
    · intro evaluate factor hm
      have hest := q3 c1 _ c2
      have hq : last.quality < 0 := of_decide_eq_true k3
      have hle := loss_le hm h.weights h.positive.le h.atMostOne (modelScores (Condition.holds values) rules) (cfg.subspaces.covers s)
        (fun j => Spec.contribution j last.refinement.head)
      rw [modelScores_append]
      refine lt_of_le_of_lt (le_of_eq ?_) (lt_of_le_of_lt hle ?_)
      · unfold Data.loss
        refine Finset.sum_congr rfl (fun i hi => ?_)
        have hi' := Finset.mem_range.1 hi
        congr 1
        refine Finset.sum_congr rfl (fun j _ => ?_)
        congr 2
        have hpost : ∀ hd, Spec.contribution j ((cfg.masked values).learner.postProcess hd) = cfg.shrinkage * Spec.contribution j hd :=
          fun hd => contribution_shrink _ hd j
        simp only [p2, coverage, hi', decide_true, Bool.true_and, Induction.Rule.contribution, hpost]
      · have : factor * cfg.shrinkage * data.estimate update (modelScores (Condition.holds values) rules) (cfg.subspaces.covers s)
            (fun j => Spec.contribution j last.refinement.head) < 0 :=
          mul_neg_of_pos_of_neg (mul_pos hm.positive h.positive) (lt_of_le_of_lt hest hq)
        linarith
    · intro c hc
      obtain ⟨x, hx, rfl⟩ := List.mem_map.1 hc
      obtain ⟨f, s, l, c, g1, g2, g3, g4⟩ := p4 x hx
      exact ⟨f, s, l, c, g1, g2, g3, g4⟩

/-- **C89**: if rules are found via a beam search, the scores of the training examples are those of the model, each rule that is learned after the default
rule decreases the weighted training loss, and has at least one condition. Each condition results from a search. -/
theorem beam_decreases (h : BeamTrainable cfg o data values l1 l2 Inv)
    (hu : Update.Laws cfg.updates data.numOutputs (fun r : List K => r.length = data.numOutputs) Update.denseValue (UpToDate data update))
    {cells : List (Update.Cell (List K) (List (Stat K)))}
    (hi : Training.Initial data.numExamples data.numOutputs (fun r : List K => r.length = data.numOutputs) Update.denseValue
      (UpToDate data update) cells) {fuel : Nat} {st : Training.State Condition K (List K) (List (Stat K))}
    (hr : cfg.beamTraining o fuel cells = Run.done st) :
    Training.Trained data.numExamples data.numOutputs (Condition.holds values) (fun r : List K => r.length = data.numOutputs) Update.denseValue
      (UpToDate data update) st.allRules st.cells ∧
    (∀ {evaluate : T → K → K} {factor : K}, Majorised update evaluate factor →
      Stepwise (· < ·) (fun rules => data.loss evaluate (modelScores (Condition.holds values) rules)) (if cfg.useDefaultRule then 1 else 0) st.allRules) ∧
    (∀ m, (if cfg.useDefaultRule then 1 else 0) ≤ m → ∀ rule, st.allRules[m]? = some rule → rule.conditions ≠ []) ∧
    ∀ rule ∈ st.allRules, ∀ c ∈ rule.conditions, ∃ f s stat l candidate, Inv s ∧ cfg.searchFeature f s stat = .ok l ∧ candidate ∈ l ∧ c = conditionOf f candidate := by
  unfold Config.beamTraining Training.Setup.induceRulesWith at hr
  obtain ⟨st0, h1, hr⟩ := lift_bind_done hr
  have hset := h.setup hu
  rw [start_masked cfg values] at h1
  obtain ⟨s1, s2, s3⟩ := Training.start_trained hset.setup (by rw [hset.numExamples]; exact hi) h1
  rw [hset.numExamples] at s1
  have hall : st0.allRules = st0.builder.defaultRule.toList := by rw [Training.State.allRules, s2, List.append_nil]
  have s3 : st0.allRules.length = if cfg.useDefaultRule then 1 else 0 := by rw [hall, s3]; rfl
  have hcond : ∀ rule ∈ st0.allRules, rule.conditions = [] := by
    intro rule hrule
    rw [hall] at hrule
    exact Tabular.default_conditions h1 rule hrule
  refine Training.assembleWith_invariant
    (I := fun rules cells => Training.Trained data.numExamples data.numOutputs (Condition.holds values) (fun r : List K => r.length = data.numOutputs) Update.denseValue
      (UpToDate data update) rules cells ∧
      (∀ {evaluate : T → K → K} {factor : K}, Majorised update evaluate factor →
        Stepwise (· < ·) (fun rules => data.loss evaluate (modelScores (Condition.holds values) rules)) (if cfg.useDefaultRule then 1 else 0) rules) ∧
      (∀ m, (if cfg.useDefaultRule then 1 else 0) ≤ m → ∀ rule, rules[m]? = some rule → rule.conditions ≠ []) ∧
      ∀ rule ∈ rules, ∀ c ∈ rule.conditions, ∃ f s stat l candidate, Inv s ∧ cfg.searchFeature f s stat = .ok l ∧ candidate ∈ l ∧ c = conditionOf f candidate)
    ?_ fuel _ _ _ st0 st ⟨by rw [hall]; exact s1, ?_, ?_, ?_⟩ hr
  · rintro n rules cells cells' rule ⟨i1, i2, i3, i4⟩ hind
    obtain ⟨g1, g2, g3, g4⟩ := beamInduce_rule h hu i1 hind
    refine ⟨g1, fun hm => stepwise_append (i2 hm) (g2 hm), ?_, ?_⟩
    · intro m hm rule' hrule'
      by_cases hlt : m < rules.length
      · rw [List.getElem?_append_left hlt] at hrule'
        exact i3 m hm rule' hrule'
      · rw [List.getElem?_append_right (by omega)] at hrule'
        rw [List.mem_singleton.1 (List.mem_of_getElem? hrule')]
        exact g3
    · intro rule' hrule' c hc
      rcases List.mem_append.1 hrule' with hm | hm
      · exact i4 rule' hm c hc
      · rw [List.mem_singleton] at hm
        subst hm
        obtain ⟨f, s, l, candidate, g5⟩ := g4 c hc
        exact ⟨f, s, _, l, candidate, g5⟩
  · intro evaluate factor _ m g1 g2
    rw [s3] at g2
    omega
  · intro m hm rule hrule
    have := (List.getElem?_eq_some_iff.1 hrule).1
    rw [s3] at this
    omega
  · intro rule hrule c hc
    rw [hcond rule hrule] at hc
    cases hc

/-- **C89**, a single rule: if the number of conditions is limited, searching for a rule and applying it terminates without undefined behaviour. -/
theorem beamInduce_total (h : BeamTrainable cfg o data values l1 l2 Inv)
    (hu : Update.Laws cfg.updates data.numOutputs (fun r : List K => r.length = data.numOutputs) Update.denseValue (UpToDate data update))
    (hmax : cfg.grow.maxConditions ≠ 0) (k : Nat) {cells : List (Update.Cell (List K) (List (Stat K)))}
    (hc : Training.CellsOk data.numExamples (fun r : List K => r.length = data.numOutputs) (UpToDate data update) cells) :
    ∃ r, (∀ fuel, cfg.grow.maxConditions + 2 ≤ fuel → cfg.beamInduce o fuel k cells = Run.done r) ∧
      ∀ cells' rule, r = some (cells', rule) → Training.CellsOk data.numExamples (fun r : List K => r.length = data.numOutputs) (UpToDate data update) cells' := by
  obtain ⟨g, hg⟩ := Beam.growRule_terminates_limited (cfg := cfg.beam o) (better_strictWeak (K := K)) h.sorts (h.valid k cells) h.width (h.succeeds k cells) hmax
  have hg' : ∀ fuel, cfg.grow.maxConditions + 2 ≤ fuel → Beam.growRule cfg.learner.subspaces cfg.learner.better o.sorts (cfg.beam o) (cfg.beamSearch o k cells)
      cfg.learner.minQuality fuel = Run.done g := fun fuel hf => growRule_mono hf hg
  rcases growRule_path (cfg := cfg.beam o) (better_strictWeak (K := K)) h.sorts (h.valid k cells) h.width (h.succeeds k cells) hg with ⟨rfl, _⟩ | ⟨chosen, s, outputs, last, k1, k2, rfl, k3⟩
  · refine ⟨none, fun fuel hf => ?_, fun _ _ hh => by cases hh⟩
    unfold Config.beamInduce Beam.induceRule
    rw [hg' fuel hf, Run.done_bind]
  · obtain ⟨p1, p2, p3, p4, p5⟩ := h.path k1
    obtain ⟨q1, _, _⟩ := p5 last k2
    have hl := (h.setup hu).setup.learner
    have hround := (h.setup hu).setup.rounds k
    rw [(h.setup hu).numExamples] at hl hround
    have hfold : ∀ (l : List Condition) (mask : Nat → Bool), l.foldlM (cfg.masked values).learner.subspaces.filter mask =
        .ok (fun e => mask e && l.all (fun c => c.holds values e)) := by
      intro l
      induction l with
      | nil => intro mask; simp; rfl
      | cons c l ih =>
        intro mask
        rw [List.foldlM_cons]
        show (l.foldlM (cfg.masked values).learner.subspaces.filter (fun e => mask e && c.holds values e)) = _
        rw [ih]
        simp [Bool.and_assoc]
    obtain ⟨cells', rule, h2, h3, _⟩ := Training.finishRule_total (l := (cfg.masked values).learner) (round := (cfg.masked values).round k)
      (conditions := chosen.map (fun x => x.refinement.condition)) (s := cfg.subspaces.covers s) (head := last.refinement.head) hl
      hround hc
      ⟨fun f hf => (by cases hf), fun f hf => (by cases hf), fun hp => absurd rfl hp⟩ q1 (by
        rw [hfold, p2]
        congr 1
        funext e
        show (decide (e < cfg.numExamples) && _) = _
        rw [h.numExamples]
        simp [coverage])
    refine ⟨some (cells', rule), fun fuel hf => ?_, fun _ _ hh => ?_⟩
    · unfold Config.beamInduce Beam.induceRule
      rw [hg' fuel hf, Run.done_bind]
      simp only
      rw [finishRule_masked cfg values, h2, Run.lift_ok, Run.done_bind]
    · cases hh
      exact h3

/-- **C89**: if the number of conditions is limited, and if the number of rules is limited or if there is a time limit, training with a beam search terminates
without undefined behaviour. -/
theorem beam_terminates_partial (h : BeamTrainable cfg o data values l1 l2 Inv)
    (hu : Update.Laws cfg.updates data.numOutputs (fun r : List K => r.length = data.numOutputs) Update.denseValue (UpToDate data update))
    (hmax : cfg.grow.maxConditions ≠ 0) (hl : Training.Limited cfg.stopping cfg.environment.clock)
    {cells : List (Update.Cell (List K) (List (Stat K)))}
    (hi : Training.Initial data.numExamples data.numOutputs (fun r : List K => r.length = data.numOutputs) Update.denseValue
      (UpToDate data update) cells) :
    ∃ bound st, ∀ fuel, bound ≤ fuel → cfg.beamTraining o fuel cells = Run.done st := by
  have hnum : (cfg.masked values).setup.numExamples = data.numExamples := h.numExamples
  obtain ⟨st0, h0, hst0⟩ := Training.start_total (cells := cells) (h.masked.setup hu) (by
    rw [hnum]
    exact ⟨hi.1, fun i c hic => (hi.2 i c hic).1⟩)
  rw [← start_masked] at h0
  have hcells := hst0.1
  rw [hnum] at hcells
  obtain ⟨d, hd⟩ := Training.create_ok (t := cfg.setup) (S := List (Stat K)) h.pruning hl (if cfg.useDefaultRule then 1 else 0)
  obtain ⟨st1, h1⟩ := Training.assembleWith_total (induce := cfg.beamInduce o) h.environment (cfg.grow.maxConditions + 2)
    (fun k cells hc => beamInduce_total h hu hmax k hc) d _ _ 0 st0 hd hcells
  refine ⟨cfg.grow.maxConditions + 2 + (d + 1), st1, fun fuel hf => ?_⟩
  unfold Config.beamTraining Training.Setup.induceRulesWith
  rw [h0, Run.lift_ok, Run.done_bind]
  exact h1 fuel fuel (by omega) (by omega)

end

end MLRL.Boosting

namespace MLRL.Tabular

open FeatureSpace FeatureType Predictor Induction Refinement TrainingLoss RuleEval TabularData Beam

/-- `isEqual` for floats, types.hpp:36-39 and 49-52, in exact arithmetic, where `epsilon` is the machine epsilon. -/
def approximatelyEqual (epsilon a b : Rat) : Bool := decide (|a - b| ≤ epsilon * max 1 (max |a| |b|))

/-- The comparison of floats meets the requirements. -/
theorem approximatelyEqual_ok {epsilon : Rat} (h0 : 0 ≤ epsilon) (h1 : epsilon ≤ 1) : EqualityOk (approximatelyEqual epsilon) where
  symm a b := by
    unfold approximatelyEqual
    rw [abs_sub_comm, max_comm |a| |b|]
  convex a b c d hab hbc hcd h := by
    unfold approximatelyEqual at h ⊢
    have h := of_decide_eq_true h
    refine decide_eq_true ?_
    rw [abs_sub_comm, abs_of_nonneg (by linarith)] at h ⊢
    have b1 : epsilon * 1 ≤ epsilon * max 1 (max |b| |c|) := mul_le_mul_of_nonneg_left (le_max_left _ _) h0
    have b2 : epsilon * |b| ≤ epsilon * max 1 (max |b| |c|) := mul_le_mul_of_nonneg_left (le_trans (le_max_left _ _) (le_max_right _ _)) h0
    have b3 : epsilon * |c| ≤ epsilon * max 1 (max |b| |c|) := mul_le_mul_of_nonneg_left (le_trans (le_max_right _ _) (le_max_right _ _)) h0
    have hb := mul_le_mul_of_nonneg_left (neg_le_abs b) h0
    have hc := mul_le_mul_of_nonneg_left (le_abs_self c) h0
    have e1 : 0 ≤ epsilon * (c - a) := mul_nonneg h0 (by linarith)
    have e2 : 0 ≤ epsilon * (d - b) := mul_nonneg h0 (by linarith)
    have e3 : epsilon * (b - a) ≤ 1 * (b - a) := mul_le_mul_of_nonneg_right h1 (by linarith)
    have e4 : epsilon * (d - c) ≤ 1 * (d - c) := mul_le_mul_of_nonneg_right h1 (by linarith)
    rcases max_choice 1 (max |a| |d|) with hm | hm
    · rw [hm] at h
      linarith
    · rw [hm] at h
      rcases max_choice |a| |d| with hm | hm
      · rw [hm] at h
        rcases abs_choice a with ha | ha
        · rw [ha] at h
          linarith
        · rw [ha] at h
          linarith
      · rw [hm] at h
        rcases abs_choice d with hd | hd
        · rw [hd] at h
          linarith
        · rw [hd] at h
          linarith

section
variable {K T : Type} [Field K] [LinearOrder K] [IsStrictOrderedRing K] {cfg : Boosting.Config (Subspace Unit) K} {data : Data K T} {l1 l2 : K}
  {env : Env} {values : Nat → Nat → Option Rat} {o : Boosting.BeamOptions (Subspace Unit) K} {update : T → K → Stat K}

/-- What is assumed of a beam search: the width is at least one, elements are sorted by their quality, the order in which candidates are considered is an
interleaving, and the comparison of floats is symmetric and convex. -/
structure BeamSafe (o : Boosting.BeamOptions (Subspace Unit) K) (isEqual : Rat → Rat → Bool) : Prop where
  width : 1 ≤ o.width
  sorts : o.sorts.Spec (Boosting.better : K → K → Bool)
  schedule : ∀ k d p candidates, Interleaving candidates (o.schedule k d p candidates)
  isEqual : EqualityOk isEqual

/-- Conditions may be added to subspaces of tabular data and to copies of them. -/
theorem Trainable.beam (h : Trainable cfg data env values l1 l2) (hs : Safe cfg data) (ho : BeamSafe o env.space.isEqual) :
    Boosting.BeamTrainable cfg o data values l1 l2 (Reachable env data.numExamples) where
  numExamples := h.numExamples
  numOutputs := h.numOutputs
  weight := h.weight
  regularization := h.regularization
  weights := h.weights
  positive := h.positive
  atMostOne := h.atMostOne
  evaluation := h.evaluation
  defaultEvaluation := h.defaultEvaluation
  sampledOutputs := fun k l hl => ⟨h.sampled k l hl, hs.sampled k l hl⟩
  applySchedule := h.applySchedule
  outputs := hs.outputs
  evaluationTotal := hs.evaluation
  defaultTotal := hs.defaultEvaluation
  environment := hs.environment
  pruning := hs.pruning
  width := ho.width
  sorts := ho.sorts
  schedule := ho.schedule
  create := by
    rw [h.subspaces]
    refine ⟨⟨_, create_represents h.table⟩, fun e => ?_⟩
    rw [show (subspaces env).covers (subspaces env).create e = covers (.create env.space) e from rfl, covers_eq h.table (create_represents h.table)]
    simp [satisfiesAll]
  search := by
    intro f s stat hs hz
    rw [h.subspaces, h.searchFeature]
    have hz' : ∀ e, env.nonZero e = false → stat e = 0 := by
      intro e he
      rw [h.nonZero] at he
      exact hz e (by simpa using he)
    obtain ⟨conds, hconds⟩ := hs
    obtain ⟨r, hr, hc⟩ := searchFeature_ok h.table hconds f hz'
    refine ⟨r, hr, fun c hcr => ⟨?_, ?_⟩⟩
    · rw [(hc c hcr).2.1]
      unfold Boosting.coveredStats
      rw [← list_sum_range, sum_filter_map]
      refine congrArg _ (List.map_congr_left (fun e he => ?_))
      beta_reduce
      rw [show (subspaces env).covers s e = covers s e from rfl, covers_eq h.table hconds]
      simp [List.mem_range.1 he]
    · rintro s0 (rfl | rfl)
      · obtain ⟨s', h1, h2, h3⟩ := candidate_adds h.table ⟨conds, hconds⟩ hz' hr hcr
        exact ⟨s', h1, h2, h3⟩
      · obtain ⟨s', h1, h2, h3⟩ := candidate_adds_copy h.table ho.isEqual ⟨conds, hconds⟩ hz' hr hcr
        exact ⟨s', h1, h2, h3⟩

/-- **C89** for tabular data: each rule that is learned after the default rule decreases the weighted training loss, and the first rules of a model predict
for each training example the sum of the predictions of those rules whose conditions the example satisfies. -/
theorem beam_prediction_partial (h : Trainable cfg data env values l1 l2) (hs : Safe cfg data) (ho : BeamSafe o env.space.isEqual)
    (hu : Update.Laws cfg.updates data.numOutputs (fun r : List K => r.length = data.numOutputs) Update.denseValue (UpToDate data update))
    {cells : List (Update.Cell (List K) (List (Stat K)))}
    (hi : Training.Initial data.numExamples data.numOutputs (fun r : List K => r.length = data.numOutputs) Update.denseValue
      (UpToDate data update) cells) {fuel : Nat} {st : Training.State Boosting.Condition K (List K) (List (Stat K))}
    (hr : cfg.beamTraining o fuel cells = Run.done st) {rows : Nat → List FVal} (hrows : RowsOk env data.numExamples values rows)
    (hn : 0 < data.numExamples) :
    (∀ {evaluate : T → K → K} {factor : K}, Majorised update evaluate factor →
      Stepwise (· < ·) (fun rules => data.loss evaluate (modelScores (Boosting.Condition.holds values) rules)) (if cfg.useDefaultRule then 1 else 0) st.allRules) ∧
    ∀ m, ∃ rules, (st.allRules.take m).mapM createRule = .ok rules ∧
      ∀ e < data.numExamples, applyRulesDense (rows e) rules (List.replicate data.numOutputs 0) =
        .ok ((List.range data.numOutputs).map (modelScores (Boosting.Condition.holds values) (st.allRules.take m) e)) := by
  obtain ⟨htr, hdec, _, horigin⟩ := Boosting.beam_decreases (h.beam hs ho) hu hi hr
  refine ⟨fun hm => hdec hm, fun m => ?_⟩
  refine rules_predict (fun rule hrule => createBody_covers hrows ?_ hn) (fun rule hrule => htr.2.2.1 rule (List.mem_of_mem_take hrule))
  intro c hc
  obtain ⟨f, s, stat, l, candidate, ⟨conds, hconds⟩, h1, h2, rfl⟩ := horigin rule (List.mem_of_mem_take hrule) c hc
  rw [h.searchFeature] at h1
  exact searchFeature_typed h.table hconds f h1 candidate h2

/-- **C89** for dense feature matrices: if the number of conditions is limited, and if the number of rules is limited or if there is a time limit, training
with a beam search terminates without undefined behaviour, the first rules of the model can be applied to the rows of the matrix, and each rule that is added
after the default rule decreases the loss of the predictions. -/
theorem beam_matrix_partial {lib : Library} {info : FeatureInfo} {kind : Nat → Kind} {matrix : List (List FVal)} (hlib : lib.Ok)
    (hinfo : ∀ f < matrix.length, info.createFeatureType f = .ok (kind f))
    (hm : MatrixOk kind data.numExamples (fun e => decide (data.weight e ≠ 0)) matrix) :
    ∃ columns, createColumns lib info matrix = .ok columns ∧ ∀ minCoverage,
      Settings cfg data (createEnv lib columns data.numExamples minCoverage (fun e => decide (data.weight e ≠ 0))) l1 l2 → Safe cfg data →
      BeamSafe o lib.isEqual → cfg.grow.maxConditions ≠ 0 → ∀ {evaluate : T → K → K} {factor : K},
        Update.Laws cfg.updates data.numOutputs (fun r : List K => r.length = data.numOutputs) Update.denseValue (UpToDate data update) →
        Majorised update evaluate factor → 0 < data.numExamples → ∀ cells,
          Training.Initial data.numExamples data.numOutputs (fun r : List K => r.length = data.numOutputs) Update.denseValue
            (UpToDate data update) cells →
          ∃ bound st, (∀ fuel, bound ≤ fuel → cfg.beamTraining o fuel cells = Run.done st) ∧
          ∃ predicted : Nat → Nat → List K,
            (∀ m, Predicts matrix data.numExamples data.numOutputs (st.allRules.take m) (predicted m)) ∧
            ∀ m, (if cfg.useDefaultRule then 1 else 0) ≤ m → m < st.allRules.length →
              data.loss evaluate (fun e => Update.denseValue (predicted (m + 1) e)) < data.loss evaluate (fun e => Update.denseValue (predicted m e)) := by
  obtain ⟨columns, h1, h2⟩ := createColumns_ok hlib hinfo hm
  refine ⟨columns, h1, fun minCoverage hs hsafe ho hmax evaluate factor hu hmaj hn cells hi => ?_⟩
  obtain ⟨htable, rows, hrow, hrows⟩ := h2 minCoverage
  have ht : Trainable cfg data _ (value kind matrix) l1 l2 := ⟨hs, htable⟩
  obtain ⟨bound, st, h3⟩ := Boosting.beam_terminates_partial (ht.beam hsafe ho) hu hmax hsafe.limited hi
  obtain ⟨h4, h5⟩ := beam_prediction_partial ht hsafe ho hu hi (h3 bound le_rfl) hrows hn
  refine ⟨bound, st, h3, fun m e => (List.range data.numOutputs).map (modelScores (Boosting.Condition.holds (value kind matrix)) (st.allRules.take m) e), ?_, ?_⟩
  · intro m
    obtain ⟨rules, h6, h7⟩ := h5 m
    exact ⟨rules, h6, fun e he => ⟨rows e, hrow e he, h7 e he⟩⟩
  · intro m hd hlt
    have hloss : ∀ s : Nat → Nat → K, data.loss evaluate (fun e => Update.denseValue ((List.range data.numOutputs).map (s e))) = data.loss evaluate s := by
      intro s
      unfold Data.loss
      refine Finset.sum_congr rfl (fun i _ => congrArg _ (Finset.sum_congr rfl (fun j hj => ?_)))
      have : Update.denseValue ((List.range data.numOutputs).map (s i)) j = s i j := by
        unfold Update.denseValue
        simp [List.getElem?_range (Finset.mem_range.1 hj)]
      exact congrArg _ this
    rw [hloss, hloss]
    exact h4 hmaj m hd hlt

end

/-! ### Examples -/

/-- A beam of two rules; elements are sorted via insertion. -/
def exBeamOptions : Boosting.BeamOptions (Subspace Unit) ℚ where
  width := 2
  sorts := ⟨Beam.exSort, Beam.exSort⟩
  features _ _ _ := [0, 1, 2, 3]
  schedule _ _ _ := sequentially

theorem exact_ok : EqualityOk (fun a b => decide (a = b)) where
  symm a b := by simp [eq_comm]
  convex a b c d h1 h2 h3 h4 := by
    have h4 : a = d := of_decide_eq_true h4
    refine decide_eq_true ?_
    subst h4
    linarith

theorem exBeamOptions_safe : BeamSafe exBeamOptions exEnv.space.isEqual where
  width := by decide
  sorts := ⟨Beam.exSort_spec, Beam.exSort_spec⟩
  schedule _ _ _ _ := sequentially_interleaving _
  isEqual := exact_ok

theorem exTabular_safe : Safe exTabular exData where
  outputs := by decide
  sampled k l h := by cases h
  evaluation := Boosting.single_total 0 1
  defaultEvaluation := Boosting.complete_total 0 1 _ (fun _ => by simp)
  environment := ⟨fun _ _ _ _ => ⟨_, rfl⟩, fun i hi => by cases hi⟩
  pruning := trivial
  limited := Or.inl ⟨4, rfl⟩

example : ∃ bound st, ∀ fuel, bound ≤ fuel → exTabular.beamTraining exBeamOptions fuel exCells = Run.done st :=
  Boosting.beam_terminates_partial (exTabular_ok.beam exTabular_safe exBeamOptions_safe) exConfig_ok.updates (by decide) exTabular_safe.limited exCells_initial

example (fuel : Nat) (st : Training.State Boosting.Condition ℚ (List ℚ) (List (Stat ℚ))) (h : exTabular.beamTraining exBeamOptions fuel exCells = Run.done st) :
    Stepwise (· < ·) (fun rules => exData.loss exEvaluate (modelScores (Boosting.Condition.holds exTableValues) rules)) 1 st.allRules :=
  (beam_prediction_partial exTabular_ok exTabular_safe exBeamOptions_safe exConfig_ok.updates exCells_initial h exRows_ok (by decide)).1 exMajorised

/-- The rules that are learned and the losses of the models that consist of the first rules. The conditions of the last rule are the same: filtered vectors are
not copied, such that the same condition may be found again. -/
example : (exTabular.beamTraining exBeamOptions 20 exCells >>= fun st => Run.done
      (st.allRules.map (fun rule => rule.conditions.map (fun c => (c.feature, c.comparator, c.threshold))), exTabularLosses st)) =
    Run.done ([[], [(1, .nominalEq, 7)], [(1, .nominalNeq, 7)], [(3, .ordinalGr, 1), (3, .ordinalGr, (1 : ℚ))]],
      [45, 161 / 5, 129 / 5, 528 / 25, 6873 / 400]) := by decide +kernel

end MLRL.Tabular
