import Verif.Lemma.BoostingTermination

/-! # C82: boosting algorithms terminate -/

namespace MLRL.Boosting

open Predictor Induction Refinement RuleEval TrainingLoss

section
variable {σ K T : Type} [Field K] [LinearOrder K] [IsStrictOrderedRing K]

/-- In addition to `ComponentsOk`, none of the components fails: there is at least one output, the outputs that are sampled exist, the search by a
feature succeeds, and its candidates can be used for filtering the subspace. -/
structure TotalOk (cfg : Config σ K) (data : Data K T) (values : Nat → Nat → Option Rat) (l1 l2 : K) : Prop
    extends ComponentsOk cfg data values l1 l2 where
  outputs : 0 < data.numOutputs
  sampled : ∀ k l, cfg.sampledOutputs k = some l → l ≠ [] ∧ ∀ j ∈ l, j < data.numOutputs
  evaluationTotal : TotalEvaluation cfg.evaluation
  defaultTotal : TotalEvaluation cfg.defaultEvaluation
  search : ∀ (f : Nat) (s : σ) (stat : Nat → Nat → K × K), (∀ e, data.weight e = 0 → stat e = 0) → ∃ r, cfg.searchFeature f s stat = .ok r ∧
    ∀ c ∈ r, ∃ s', cfg.subspaces.filter s (conditionOf f c) = .ok s'
  environment : cfg.environment.Total data.numExamples (fun r : List K => r.length = data.numOutputs)
  pruning : Training.ValidPruning cfg.stopping.globalPruning

variable {cfg : Config σ K} {data : Data K T} {values : Nat → Nat → Option Rat} {l1 l2 : K}

theorem weightedStat_zero {weight : Nat → K} {cells : List (Update.Cell (List K) (List (Stat K)))} {e : Nat} (h : weight e = 0) :
    weightedStat weight cells e = 0 := by
  funext j
  unfold weightedStat
  split
  · rfl
  · split
    · rfl
    · rw [h, zero_mul, zero_mul]; rfl

/-- The outputs that are considered by a search. -/
def Config.outputsOf (cfg : Config σ K) (data : Data K T) (k : Nat) (o : Option (Head K)) : List Nat × Bool :=
  searchOutputs data.numOutputs (cfg.sampledOutputs k) o

/-- The search in round `k`. -/
def Config.searchIn (cfg : Config σ K) (data : Data K T) (k : Nat) (cells : List (Update.Cell (List K) (List (Stat K)))) :
    Induction.Search σ Condition (Head K) K :=
  ⟨candidates cfg.evaluation data.numOutputs (cfg.sampledOutputs k) (cfg.features k) cfg.searchFeature data.weight cells, cfg.searchSchedule k⟩

theorem TotalOk.search_eq (h : TotalOk cfg data values l1 l2) (k : Nat) (cells : List (Update.Cell (List K) (List (Stat K)))) :
    (cfg.round k).search cells = cfg.searchIn data k cells := by
  unfold Config.searchIn
  rw [← h.numOutputs, ← h.weight]
  rfl

/-- What is known about a candidate. -/
theorem TotalOk.candidate (h : TotalOk cfg data values l1 l2) {k m : Nat} {cells : List (Update.Cell (List K) (List (Stat K)))} {s : σ}
    {o : Option (Head K)} (ho : ∀ hd, o = some hd → Restricts data.numOutputs hd)
    {r : List (List (Scored (Found Condition (Head K)) K))} (hr : (cfg.searchIn data k cells).candidates m s o = .ok r)
    {x : Scored (Found Condition (Head K)) K} (hx : x ∈ r.flatten) :
    ∃ stats scores,
      outputStats data.numOutputs (cfg.outputsOf data k o).1 (coveredStats data.numExamples
        (fun e => cfg.subspaces.covers s e && x.refinement.condition.holds values e) (weightedStat data.weight cells)) = .ok stats ∧
      cfg.evaluation.calculateScores (cfg.outputsOf data k o).2 (cfg.outputsOf data k o).1 stats = .ok scores ∧
      x.quality = scores.quality ∧ x.refinement.head = headOf (cfg.evaluation.complete && (cfg.outputsOf data k o).2) scores ∧
      ∃ s', cfg.subspaces.filter s x.refinement.condition = .ok s' := by
  obtain ⟨f, _, l, hl, c, hcl, stats, scores, hst, hev, rfl⟩ := candidates_origin hr x hx
  have hsum := h.searchFeature f s _ l (by
    intro e hz
    exact weightedStat_zero (by simpa using hz)) hl c hcl
  obtain ⟨r', h1, h2⟩ := h.search f s (weightedStat data.weight cells) (fun e he => weightedStat_zero he)
  rw [hl] at h1
  cases h1
  rw [hsum] at hst
  exact ⟨stats, scores, hst, hev, rfl, rfl, h2 c hcl⟩

/-- The head of a candidate that is better than a rule without conditions. -/
theorem TotalOk.restricts (h : TotalOk cfg data values l1 l2) {k m : Nat} {cells : List (Update.Cell (List K) (List (Stat K)))} {s : σ}
    {o : Option (Head K)} (ho : ∀ hd, o = some hd → Restricts data.numOutputs hd)
    {r : List (List (Scored (Found Condition (Head K)) K))} (hr : (cfg.searchIn data k cells).candidates m s o = .ok r)
    {x : Scored (Found Condition (Head K)) K} (hx : x ∈ r.flatten) (hq : x.quality < 0) : Restricts data.numOutputs (sortHead x.refinement.head) := by
  obtain ⟨stats, scores, h1, h2, h3, h4, _⟩ := h.candidate ho hr hx
  obtain ⟨o1, o2, o3, o4⟩ := searchOutputs_good h.outputs (fun l hl => ⟨h.sampledOutputs k l hl, h.sampled k l hl⟩) ho
  obtain ⟨_, _, g1, g2, _⟩ := scores_quality h.evaluation h1 h2
  obtain ⟨_, _, _, _, g3⟩ := evaluated_chosen (outputs := cfg.outputsOf data k o) h.evaluation o4 h1 h2
  refine ⟨?_, ?_⟩
  · rw [h4]
    exact distinct_sortHead (g3 o2).1
  · rw [headSize_sortHead, h4, headSize_headOf g1]
    intro hz
    rw [List.length_eq_zero_iff.1 hz] at g2
    rw [h3, g2] at hq
    exact absurd hq (lt_irrefl _)

/-- What is known about the refinements that have been chosen so far: the current quality results from an evaluation on the statistics of the
covered examples, and the search for the next refinement considers the same outputs or those that are predicted. -/
theorem TotalOk.greedy (h : TotalOk cfg data values l1 l2) {k : Nat} {cells : List (Update.Cell (List K) (List (Stat K)))}
    {chosen : List (Scored (Found Condition (Head K)) K)} {s : σ} {q : K} {o : Option (Head K)}
    (hg : Greedy cfg.subspaces better sortHead cfg.grow (cfg.searchIn data k cells) 0 chosen s q o) :
    (∀ hd, o = some hd → Restricts data.numOutputs hd) ∧ q ≤ 0 ∧
      ∀ x, chosen.getLast? = some x → ∃ outs stats scores,
        outputStats data.numOutputs outs.1 (coveredStats data.numExamples (cfg.subspaces.covers s) (weightedStat data.weight cells)) = .ok stats ∧
        cfg.evaluation.calculateScores outs.2 outs.1 stats = .ok scores ∧ q = scores.quality ∧ headSize x.refinement.head = scores.indices.length ∧
        (cfg.outputsOf data k o = outs ∨ (cfg.outputsOf data k o).1.Perm scores.indices) := by
  induction hg with
  | start => exact ⟨fun hd hh => (by cases hh), le_rfl, fun x hx => (by cases hx)⟩
  | @step chosen s q o r x s' _ _ _ hc hx hb hf ih =>
    obtain ⟨i1, i2, i3⟩ := ih
    have hq : x.quality < 0 := lt_of_lt_of_le (of_decide_eq_true hb) i2
    obtain ⟨stats, scores, h1, h2, h3, h4, _⟩ := h.candidate i1 hc (FirstBest.mem hx)
    obtain ⟨o1, o2, o3, o4⟩ := searchOutputs_good h.outputs (fun l hl => ⟨h.sampledOutputs k l hl, h.sampled k l hl⟩) i1
    obtain ⟨_, _, g1, _, g2⟩ := scores_quality h.evaluation h1 h2
    refine ⟨?_, hq.le, ?_⟩
    · intro hd hh
      split at hh
      · cases hh
        exact h.restricts i1 hc (FirstBest.mem hx) hq
      · exact i1 hd hh
    · intro y hy
      rw [List.getLast?_concat] at hy
      cases hy
      refine ⟨cfg.outputsOf data k o, stats, scores, ?_, h2, h3, by rw [h4, headSize_headOf g1], ?_⟩
      · have : cfg.subspaces.covers s' = fun e => cfg.subspaces.covers s e && x.refinement.condition.holds values e :=
          funext (h.subspaces.filter s _ s' hf)
        rw [this]
        exact h1
      · split
        · right
          unfold Config.outputsOf
          rw [h4]
          exact searchOutputs_restricted (outputs := cfg.outputsOf data k o) o4 g1 g2
        · exact Or.inl rfl

theorem TotalOk.succeeds (h : TotalOk cfg data values l1 l2) (k : Nat) (cells : List (Update.Cell (List K) (List (Stat K)))) :
    Succeeds cfg.subspaces better sortHead cfg.grow (cfg.searchIn data k cells) 0 := by
  intro chosen s q o hg
  obtain ⟨i1, _, _⟩ := h.greedy hg
  obtain ⟨o1, o2, o3, _⟩ := searchOutputs_good h.outputs (fun l hl => ⟨h.sampledOutputs k l hl, h.sampled k l hl⟩) i1
  have htotal : ∃ r, (cfg.searchIn data k cells).candidates chosen.length s o = .ok r := by
    refine mapM_total (fun f _ => ?_)
    unfold scoreFeature
    obtain ⟨l, hl, _⟩ := h.search f s (weightedStat data.weight cells) (fun e he => weightedStat_zero he)
    rw [hl, ok_bind]
    refine mapM_total (fun c _ => ?_)
    unfold scoreCandidate
    rw [outputStats_total o3, ok_bind]
    obtain ⟨scores, hs⟩ := h.evaluationTotal (searchOutputs data.numOutputs (cfg.sampledOutputs k) o).2 _ ((searchOutputs data.numOutputs (cfg.sampledOutputs k) o).1.map
      (fun j => ⟨(c.stats j).1, (c.stats j).2⟩)) o1 (by simp)
    rw [hs, ok_bind]
    exact ⟨_, rfl⟩
  obtain ⟨r, hr⟩ := htotal
  refine ⟨r, hr, fun x hx => ?_⟩
  obtain ⟨_, _, _, _, _, _, h5⟩ := h.candidate i1 hr hx
  exact h5

theorem filter_eq_of_length {p q : Nat → Bool} (hqp : ∀ e, q e = true → p e = true) : ∀ {l : List Nat},
    (l.filter p).length ≤ (l.filter q).length → ∀ e ∈ l, p e = q e
  | [], _, e, he => by cases he
  | a :: l, hlen, e, he => by
    have hle : (l.filter q).length ≤ (l.filter p).length := (List.monotone_filter_right l (fun e => hqp e)).length_le
    have ha : p a = q a ∧ (l.filter p).length ≤ (l.filter q).length := by
      rw [List.filter_cons, List.filter_cons] at hlen
      cases hp : p a <;> cases hq : q a
      · simp only [hp, hq, Bool.false_eq_true, if_false] at hlen
        exact ⟨rfl, hlen⟩
      · exact absurd (hqp a hq) (by rw [hp]; simp)
      · simp only [hp, hq, Bool.false_eq_true, if_false, if_true, List.length_cons] at hlen
        omega
      · simp only [hp, hq, if_true, List.length_cons] at hlen
        exact ⟨rfl, by omega⟩
    rcases List.mem_cons.1 he with rfl | he
    · exact ha.1
    · exact filter_eq_of_length hqp ha.2 e he

/-- Each refinement that is better than the previous one covers fewer examples or predicts for fewer outputs: otherwise, it would be evaluated on
the same statistics. -/
theorem TotalOk.shrinks (h : TotalOk cfg data values l1 l2) (k : Nat) (cells : List (Update.Cell (List K) (List (Stat K)))) :
    Shrinks cfg.subspaces better sortHead cfg.grow (cfg.searchIn data k cells) 0
      (growSize cfg.subspaces.covers data.numExamples data.numOutputs) := by
  intro chosen s q o r x s' hg hr hx hb hf
  obtain ⟨i1, i2, i3⟩ := h.greedy hg
  have hqlt : x.quality < q := of_decide_eq_true hb
  obtain ⟨stats, scores, h1, h2, h3, h4, _⟩ := h.candidate i1 hr hx
  obtain ⟨o1, o2, o3, o4⟩ := searchOutputs_good h.outputs (fun l hl => ⟨h.sampledOutputs k l hl, h.sampled k l hl⟩) i1
  obtain ⟨g0, g00, g1, g2, g3⟩ := scores_quality h.evaluation h1 h2
  have hcov : ∀ e, cfg.subspaces.covers s' e = (cfg.subspaces.covers s e && x.refinement.condition.holds values e) := h.subspaces.filter s _ s' hf
  have hsub : ∀ e, cfg.subspaces.covers s' e = true → cfg.subspaces.covers s e = true := by
    intro e he
    rw [hcov, Bool.and_eq_true] at he
    exact he.1
  have hle : ((List.range data.numExamples).filter (cfg.subspaces.covers s')).length ≤
      ((List.range data.numExamples).filter (cfg.subspaces.covers s)).length := (List.monotone_filter_right _ (fun e => hsub e)).length_le
  have hindices : scores.indices.length ≤ data.numOutputs := by
    have hsp : scores.indices.Subperm (List.range data.numOutputs) :=
      (g00 o2).subperm (fun j hj => List.mem_range.2 (g0 j hj).2)
    simpa using hsp.length_le
  have hsize : headSize x.refinement.head = scores.indices.length := by rw [h4, headSize_headOf g1]
  unfold growSize
  rw [List.getLast?_concat]
  simp only
  rw [hsize]
  by_cases hlt : ((List.range data.numExamples).filter (cfg.subspaces.covers s')).length <
      ((List.range data.numExamples).filter (cfg.subspaces.covers s)).length
  · have : (((List.range data.numExamples).filter (cfg.subspaces.covers s')).length + 1) * (data.numOutputs + 2) ≤
        ((List.range data.numExamples).filter (cfg.subspaces.covers s)).length * (data.numOutputs + 2) := Nat.mul_le_mul_right _ hlt
    rw [Nat.add_mul, Nat.one_mul] at this
    omega
  · have heq : ((List.range data.numExamples).filter (cfg.subspaces.covers s')).length =
        ((List.range data.numExamples).filter (cfg.subspaces.covers s)).length := by omega
    rw [heq]
    refine Nat.add_lt_add_left ?_ _
    cases hlast : chosen.getLast? with
    | none =>
      simp only
      omega
    | some y =>
      simp only
      obtain ⟨outs, stats', scores', k1, k2, k3, k4, k5⟩ := i3 y hlast
      rw [k4]
      have hsums : coveredStats data.numExamples (fun e => cfg.subspaces.covers s e && x.refinement.condition.holds values e)
          (weightedStat data.weight cells) = coveredStats data.numExamples (cfg.subspaces.covers s) (weightedStat data.weight cells) := by
        unfold coveredStats
        refine Finset.sum_congr rfl (fun e he => ?_)
        have hce := (hcov e).symm.trans (filter_eq_of_length hsub heq.ge e (List.mem_range.2 (Finset.mem_range.1 he))).symm
        simp only [hce]
      rw [hsums] at h1 g2
      by_contra hnot
      rcases k5 with k5 | k5
      · rw [k5] at h1 h2
        rw [h1] at k1
        cases k1
        rw [h2] at k2
        cases k2
        rw [h3, k3] at hqlt
        exact absurd hqlt (lt_irrefl _)
      · have hs := sum_sub_perm (f := fun j => (statOf (coveredStats data.numExamples (cfg.subspaces.covers s) (weightedStat data.weight cells)) j).quality
          l1 l2 ((statOf (coveredStats data.numExamples (cfg.subspaces.covers s) (weightedStat data.weight cells)) j).score l1 l2))
          (g00 o2) k5 (fun j hj => (g0 j hj).1) (by omega)
        rw [h3, k3, g2, hs, (scores_quality h.evaluation k1 k2).2.2.2.1] at hqlt
        exact absurd hqlt (lt_irrefl _)

theorem TotalOk.setup {update : T → K → Stat K} (h : TotalOk cfg data values l1 l2)
    (hu : Update.Laws cfg.updates data.numOutputs (fun r : List K => r.length = data.numOutputs) Update.denseValue (UpToDate data update)) :
    cfg.setup.Total data.numOutputs (Condition.holds values) (fun r : List K => r.length = data.numOutputs) Update.denseValue (UpToDate data update)
      (growSize cfg.subspaces.covers data.numExamples data.numOutputs) := by
  have hs := (config_setup (ConfigOk.mk h.toComponentsOk hu)).setup
  refine ⟨hs.learner, ⟨fun f hf => (by cases hf), fun f hf => (by cases hf), fun hp => absurd rfl hp⟩, hs.rounds, fun n => ⟨?_, Or.inr ?_⟩, ?_, ?_,
    h.pruning⟩
  · intro cells _
    show Succeeds cfg.subspaces better sortHead cfg.grow ((cfg.round n).search cells) 0
    rw [h.search_eq]
    exact h.succeeds n cells
  · intro cells _
    show Shrinks cfg.subspaces better sortHead cfg.grow ((cfg.round n).search cells) 0 _
    rw [h.search_eq]
    exact h.shrinks n cells
  · intro cells _
    have hrange : List.range data.numOutputs ≠ [] := by
      intro hh
      have := congrArg List.length hh
      have := h.outputs
      simp at *
      omega
    have hst := outputStats_total (n := data.numOutputs) (outputs := List.range data.numOutputs) (fun j hj => List.mem_range.1 hj)
      (totalStat cells cfg.numExamples)
    obtain ⟨scores, hsc⟩ := h.defaultTotal true (List.range data.numOutputs) ((List.range data.numOutputs).map
      (fun j => ⟨(totalStat cells cfg.numExamples j).1, (totalStat cells cfg.numExamples j).2⟩)) hrange (by simp)
    have hd : cfg.setup.defaultHead cells = .ok (headOf cfg.defaultEvaluation.complete scores) := by
      simp only [Config.setup, defaultHead]
      rw [h.numOutputs, hst, ok_bind, hsc, ok_bind]
      rfl
    exact ⟨_, hd, hs.defaultHead cells _ hd⟩
  · show cfg.environment.Total cfg.numExamples _
    rw [h.numExamples]
    exact h.environment

/-- **C82**: if the number of rules is limited or if there is a time limit, training a boosting algorithm terminates without leaving memory,
dividing by zero or using values that are not initialised, regardless of whether the number of conditions is limited. -/
theorem boosting_terminates {update : T → K → Stat K} (h : TotalOk cfg data values l1 l2)
    (hu : Update.Laws cfg.updates data.numOutputs (fun r : List K => r.length = data.numOutputs) Update.denseValue (UpToDate data update))
    (hl : Training.Limited cfg.stopping cfg.environment.clock)
    {cells : List (Update.Cell (List K) (List (Stat K)))}
    (hi : Training.Initial data.numExamples data.numOutputs (fun r : List K => r.length = data.numOutputs) Update.denseValue
      (UpToDate data update) cells) :
    ∃ bound st, ∀ fuel, bound ≤ fuel → cfg.setup.induceRules fuel cells = Run.done st := by
  have ht := h.setup hu
  have hc : Training.CellsOk cfg.setup.numExamples (fun r : List K => r.length = data.numOutputs) (UpToDate data update) cells := by
    show Training.CellsOk cfg.numExamples _ _ _
    rw [h.numExamples]
    exact ⟨hi.1, fun i c hic => (hi.2 i c hic).1⟩
  obtain ⟨st0, h0, hst0⟩ := Training.start_total ht hc
  obtain ⟨d, hd⟩ := Training.create_ok (S := List (Stat K)) ht.pruning hl (if cfg.useDefaultRule then 1 else 0)
  obtain ⟨st1, _, h1⟩ := Training.assemble_total ht d _ _ 0 st0 hd hst0
  refine ⟨Training.growBound cfg.setup.learner (growSize cfg.subspaces.covers data.numExamples data.numOutputs) + (d + 1), st1, fun fuel hf => ?_⟩
  unfold Training.Setup.induceRules
  rw [h0, Run.lift_ok, Run.done_bind]
  exact h1 fuel fuel (by omega) (by omega)

/-- **C82**, including the post-processing of a model. -/
theorem boosting_fit_terminates {update : T → K → Stat K} (h : TotalOk cfg data values l1 l2)
    (hu : Update.Laws cfg.updates data.numOutputs (fun r : List K => r.length = data.numOutputs) Update.denseValue (UpToDate data update))
    (hl : Training.Limited cfg.stopping cfg.environment.clock)
    {post : Training.PostConfig σ Condition K K (List K) (List (Stat K))}
    (hp : post.Total cfg.learner data.numExamples data.numOutputs (fun r : List K => r.length = data.numOutputs) (UpToDate data update)
      (growSize cfg.subspaces.covers data.numExamples data.numOutputs))
    {cells : List (Update.Cell (List K) (List (Stat K)))}
    (hi : Training.Initial data.numExamples data.numOutputs (fun r : List K => r.length = data.numOutputs) Update.denseValue
      (UpToDate data update) cells) :
    ∃ bound r, ∀ fuel, bound ≤ fuel → cfg.setup.fit post fuel cells = Run.done r := by
  have hnum : cfg.setup.numExamples = data.numExamples := h.numExamples
  refine Training.fit_terminates (h.setup hu) hl (by rw [hnum]; exact hp) ?_
  rw [hnum]
  exact ⟨hi.1, fun i c hic => (hi.2 i c hic).1⟩

end

end MLRL.Boosting
