import Verif.Props.TabularTermination
import Verif.Props.OutOfSample

/-! # Lemmas on the termination of boosting algorithms that sample examples, recalculate predictions and prune rules -/

namespace MLRL.TrainingLoss

open RuleEval Predictor Boosting Induction

section
variable {K T : Type} [Field K] [LinearOrder K] [IsStrictOrderedRing K]

/-- An evaluation calculates a score for each output, unless it is given all outputs and creates partial heads. -/
def Covering (evaluation : Evaluation K) : Prop :=
  ∀ all outputs stats, (all = true → evaluation.complete = true) → outputs.length = stats.length →
    ∃ s, evaluation.calculateScores all outputs stats = .ok s ∧ outputs.length ≤ s.values.length

/-- The heads that result from an evaluation can be evaluated again by the other one, which calculates a score for each of their elements. -/
def Stable (regular evaluation : Evaluation K) : Prop :=
  ∀ all outputs stats scores, outputs.length = stats.length → regular.calculateScores all outputs stats = .ok scores →
    scores.values.length = scores.indices.length → scores.indices ≠ [] →
    Predicts evaluation (sortHead (headOf (regular.complete && all) scores))

omit [IsStrictOrderedRing K] in
theorem complete_covering (l1 l2 : K) {scratch : List Nat → List K} (h : ∀ outputs, (scratch outputs).length = outputs.length) :
    Covering (completeEvaluation l1 l2 scratch) := by
  intro all outputs stats _ hl
  exact ⟨_, complete_ok l1 l2 outputs (scratch outputs) stats (by rw [h, hl]), by simp [hl]⟩

omit [IsStrictOrderedRing K] in
theorem fixed_covering (partialSort : Nat → List (Nat × K) → List (Nat × K)) (l1 l2 : K) (tmp : List Nat → List (Nat × K))
    (indices : List Nat → List Nat) (scratch : List Nat → List K) {scratch' : List Nat → List K}
    (h : ∀ outputs, (scratch' outputs).length = outputs.length) : Covering (fixedEvaluation partialSort l1 l2 tmp indices scratch scratch') := by
  intro all outputs stats ha hl
  cases all with
  | true => cases ha rfl
  | false => exact complete_covering l1 l2 h false outputs stats (fun h => by cases h) hl

omit [IsStrictOrderedRing K] in
theorem dynamic_covering (pow : K → K) (threshold l1 l2 : K) (indices : List Nat → List Nat) {scratch : List Nat → List K}
    (h : ∀ outputs, (scratch outputs).length = outputs.length) : Covering (dynamicEvaluation pow threshold l1 l2 indices scratch) := by
  intro all outputs stats ha hl
  cases all with
  | true => cases ha rfl
  | false => exact complete_covering l1 l2 h false outputs stats (fun h => by cases h) hl

omit [IsStrictOrderedRing K] in
theorem Covering.stable {regular evaluation : Evaluation K} (h : Covering evaluation) (hc : regular.complete = true → evaluation.complete = true) :
    Stable regular evaluation := by
  intro all outputs stats scores _ _ _ _ stats' hl
  refine h _ _ stats' (fun hcomplete => ?_) hl
  unfold headOf at hcomplete
  cases hr : (regular.complete && all) with
  | true =>
    rw [Bool.and_eq_true] at hr
    exact hc hr.1
  | false =>
    rw [hr] at hcomplete
    cases hcomplete

theorem single_stable (l1 l2 : K) : Stable (singleEvaluation l1 l2) (singleEvaluation l1 l2) := by
  intro all outputs stats scores hl hs hlen hne stats' hl'
  simp only [singleEvaluation] at hs
  have hne' : stats ≠ [] := by
    rintro rfl
    cases hs
  obtain ⟨b, t, o, h1, h2, h3, _⟩ := single_ok l1 l2 outputs stats hne' hl
  rw [h3] at hs
  cases hs
  have ho : outputsOf (sortHead (headOf (false && all) ⟨[o], [t.score l1 l2], t.quality l1 l2 (t.score l1 l2)⟩) : Head K) = [o] := by
    simp [headOf, sortHead, outputsOf]
  have hcomplete : (singleEvaluation l1 l2).complete = false := rfl
  rw [hcomplete] at hl' ⊢
  rw [ho] at hl' ⊢
  have hne2 : stats' ≠ [] := by
    rintro rfl
    cases hl'
  obtain ⟨b', t', o', _, _, g3, _⟩ := single_ok l1 l2 [o] stats' hne2 hl'
  exact ⟨_, g3, by simp⟩

/-- Rules are evaluated on a prune set without a fault. -/
theorem outOfSample_total {evaluation : Evaluation K} {n : Nat} {examples : List Nat} {weights : Nat → K}
    {cells : List (Update.Cell (List K) (List (Stat K)))} (hlt : ∀ e ∈ examples, e < cells.length) (mask : Nat → Bool) {head : Head K}
    (hd : Distinct n head) (hpredicts : Predicts evaluation head) : ∃ q, evaluateOutOfSample evaluation n examples weights cells head mask = .ok q := by
  obtain ⟨sums, h1⟩ := addCovered_total (cells := cells) (mask := fun e => decide (weights e = 0) && mask e) (sums := 0) hlt
  rw [← addOutOfSample_eq] at h1
  cases head with
  | complete values =>
    have h2 := outputStats_total (n := n) (outputs := List.range values.length)
      (fun j hj => by have := List.mem_range.1 hj; have : values.length = n := hd; omega) sums
    obtain ⟨s, h3, h4⟩ := hpredicts _ (List.length_map (fun j => (⟨(sums j).1, (sums j).2⟩ : Stat K))).symm
    simp only [outputsOf, isComplete] at h3
    simp only [evaluateOutOfSample, h1, ok_bind, h2, h3]
    exact ⟨_, rfl⟩
  | partial_ entries =>
    have h2 := outputStats_total (n := n) (outputs := entries.map Prod.fst)
      (fun j hj => by obtain ⟨e, he, rfl⟩ := List.mem_map.1 hj; exact hd.1 e he) sums
    obtain ⟨s, h3, h4⟩ := hpredicts _ (List.length_map (fun j => (⟨(sums j).1, (sums j).2⟩ : Stat K))).symm
    simp only [outputsOf, isComplete] at h3
    simp only [evaluateOutOfSample, h1, ok_bind, h2, h3]
    exact ⟨_, rfl⟩

end

section
variable {σ K T : Type} [Field K] [LinearOrder K] [IsStrictOrderedRing K]

/-- The heads of rules that are found can be evaluated again. -/
theorem found_head {cfg : Config σ K} {data : Data K T} {values : Nat → Nat → Option Rat} {l1 l2 : K} (h : TotalOk cfg data values l1 l2) {k : Nat}
    {cells : List (Update.Cell (List K) (List (Stat K)))} {chosen : List (Refinement.Scored (Found Boosting.Condition (Head K)) K)} {s : σ} {q : K}
    {o : Option (Head K)} (hg : Greedy cfg.subspaces better sortHead cfg.grow (cfg.searchIn data k cells) 0 chosen s q o)
    {x : Refinement.Scored (Found Boosting.Condition (Head K)) K} (hx : chosen.getLast? = some x) :
    Distinct data.numOutputs (sortHead x.refinement.head) ∧
      ∀ evaluation, Stable cfg.evaluation evaluation → Predicts evaluation (sortHead x.refinement.head) := by
  cases hg with
  | start => cases hx
  | @step chosen s q o r y s' hg' _ _ hc hb hbest hf =>
    rw [List.getLast?_concat] at hx
    cases hx
    obtain ⟨i1, i2, _⟩ := h.greedy hg'
    have hq : x.quality < 0 := lt_of_lt_of_le (of_decide_eq_true hbest) i2
    obtain ⟨stats, scores, h1, h2, h3, h4, _⟩ := h.candidate i1 hc (FirstBest.mem hb)
    have hr := h.restricts i1 hc (FirstBest.mem hb) hq
    refine ⟨hr.1, fun evaluation hs => ?_⟩
    obtain ⟨_, _, g1, g2, _⟩ := scores_quality h.evaluation h1 h2
    rw [h4]
    refine hs _ _ stats scores ?_ h2 g1 ?_
    · rw [(outputStats_ok h1).2, List.length_map]
    · intro hz
      rw [hz] at g2
      rw [h3, g2] at hq
      exact absurd hq (lt_irrefl _)

/-- The rule induction, where predictions are recalculated and rules are pruned by the given functions. -/
def learnerWith (cfg : Config σ K) (f : Option (List (Update.Cell (List K) (List (Stat K))) → (Nat → Bool) → Head K → Res (Head K)))
    (p : Option (List (Update.Cell (List K) (List (Stat K))) → Head K → (Nat → Bool) → Res K)) : Learner σ Boosting.Condition K K (List K) (List (Stat K)) :=
  { cfg.learner with recalculate := f, pruning := p }

/-- The functions that recalculate predictions and evaluate rules on a prune set do not fail for heads that are found. -/
structure FunctionsOk (evaluation : Evaluation K) (numExamples numOutputs : Nat)
    (f : Option (List (Update.Cell (List K) (List (Stat K))) → (Nat → Bool) → Head K → Res (Head K)))
    (p : Option (List (Update.Cell (List K) (List (Stat K))) → Head K → (Nat → Bool) → Res K)) : Prop where
  fits : ∀ g, f = some g → ∀ cells mask head head', Update.Fits numOutputs head → g cells mask head = .ok head' → Update.Fits numOutputs head'
  recalculate : ∀ g, f = some g → ∀ cells mask head, cells.length = numExamples → Distinct numOutputs head →
    (∀ e, Stable evaluation e → Predicts e head) → ∃ head', g cells mask head = .ok head'
  pruning : ∀ g, p = some g → ∀ cells mask head, cells.length = numExamples → Distinct numOutputs head →
    (∀ e, Stable evaluation e → Predicts e head) → ∃ q, g cells head mask = .ok q

/-- A rule is induced without a fault. -/
theorem induce_found {cfg : Config σ K} {data : Data K T} {update : T → K → Stat K} {values : Nat → Nat → Option Rat} {l1 l2 : K}
    (h : TotalOk cfg data values l1 l2)
    (hu : Update.Laws cfg.updates data.numOutputs (fun r : List K => r.length = data.numOutputs) Update.denseValue (UpToDate data update))
    {f : Option (List (Update.Cell (List K) (List (Stat K))) → (Nat → Bool) → Head K → Res (Head K))}
    {p : Option (List (Update.Cell (List K) (List (Stat K))) → Head K → (Nat → Bool) → Res K)}
    (hfp : FunctionsOk cfg.evaluation data.numExamples data.numOutputs f p) {k : Nat} {cells : List (Update.Cell (List K) (List (Stat K)))}
    (hc : Training.CellsOk data.numExamples (fun r : List K => r.length = data.numOutputs) (UpToDate data update) cells)
    (hreset : ∀ chosen s q o, Greedy cfg.subspaces better sortHead cfg.grow (cfg.searchIn data k cells) 0 chosen s q o →
      ∀ s0, ∃ s', (chosen.map (fun y => y.refinement.condition)).foldlM cfg.subspaces.filter (cfg.subspaces.reset s0) = .ok s') :
    ∃ r, (∀ fuel, cfg.grow.maxConditions + ((data.numExamples + 1) * (data.numOutputs + 2)) + 2 ≤ fuel →
        (learnerWith cfg f p).induceRule (cfg.round k) fuel cells = Run.done r) ∧
      ∀ cells' rule, r = some (cells', rule) →
        Training.CellsOk data.numExamples (fun r : List K => r.length = data.numOutputs) (UpToDate data update) cells' := by
  have hb := config_setup (ConfigOk.mk h.toComponentsOk hu)
  have hnum : cfg.setup.numExamples = data.numExamples := h.numExamples
  have hl := hb.setup.learner
  have hr := hb.setup.rounds k
  have ht := (h.setup hu).roundsTotal k
  rw [hnum] at hl hr ht
  have hl' : (learnerWith cfg f p).Ok data.numExamples data.numOutputs (Boosting.Condition.holds values)
      (fun r : List K => r.length = data.numOutputs) Update.denseValue (UpToDate data update) :=
    ⟨hl.better, hl.subspaces, hl.updates, hl.postProcess, hfp.fits⟩
  have hr' : (cfg.round k).Ok (learnerWith cfg f p) data.numExamples data.numOutputs := ⟨hr.search, hr.heads, hr.applied⟩
  have ht' : Training.RoundTotal (learnerWith cfg f p) data.numExamples (fun r : List K => r.length = data.numOutputs) (UpToDate data update)
      (growSize cfg.subspaces.covers data.numExamples data.numOutputs) (cfg.round k) := ⟨ht.succeeds, ht.ends⟩
  obtain ⟨r, r1, r2⟩ := Training.induceRule_found hl' hr' ht' hc (by
    intro chosen s q o x hg hx
    have hg' : Greedy cfg.subspaces better sortHead cfg.grow (cfg.searchIn data k cells) 0 chosen s q o := by
      rw [← h.search_eq]
      exact hg
    obtain ⟨g1, g2⟩ := found_head h hg' hx
    exact ⟨fun g hg mask => hfp.recalculate g hg cells mask _ hc.1 g1 g2, fun g hg mask => hfp.pruning g hg cells mask _ hc.1 g1 g2,
      fun _ s0 => hreset _ _ _ _ hg' s0⟩)
  refine ⟨r, fun fuel hf => r1 fuel (le_trans ?_ hf), fun c rule hh => (r2 c rule hh).1⟩
  show cfg.grow.maxConditions + growSize cfg.subspaces.covers data.numExamples data.numOutputs [] cfg.subspaces.create + 2 ≤ _
  unfold growSize
  simp only [List.getLast?_nil]
  have hle : ((List.range data.numExamples).filter (cfg.subspaces.covers cfg.subspaces.create)).length ≤ data.numExamples := by
    simpa using List.length_filter_le (cfg.subspaces.covers cfg.subspaces.create) (List.range data.numExamples)
  have := Nat.mul_le_mul_right (data.numOutputs + 2) hle
  rw [Nat.add_mul]
  omega

end

end MLRL.TrainingLoss
