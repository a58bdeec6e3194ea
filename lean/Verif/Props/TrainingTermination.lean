import Verif.Lemma.TrainingTermination

/-!
# C78: training terminates
-/

namespace MLRL.Training

open Predictor Induction Stopping Stopping.Spec Refinement

variable {σ Cond K Q R S : Type} [Field K] [LinearOrder K] [IsStrictOrderedRing K]

/-- The parameters of global pruning are valid. In case of pre-pruning, the flag that is not initialised by its factory is assumed to have a
value, see `prePruningFactory_uninitialised`. -/
def ValidPruning : Option (CriterionState K) → Prop
  | none => True
  | some s => (∃ minRules interval, 1 ≤ interval ∧ s = .post (PostPruning.init minRules interval)) ∨ ∃ q, ValidPre q ∧ s = .pre (preInit q)

/-- There is a limit on the number of rules, or a time limit that is eventually exceeded. -/
def Limited (cfg : StoppingConfig K) (clock : Nat → Nat) : Prop :=
  (∃ maxRules, cfg.maxRules = some maxRules) ∨
  ∃ limit last, cfg.timeLimit = some limit ∧ ∀ m, last ≤ m → clock 0 + limit * ticksPerSecond ≤ clock m

/-- What is assumed of the components: none of them fails, and the search for refinements ends, see `LearnerTotal` and `RoundTotal`. -/
structure Setup.Total (t : Setup σ Cond K Q R S) (numOutputs : Nat) (holds : Cond → Nat → Bool) (Valid : R → Prop) (value : R → Nat → K)
    (Consistent : Nat → R → S → Prop) (size : List (Scored (Found Cond (Head K)) Q) → σ → Nat) : Prop where
  learner : t.learner.Ok t.numExamples numOutputs holds Valid value Consistent
  learnerTotal : LearnerTotal t.learner t.numExamples numOutputs Valid Consistent
  rounds : ∀ n, (t.rounds n).Ok t.learner t.numExamples numOutputs
  roundsTotal : ∀ n, RoundTotal t.learner t.numExamples Valid Consistent size (t.rounds n)
  defaultHead : ∀ cells, CellsOk t.numExamples Valid Consistent cells → ∃ h, t.defaultHead cells = .ok h ∧ Update.Fits numOutputs h
  environment : t.environment.Total t.numExamples Valid
  pruning : ValidPruning t.stopping.globalPruning

/-- What is assumed of sequential post-optimisation, if it is used. -/
structure PostConfig.Total (post : PostConfig σ Cond K Q R S) (l : Learner σ Cond K Q R S) (numExamples numOutputs : Nat) (Valid : R → Prop)
    (Consistent : Nat → R → S → Prop) (size : List (Scored (Found Cond (Head K)) Q) → σ → Nat) : Prop where
  schedule : ∀ x, post.sequential = some x → ∀ k call, Interleaving (Update.Call.tasks l.updates call numExamples) (x.2.1 k call)
  rounds : ∀ x, post.sequential = some x → ∀ k, (x.2.2 k).Ok l numExamples numOutputs
  roundsTotal : ∀ x, post.sequential = some x → ∀ k, RoundTotal l numExamples Valid Consistent size (x.2.2 k)

/-- The statistics and the rules of a model are valid. -/
def StateOk (l : Learner σ Cond K Q R S) (numExamples numOutputs : Nat) (Valid : R → Prop) (Consistent : Nat → R → S → Prop)
    (cells : List (Update.Cell R S)) (rules : List (Rule Cond K)) : Prop :=
  CellsOk numExamples Valid Consistent cells ∧ ∀ rule ∈ rules, RuleOk l.subspaces numOutputs rule

section
variable {t : Setup σ Cond K Q R S} {numOutputs : Nat} {holds : Cond → Nat → Bool} {Valid : R → Prop} {value : R → Nat → K}
  {Consistent : Nat → R → S → Prop} {size : List (Scored (Found Cond (Head K)) Q) → σ → Nat}

theorem assemble_total (ht : t.Total numOutputs holds Valid value Consistent size) : ∀ (d : Nat)
    (criteria : List (Criterion (CriterionState K) (List (Update.Cell R S)))) (numRules used : Nat) (st : State Cond K R S),
    CriteriaOk t.environment d numRules criteria → StateOk t.learner t.numExamples numOutputs Valid Consistent st.cells st.builder.rules →
    ∃ st', StateOk t.learner t.numExamples numOutputs Valid Consistent st'.cells st'.builder.rules ∧
      ∀ growFuel fuel, growBound t.learner size ≤ growFuel → d + 1 ≤ fuel →
        t.assemble growFuel fuel criteria numRules used st = Run.done st' := by
  intro d
  induction d with
  | zero =>
    intro criteria numRules used st hcr hst
    obtain ⟨r, criteria', h1, h2, _⟩ := criteria_total ht.environment hst.1 hcr
    refine ⟨st.setNumUsedRules (updateUsed used r), hst, fun growFuel fuel _ hf => ?_⟩
    obtain ⟨fuel, rfl⟩ : ∃ f, fuel = f + 1 := ⟨fuel - 1, by omega⟩
    unfold Setup.assemble
    rw [h1, Run.lift_ok, Run.done_bind]
    simp only
    rw [h2 rfl]
  | succ d ih =>
    intro criteria numRules used st hcr hst
    obtain ⟨r, criteria', h1, _, h3⟩ := criteria_total ht.environment hst.1 hcr
    have hcr' := h3 d rfl
    cases hstop : r.stop with
    | true =>
      refine ⟨st.setNumUsedRules (updateUsed used r), hst, fun growFuel fuel _ hf => ?_⟩
      obtain ⟨fuel, rfl⟩ : ∃ f, fuel = f + 1 := ⟨fuel - 1, by omega⟩
      unfold Setup.assemble
      rw [h1, Run.lift_ok, Run.done_bind]
      simp only
      rw [hstop]
    | false =>
      obtain ⟨o, g1, g2⟩ := induceRule_total ht.learner ht.learnerTotal (ht.rounds numRules) (ht.roundsTotal numRules) hst.1
      cases o with
      | none =>
        refine ⟨st.setNumUsedRules (updateUsed used r), hst, fun growFuel fuel hg hf => ?_⟩
        obtain ⟨fuel, rfl⟩ : ∃ f, fuel = f + 1 := ⟨fuel - 1, by omega⟩
        unfold Setup.assemble
        rw [h1, Run.lift_ok, Run.done_bind]
        simp only
        rw [hstop]
        simp only
        rw [g1 growFuel hg, Run.done_bind]
      | some p =>
        obtain ⟨k1, k2⟩ := g2 p.1 p.2 rfl
        obtain ⟨st', e1, e2⟩ := ih criteria' (numRules + 1) (updateUsed used r) (st.addRule p.1 p.2) hcr' ⟨k1, by
          intro rule hr
          rcases List.mem_append.1 hr with hr | hr
          · exact hst.2 rule hr
          · rw [List.mem_singleton] at hr
            subst hr
            exact k2⟩
        refine ⟨st', e1, fun growFuel fuel hg hf => ?_⟩
        obtain ⟨fuel, rfl⟩ : ∃ f, fuel = f + 1 := ⟨fuel - 1, by omega⟩
        rw [← e2 growFuel fuel hg (by omega)]
        conv_lhs => unfold Setup.assemble
        rw [h1, Run.lift_ok, Run.done_bind]
        simp only
        rw [hstop]
        simp only
        rw [g1 growFuel hg, Run.done_bind]

theorem start_total (ht : t.Total numOutputs holds Valid value Consistent size) {cells : List (Update.Cell R S)}
    (hc : CellsOk t.numExamples Valid Consistent cells) :
    ∃ st, t.start cells = .ok st ∧ StateOk t.learner t.numExamples numOutputs Valid Consistent st.cells st.builder.rules := by
  unfold Setup.start
  cases t.useDefaultRule with
  | false => exact ⟨_, rfl, hc, by simp⟩
  | true =>
    obtain ⟨head, h1, h2⟩ := ht.defaultHead cells hc
    obtain ⟨cells1, e1, e2, e3⟩ := Update.exec_exact ht.learner.updates ⟨fun _ => true, head, false⟩ h2 cells hc.2
      (defaultSteps t.learner.updates head t.numExamples) (by rw [hc.1]; exact defaultSteps_interleaving _ _ _)
    refine ⟨⟨cells1, ⟨some ⟨[], head⟩, [], 0⟩⟩, ?_, ⟨by rw [e2, hc.1], ?_⟩, by simp⟩
    · simp only [Setup.induceDefaultRule]
      rw [h1, ok_bind, e1, ok_bind]
      rfl
    · intro i c' hc'
      have hlt : i < cells.length := by
        rw [← e2]
        exact (List.getElem?_eq_some_iff.1 hc').1
      obtain ⟨c1, g1, g2, _⟩ := e3 i _ (List.getElem?_eq_getElem hlt)
      rw [hc'] at g1
      cases g1
      exact g2

theorem create_ok (hp : ValidPruning t.stopping.globalPruning) (hl : Limited t.stopping t.environment.clock) (first : Nat) :
    ∃ d, CriteriaOk (S := S) t.environment d first (t.stopping.create t.environment) := by
  have hmem : ∀ c ∈ t.stopping.create (S := S) t.environment, ∃ s, c = ⟨s, t.environment.test⟩ ∧
      (s ∈ t.stopping.maxRules.toList.map CriterionState.size ++
        t.stopping.timeLimit.toList.map (fun t => CriterionState.time t 0 ⟨0, false⟩) ++ t.stopping.globalPruning.toList) := by
    intro c hc
    obtain ⟨s, hs, rfl⟩ := List.mem_map.1 hc
    exact ⟨s, rfl, hs⟩
  have htest : ∀ c ∈ t.stopping.create (S := S) t.environment, c.test = t.environment.test := by
    intro c hc
    obtain ⟨s, rfl, _⟩ := hmem c hc
    rfl
  have hfine : ∀ c ∈ t.stopping.create (S := S) t.environment, Fine c.state := by
    intro c hc
    obtain ⟨s, rfl, hs⟩ := hmem c hc
    rcases List.mem_append.1 hs with hs | hs
    · rcases List.mem_append.1 hs with hs | hs
      · obtain ⟨m, _, rfl⟩ := List.mem_map.1 hs
        trivial
      · obtain ⟨m, _, rfl⟩ := List.mem_map.1 hs
        trivial
    · cases hg : t.stopping.globalPruning with
      | none => rw [hg] at hs; simp at hs
      | some s' =>
        rw [hg] at hs hp
        simp only [Option.toList_some, List.mem_singleton] at hs
        subst hs
        rcases hp with ⟨minRules, interval, hi, rfl⟩ | ⟨q, hq, rfl⟩
        · exact hi
        · exact ⟨q, hq, [], [], rfl⟩
  rcases hl with ⟨m, hm⟩ | ⟨limit, last, h1, h2⟩
  · refine ⟨m, htest, hfine, ⟨.size m, t.environment.test⟩, ?_, ?_⟩
    · exact List.mem_map.2 ⟨.size m, by rw [hm]; simp, rfl⟩
    · show m ≤ first + m
      omega
  · refine ⟨last + 1, htest, hfine, ⟨.time limit 0 ⟨0, false⟩, t.environment.test⟩, ?_, ?_⟩
    · exact List.mem_map.2 ⟨.time limit 0 ⟨0, false⟩, by rw [h1]; simp, rfl⟩
    · refine ⟨last + 1, by omega, fun m hm => ?_, by omega, fun _ => rfl, fun h => absurd rfl h⟩
      rw [Nat.le_div_iff_mul_le (by decide)]
      have := h2 m (by omega)
      omega

theorem removeLoop_total (n : Nat) (hn : 1 ≤ n) : ∀ (fuel : Nat) (b : IntermediateModelBuilder (Rule Cond K)), b.rules.length < fuel →
    ∃ b', IntermediateModelBuilder.removeLoop n fuel b = some (.ok b') ∧ b'.rules <+: b.rules
  | 0, _, h => by omega
  | fuel + 1, b, h => by
    unfold IntermediateModelBuilder.removeLoop
    by_cases hgt : b.getNumRules > n
    · rw [if_pos hgt]
      have hne : b.rules ≠ [] := by
        intro he
        unfold IntermediateModelBuilder.getNumRules at hgt
        rw [he, List.length_nil] at hgt
        split at hgt <;> omega
      have hpos : 0 < b.rules.length := List.length_pos_of_ne_nil hne
      unfold IntermediateModelBuilder.removeLastRule
      rw [if_neg hne]
      simp only
      obtain ⟨b', h1, h2⟩ := removeLoop_total n hn fuel { b with rules := b.rules.dropLast } (by simp only [List.length_dropLast]; omega)
      exact ⟨b', h1, h2.trans (List.dropLast_prefix _)⟩
    · rw [if_neg hgt]
      exact ⟨b, rfl, List.prefix_rfl⟩

theorem removePhase_total (remove : Bool) (st : State Cond K R S) :
    ∃ st', (∀ fuel, st.builder.rules.length < fuel → removePhase remove fuel st = Run.done st') ∧ st'.cells = st.cells ∧
      st'.builder.rules <+: st.builder.rules := by
  cases remove with
  | false => exact ⟨st, fun _ _ => rfl, rfl, List.prefix_rfl⟩
  | true =>
    by_cases hu : st.builder.numUsedRules > 0
    · obtain ⟨b', h1, h2⟩ := removeLoop_total st.builder.numUsedRules hu (st.builder.rules.length + 1) st.builder (Nat.lt_succ_self _)
      refine ⟨⟨st.cells, { b' with numUsedRules := 0 }⟩, fun fuel hf => ?_, rfl, h2⟩
      have := removeLoop_mono st.builder.numUsedRules _ (fuel - (st.builder.rules.length + 1)) _ _ h1
      rw [show st.builder.rules.length + 1 + (fuel - (st.builder.rules.length + 1)) = fuel by omega] at this
      unfold removePhase IntermediateModelBuilder.removeUnusedRules
      simp only [hu, if_true]
      rw [this]
    · refine ⟨st, fun fuel _ => ?_, rfl, List.prefix_rfl⟩
      unfold removePhase IntermediateModelBuilder.removeUnusedRules
      simp only [hu, if_false]

variable {l : Learner σ Cond K Q R S} {numExamples : Nat}

theorem optimizeRule_total (hl : l.Ok numExamples numOutputs holds Valid value Consistent)
    (hlt : LearnerTotal l numExamples numOutputs Valid Consistent) {schedule : Update.Call K → List (Nat × (Update.Cell R S → Res (Update.Cell R S)))}
    (hs : ∀ call, Interleaving (Update.Call.tasks l.updates call numExamples) (schedule call)) {round : Round σ Cond K Q R S}
    (hr : round.Ok l numExamples numOutputs) (hrt : RoundTotal l numExamples Valid Consistent size round) {i : Nat}
    {st : Induction.State Cond K R S} (hst : StateOk l numExamples numOutputs Valid Consistent st.cells st.rules) (hi : i < st.rules.length) :
    ∃ st', (∀ fuel, growBound l size ≤ fuel → l.optimizeRule fuel schedule round i st = Run.done st') ∧
      StateOk l numExamples numOutputs Valid Consistent st'.cells st'.rules ∧ st'.rules.length = st.rules.length := by
  obtain ⟨hfits, s, hfold⟩ := hst.2 _ (List.getElem_mem hi)
  obtain ⟨cells1, e1, e2, e3⟩ := Update.exec_exact hl.updates ⟨l.subspaces.covers s, st.rules[i].head, true⟩ hfits st.cells hst.1.2
    (schedule ⟨l.subspaces.covers s, st.rules[i].head, true⟩) (by rw [hst.1.1]; exact hs _)
  have hcells1 : CellsOk numExamples Valid Consistent cells1 := by
    refine ⟨by rw [e2, hst.1.1], fun k c' hc' => ?_⟩
    have hlt : k < st.cells.length := by
      have := (List.getElem?_eq_some_iff.1 hc').1
      omega
    obtain ⟨c1, g1, g2, _⟩ := e3 k _ (List.getElem?_eq_getElem hlt)
    rw [hc'] at g1
    cases g1
    exact g2
  have hrev : l.revertRule schedule st.rules[i] st.cells = .ok cells1 := by
    unfold Learner.revertRule
    rw [hfold, ok_bind]
    exact e1
  obtain ⟨o, g1, g2⟩ := induceRule_total hl hlt hr hrt hcells1
  cases o with
  | none =>
    refine ⟨⟨cells1, st.rules⟩, fun fuel hf => ?_, ⟨hcells1, hst.2⟩, rfl⟩
    unfold Learner.optimizeRule
    rw [readAt_of_lt hi, Run.lift_ok, Run.done_bind, hrev, Run.lift_ok, Run.done_bind, g1 fuel hf, Run.done_bind]
  | some p =>
    obtain ⟨k1, k2⟩ := g2 p.1 p.2 rfl
    refine ⟨⟨p.1, st.rules.set i p.2⟩, fun fuel hf => ?_, ⟨k1, fun rule hrule => ?_⟩, by simp⟩
    · unfold Learner.optimizeRule
      rw [readAt_of_lt hi, Run.lift_ok, Run.done_bind, hrev, Run.lift_ok, Run.done_bind, g1 fuel hf, Run.done_bind]
    · rcases List.mem_or_eq_of_mem_set hrule with h | rfl
      · exact hst.2 rule h
      · exact k2

theorem optimizeModel_total (hl : l.Ok numExamples numOutputs holds Valid value Consistent)
    (hlt : LearnerTotal l numExamples numOutputs Valid Consistent)
    {schedule : Nat → Update.Call K → List (Nat × (Update.Cell R S → Res (Update.Cell R S)))}
    (hs : ∀ k call, Interleaving (Update.Call.tasks l.updates call numExamples) (schedule k call)) {rounds : Nat → Round σ Cond K Q R S}
    (hr : ∀ k, (rounds k).Ok l numExamples numOutputs) (hrt : ∀ k, RoundTotal l numExamples Valid Consistent size (rounds k))
    (numIterations : Nat) {st : Induction.State Cond K R S} (hst : StateOk l numExamples numOutputs Valid Consistent st.cells st.rules) :
    ∃ st', (∀ fuel, growBound l size ≤ fuel → l.optimizeModel fuel schedule rounds numIterations st = Run.done st') ∧
      StateOk l numExamples numOutputs Valid Consistent st'.cells st'.rules := by
  unfold Learner.optimizeModel
  have hwork : ∀ p ∈ ((List.range numIterations).flatMap (fun _ => List.range st.rules.length)).zipIdx, p.1 < st.rules.length := by
    intro p hp
    have := List.fst_mem_of_mem_zipIdx hp
    obtain ⟨_, _, h2⟩ := List.mem_flatMap.1 this
    exact List.mem_range.1 h2
  generalize ((List.range numIterations).flatMap (fun _ => List.range st.rules.length)).zipIdx = work at hwork ⊢
  generalize hn : st.rules.length = n at hwork
  induction work generalizing st with
  | nil => exact ⟨st, fun _ _ => rfl, hst⟩
  | cons p work ih =>
    obtain ⟨st1, g1, g2, g3⟩ := optimizeRule_total hl hlt (hs p.2) (hr p.2) (hrt p.2) hst (by rw [hn]; exact hwork p List.mem_cons_self)
    obtain ⟨st2, k1, k2⟩ := ih g2 (by rw [g3, hn]) (fun q hq => hwork q (List.mem_cons_of_mem _ hq))
    refine ⟨st2, fun fuel hf => ?_, k2⟩
    rw [List.foldlM_cons, g1 fuel hf, Run.done_bind, k1 fuel hf]

/-- **C78**: if the number of rules is limited or if there is a time limit, training terminates, no part of it leaves memory, divides by zero
or uses values that are not initialised, and what it results in does not depend on anything but its inputs. -/
theorem fit_terminates (ht : t.Total numOutputs holds Valid value Consistent size) (hl : Limited t.stopping t.environment.clock)
    {post : PostConfig σ Cond K Q R S} (hp : post.Total t.learner t.numExamples numOutputs Valid Consistent size)
    {cells : List (Update.Cell R S)} (hc : CellsOk t.numExamples Valid Consistent cells) :
    ∃ bound r, ∀ fuel, bound ≤ fuel → t.fit post fuel cells = Run.done r := by
  obtain ⟨st0, h0, hst0⟩ := start_total ht hc
  obtain ⟨d, hd⟩ := create_ok (S := S) ht.pruning hl (if t.useDefaultRule then 1 else 0)
  obtain ⟨st1, hst1, h1⟩ := assemble_total ht d _ _ 0 st0 hd hst0
  obtain ⟨st2, h2, hcells2, hrules2⟩ := removePhase_total post.removeUnusedRules st1
  have hst2 : StateOk t.learner t.numExamples numOutputs Valid Consistent st2.cells st2.builder.rules :=
    ⟨by rw [hcells2]; exact hst1.1, fun rule hr => hst1.2 rule (hrules2.subset hr)⟩
  have h3 : ∃ st3, ∀ fuel, growBound t.learner size ≤ fuel → sequentialPhase t.learner post fuel st2 = Run.done st3 := by
    unfold sequentialPhase
    cases hs : post.sequential with
    | none => exact ⟨st2, fun _ _ => rfl⟩
    | some x =>
      obtain ⟨st', g1, _⟩ := optimizeModel_total ht.learner ht.learnerTotal (hp.schedule x hs) (hp.rounds x hs) (hp.roundsTotal x hs) x.1
        (st := ⟨st2.cells, st2.builder.rules⟩) hst2
      refine ⟨⟨st'.cells, { st2.builder with rules := st'.rules }⟩, fun fuel hf => ?_⟩
      simp only
      rw [g1 fuel hf, Run.done_bind]
  obtain ⟨st3, h3⟩ := h3
  refine ⟨growBound t.learner size + d + 1 + st1.builder.rules.length + 1, ⟨st3.builder.buildModel true, st3.cells⟩, fun fuel hf => ?_⟩
  unfold Setup.fit Setup.induceRules optimize
  rw [h0, Run.lift_ok, Run.done_bind, h1 fuel fuel (by omega) (by omega), Run.done_bind, h2 fuel (by omega), Run.done_bind,
    h3 fuel (by omega), Run.done_bind]

end

/-! ### Examples -/

/-- The number of examples that are covered by a subspace. -/
def exSize (_ : List (Scored (Found (List Nat) (Head ℚ)) Int)) (s : List Nat) : Nat := s.length

theorem exRound_total (condition : List Nat) (score : ℚ) :
    RoundTotal exLearner 3 (fun r : List ℚ => r.length = 1) (fun _ _ _ => True) exSize (exRound condition score) where
  succeeds _ _ _ _ _ _ _ := ⟨_, rfl, fun _ _ => ⟨_, rfl⟩⟩
  ends := Or.inl (by decide)

theorem exLearner_total : LearnerTotal exLearner 3 1 (fun r : List ℚ => r.length = 1) (fun _ _ (_ : Unit) => True) where
  recalculate _ h := by cases h
  pruning _ h := by cases h
  reset _ s0 conditions s _ := by
    have : ∀ (l : List (List Nat)) (s : List Nat), ∃ s', l.foldlM exLearner.subspaces.filter s = .ok s' := by
      intro l
      induction l with
      | nil => exact fun s => ⟨s, rfl⟩
      | cons c l ih => exact fun s => ih (s.filter (fun e => c.contains e))
    exact this _ _

/-- The hypotheses of `fit_terminates` hold for the examples of `Verif/Props/Training.lean`. -/
theorem exSetup_total (pruning : Option (CriterionState ℚ)) (hp : ValidPruning pruning) : (exSetup pruning).Total 1 (fun c e => c.contains e)
    (fun r : List ℚ => r.length = 1) Update.denseValue (fun _ _ _ => True) exSize where
  learner := (exSetup_ok pruning).learner
  learnerTotal := exLearner_total
  rounds := (exSetup_ok pruning).rounds
  roundsTotal n := by
    show RoundTotal exLearner 3 _ _ _ (if n = 1 then exRound [0, 1] 2 else exRound [0] 5)
    split <;> exact exRound_total _ _
  defaultHead _ _ := ⟨_, rfl, rfl⟩
  environment := ⟨fun _ _ _ _ => ⟨_, rfl⟩, (exEnvironment_ok pruning).indices⟩
  pruning := hp

theorem exPost_total : exPost.Total exLearner 3 1 (fun r : List ℚ => r.length = 1) (fun _ _ _ => True) exSize where
  schedule := exPost_ok.schedule
  rounds := exPost_ok.rounds
  roundsTotal x hx k := by cases hx; exact exRound_total _ _

example : ∃ bound r, ∀ fuel, bound ≤ fuel → (exSetup (some (.post (PostPruning.init 1 1)))).fit exPost fuel exCells = Run.done r :=
  fit_terminates (exSetup_total (some (.post (PostPruning.init 1 1))) (Or.inl ⟨1, 1, Nat.le_refl 1, rfl⟩)) (Or.inl ⟨3, rfl⟩) exPost_total
    ⟨rfl, fun i c h => (exCells_initial.2 i c h).1⟩

/-- If there is only a time limit, training terminates as well, as the clock advances. -/
example : ∃ bound r, ∀ fuel, bound ≤ fuel →
    ({ exSetup none with stopping := ⟨none, some 1000, none⟩ } : Setup _ _ _ _ _ _).fit exPost fuel exCells = Run.done r :=
  fit_terminates (t := { exSetup none with stopping := ⟨none, some 1000, none⟩ })
    { exSetup_total none trivial with pruning := trivial }
    (Or.inr ⟨1000, 1000 * ticksPerSecond, rfl, fun m hm => by show 0 + 1000 * ticksPerSecond ≤ m; omega⟩) exPost_total
    ⟨rfl, fun i c h => (exCells_initial.2 i c h).1⟩

theorem exRound_found (condition : List Nat) (score : ℚ) (fuel : Nat) (cells : List (Update.Cell (List ℚ) Unit)) :
    exLearner.induceRule (exRound condition score) fuel cells ≠ Run.done none := by
  intro h
  unfold Learner.induceRule at h
  obtain ⟨g, g1, g2⟩ := run_bind_done h
  cases hh : g.head with
  | none =>
    obtain ⟨_, candidates, hc, hno⟩ := growRule_none lower_strictWeak (fun _ _ => sequentially_interleaving _) g1 hh
    cases hc
    have := hno ⟨⟨condition, 2, .complete [score]⟩, -1⟩ (by simp)
    exact absurd (show lower (-1) 0 = false from this) (by decide)
  | some head =>
    rw [hh] at g2
    obtain ⟨r, _, g3⟩ := run_bind_done g2
    cases Run.done_inj g3

/-- **C78**, why a limit is needed: without any stopping criterion, training does not terminate as long as rules are found. -/
theorem fit_without_limit (post : PostConfig (List Nat) (List Nat) ℚ Int (List ℚ) Unit) (fuel : Nat) (r : Fitted (List Nat) ℚ (List ℚ) Unit) :
    ({ exSetup none with stopping := ⟨none, none, none⟩ } : Setup _ _ _ _ _ _).fit post fuel exCells ≠ Run.done r := by
  have key : ∀ (fuel growFuel n used : Nat) (st st' : State (List Nat) ℚ (List ℚ) Unit),
      ({ exSetup none with stopping := ⟨none, none, none⟩ } : Setup _ _ _ _ _ _).assemble growFuel fuel [] n used st ≠ Run.done st' := by
    intro fuel
    induction fuel with
    | zero =>
      intro growFuel n used st st' h
      exact Run.done_ne_unfinished h.symm
    | succ fuel ih =>
      intro growFuel n used st st' h
      unfold Setup.assemble at h
      obtain ⟨p, h1, h⟩ := lift_bind_done h
      cases h1
      simp only at h
      obtain ⟨o, h2, h⟩ := run_bind_done h
      cases o with
      | none =>
        have h2 : exLearner.induceRule (if n = 1 then exRound [0, 1] 2 else exRound [0] 5) growFuel st.cells = Run.done none := h2
        split at h2 <;> exact exRound_found _ _ _ _ h2
      | some q => exact ih _ _ _ _ _ h
  intro h
  unfold Setup.fit at h
  obtain ⟨st, h1, _⟩ := run_bind_done h
  unfold Setup.induceRules at h1
  obtain ⟨st0, _, h2⟩ := lift_bind_done h1
  exact key _ _ _ _ _ _ h2

end MLRL.Training
