import Verif.Lemma.Tabular
import Verif.Lemma.Simulation
import Verif.Props.Predictor
import Verif.Props.Body

/-!
# C80: training on tabular data
-/

namespace MLRL.Tabular

open FeatureSpace Search Induction Predictor RuleEval Refinement TrainingLoss

variable {env : Env} {n : Nat} {values : Nat → Nat → Option Rat}

/-! ### Subspaces that can be reached -/

/-- The subspaces that can be reached by adding conditions that have been found by a search. -/
def Reachable (env : Env) (n : Nat) (s : Subspace Unit) : Prop := ∃ conds, Represents env n s conds

theorem create_represents (hok : env.Ok n values) : Represents env n (.create env.space) [] := by
  refine ⟨⟨true, .create⟩, ?_⟩
  show env.space.numNonZero = _
  rw [hok.numNonZero]
  unfold numWeighted
  exact congrArg _ (List.filter_congr (fun e _ => by simp [satisfiesAll]))

theorem reset_represents (hok : env.Ok n values) {s : Subspace Unit} {conds : List (Nat → Bool)} (hs : Represents env n s conds) :
    Represents env n (s.reset env.space) [] := by
  obtain ⟨fresh, hist⟩ := hs.history
  refine ⟨⟨false, hist.reset⟩, ?_⟩
  show env.space.numNonZero = _
  rw [hok.numNonZero]
  unfold numWeighted
  exact congrArg _ (List.filter_congr (fun e _ => by simp [satisfiesAll]))

/-- Adding a condition to a subspace behaves as intended. -/
def Adds (env : Env) (n : Nat) (values : Nat → Nat → Option Rat) (s : Subspace Unit) (c : Boosting.Condition) (s' : Subspace Unit) : Prop :=
  addCondition env s c = .ok s' ∧ Reachable env n s' ∧ ∀ e, covers s' e = (covers s e && c.holds values e)

open Classical in
/-- The subspaces, restricted to those that can be reached. Conditions that do not behave as intended are rejected. -/
noncomputable def reachable (hok : env.Ok n values) : SubspaceOps {s : Subspace Unit // Reachable env n s} Boosting.Condition where
  create := ⟨.create env.space, [], create_represents hok⟩
  covers s := covers s.1
  reset s := ⟨s.1.reset env.space, [], reset_represents hok s.2.choose_spec⟩
  filter s c := if h : ∃ s', Adds env n values s.1 c s' then .ok ⟨h.choose, h.choose_spec.2.1⟩ else .error .exception

theorem reachable_laws (hok : env.Ok n values) : SubspaceLaws (reachable hok) n (Boosting.Condition.holds values) where
  create e := by
    show covers (.create env.space) e = _
    rw [covers_eq hok (create_represents hok)]
    simp [satisfiesAll]
  reset s e := by
    show covers (s.1.reset env.space) e = _
    rw [covers_eq hok (reset_represents hok s.2.choose_spec)]
    simp [satisfiesAll]
  filter s c s' h e := by
    simp only [reachable] at h
    split at h
    · rename_i hex
      cases h
      exact hex.choose_spec.2.2 e
    · cases h

theorem reachable_filter (hok : env.Ok n values) {s : {s : Subspace Unit // Reachable env n s}} {c : Boosting.Condition} {s' : Subspace Unit}
    (h : Adds env n values s.1 c s') : ((reachable hok).filter s c).map Subtype.val = addCondition env s.1 c := by
  simp only [reachable]
  rw [dif_pos ⟨s', h⟩]
  exact (Exists.choose_spec (⟨s', h⟩ : ∃ s', Adds env n values s.1 c s')).1.symm

/-- Candidates behave as intended. -/
theorem candidate_adds {M : Type} [AddCommGroup M] (hok : env.Ok n values) {s : Subspace Unit} (hs : Reachable env n s) {f : Nat}
    {stat : Nat → M} (hz : ∀ e, env.nonZero e = false → stat e = 0) {r : List (Search.Candidate M)} (hr : searchFeature env f s stat = .ok r)
    {c : Search.Candidate M} (hc : c ∈ r) : ∃ s', Adds env n values s (Boosting.conditionOf f c) s' := by
  obtain ⟨conds, hs⟩ := hs
  obtain ⟨r', h1, h2⟩ := searchFeature_ok hok hs f hz
  rw [hr] at h1
  cases h1
  obtain ⟨_, _, s', h3, h4⟩ := h2 c hc
  refine ⟨s', h3, ⟨_, h4⟩, fun e => ?_⟩
  rw [covers_eq hok h4, covers_eq hok hs]
  simp only [satisfiesAll, List.all_cons]
  cases decide (e < n) <;> cases (Boosting.conditionOf f c).holds values e <;> simp

section
variable {K T : Type} [Field K] [LinearOrder K] [IsStrictOrderedRing K]

theorem sum_filter_map {M : Type} [AddCommMonoid M] (p : Nat → Bool) (g : Nat → M) (l : List Nat) :
    ((l.filter p).map g).sum = (l.map (fun e => if p e then g e else 0)).sum := by
  induction l with
  | nil => rfl
  | cons e l ih =>
    rw [List.filter_cons]
    cases h : p e <;> simp [ih, h]

/-- The requirements of `SearchLaw` are met. -/
theorem reachable_search (hok : env.Ok n values) :
    SearchLaw n (reachable hok).covers values env.nonZero (fun f s (stat : Nat → Nat → K × K) => searchFeature env f s.1 stat) := by
  intro f s stat r hz hr c hc
  obtain ⟨conds, hs⟩ := s.2
  obtain ⟨r', h1, h2⟩ := searchFeature_ok hok hs f hz
  have h1' : searchFeature env f s.1 stat = .ok r' := h1
  rw [show searchFeature env f s.1 stat = .ok r from hr] at h1'
  cases h1'
  rw [(h2 c hc).2.1, ← list_sum_range, sum_filter_map]
  refine congrArg _ (List.map_congr_left (fun e he => ?_))
  rw [show (reachable hok).covers s e = covers s.1 e from rfl, covers_eq hok hs]
  simp [List.mem_range.1 he]

theorem weightedStat_zero {weight : Nat → K} {cells : List (Update.Cell (List K) (List (Stat K)))} {e : Nat} (h : weight e = 0) :
    Boosting.weightedStat weight cells e = 0 := by
  funext j
  unfold Boosting.weightedStat
  cases cells[e]? with
  | none => rfl
  | some c =>
    simp only
    cases c.statistics[j]? with
    | none => rfl
    | some t => simp [h]

/-- What is assumed of a boosting algorithm that is applied to tabular data: regularisation weights and weights of examples are not negative, the
shrinkage is greater than zero and at most one, rules are evaluated by one of the verified rule evaluations (see C79), threads process all
features and all examples, and the feature space is a tabular one. -/
structure Settings (cfg : Boosting.Config (Subspace Unit) K) (data : Data K T) (env : Env) (l1 l2 : K) : Prop where
  numExamples : cfg.numExamples = data.numExamples
  numOutputs : cfg.numOutputs = data.numOutputs
  weight : cfg.weight = data.weight
  regularization : 0 ≤ l1 ∧ 0 ≤ l2
  weights : ∀ i, 0 ≤ data.weight i
  positive : 0 < cfg.shrinkage
  atMostOne : cfg.shrinkage ≤ 1
  evaluation : Scoring l1 l2 cfg.evaluation
  defaultEvaluation : Scoring l1 l2 cfg.defaultEvaluation
  sampled : ∀ k l, cfg.sampledOutputs k = some l → l.Nodup
  searchSchedule : ∀ k n candidates, Interleaving candidates (cfg.searchSchedule k n candidates)
  applySchedule : ∀ k call, Interleaving (Update.Call.tasks cfg.updates call data.numExamples) (cfg.applySchedule k call)
  subspaces : cfg.subspaces = subspaces env
  searchFeature : cfg.searchFeature = searchFeature env
  nonZero : env.nonZero = fun e => decide (data.weight e ≠ 0)

/-- In addition, the data meets the requirements in `Env.Ok`. -/
structure Trainable (cfg : Boosting.Config (Subspace Unit) K) (data : Data K T) (env : Env) (values : Nat → Nat → Option Rat) (l1 l2 : K) : Prop
    extends Settings cfg data env l1 l2 where
  table : env.Ok data.numExamples values

variable {cfg : Boosting.Config (Subspace Unit) K} {data : Data K T} {l1 l2 : K}

theorem Trainable.same (h : Trainable cfg data env values l1 l2) : cfg.Same (reachable h.table) Subtype.val := by
  refine ⟨by rw [h.subspaces]; rfl, fun s => by rw [h.subspaces]; rfl, fun s f cells candidates hc c hcm => ?_⟩
  rw [h.subspaces]
  rw [h.searchFeature] at hc
  have hz : ∀ e, env.nonZero e = false → Boosting.weightedStat cfg.weight cells e = 0 := by
    intro e he
    refine weightedStat_zero ?_
    rw [h.weight]
    rw [h.nonZero] at he
    simpa using he
  obtain ⟨s', hs'⟩ := candidate_adds h.table s.2 hz hc hcm
  exact reachable_filter h.table hs'

theorem Trainable.components (h : Trainable cfg data env values l1 l2) :
    ComponentsOk (cfg.using (reachable h.table) Subtype.val) data values l1 l2 where
  numExamples := h.numExamples
  numOutputs := h.numOutputs
  weight := h.weight
  regularization := h.regularization
  weights := h.weights
  positive := h.positive
  atMostOne := h.atMostOne
  evaluation := h.evaluation
  defaultEvaluation := h.defaultEvaluation
  subspaces := reachable_laws h.table
  searchFeature := by
    have hs := reachable_search (K := K) h.table
    rw [h.nonZero] at hs
    have e : (cfg.using (reachable h.table) Subtype.val).searchFeature = fun f s stat => Tabular.searchFeature env f s.1 stat := by
      funext f s stat
      show cfg.searchFeature f s.1 stat = _
      rw [h.searchFeature]
    rw [e]
    exact hs
  sampledOutputs := h.sampled
  searchSchedule := h.searchSchedule
  applySchedule := h.applySchedule

/-- Training behaves as if the subspaces were restricted to those that can be reached. -/
theorem Trainable.training (h : Trainable cfg data env values l1 l2) (fuel : Nat) (cells : List (Update.Cell (List K) (List (Stat K)))) :
    (cfg.using (reachable h.table) Subtype.val).setup.induceRules fuel cells = cfg.setup.induceRules fuel cells :=
  Boosting.induceRules_using better_strictWeak h.searchSchedule h.same fuel cells

/-- **C80**: each rule that is learned after the default rule decreases the weighted training loss. -/
theorem tabular_decreases_partial {update : T → K → Stat K} (h : Trainable cfg data env values l1 l2)
    (hu : Update.Laws cfg.updates data.numOutputs (fun r : List K => r.length = data.numOutputs) Update.denseValue (UpToDate data update))
    {evaluate : T → K → K} {factor : K} (hm : Majorised update evaluate factor) {cells : List (Update.Cell (List K) (List (Stat K)))}
    (hi : Training.Initial data.numExamples data.numOutputs (fun r : List K => r.length = data.numOutputs) Update.denseValue
      (UpToDate data update) cells) {fuel : Nat} {st : Training.State Boosting.Condition K (List K) (List (Stat K))}
    (hr : cfg.setup.induceRules fuel cells = Run.done st) :
    Stepwise (· < ·) (fun rules => data.loss evaluate (modelScores (Boosting.Condition.holds values) rules))
      (if cfg.useDefaultRule then 1 else 0) st.allRules := by
  rw [← h.training] at hr
  exact boosting_decreases ⟨h.components, hu⟩ hm hi hr

/-! ### Predictions for the training examples -/

/-- Conditions are tested at prediction time as they have been during training. -/
theorem toCondition_holds {n : Nat} {rows : Nat → List FVal} (hrows : RowsOk env n values rows) {c : Boosting.Condition} (hc : Typed env c) {e : Nat}
    (he : e < n) : Body.Spec.WellTyped (toCondition c) ∧ ∃ v, (rows e)[(toCondition c).featureIndex]? = some v ∧
      Body.Spec.Admissible v (toCondition c) ∧ (Body.Spec.holds v (toCondition c) ↔ c.holds values e = true) := by
  have h := hrows e he c.feature
  unfold Typed at hc
  obtain ⟨f, k, t, i, m⟩ := c
  simp only at h hc
  cases hcol : env.space.column f with
  | equal => rw [hcol] at hc; exact hc.elim
  | numerical =>
    rw [hcol] at h hc
    obtain ⟨x, h1, h2⟩ := h
    rcases hc with rfl | rfl <;>
      refine ⟨trivial, some x, h1, (fun hn => absurd ?_ hn), ?_⟩ <;>
      simp [toCondition, toComparator, toThreshold, Body.Spec.IsNumerical, Body.Spec.holds, Body.Spec.satisfied, Boosting.Condition.holds, h2,
        Search.Comparator.holds]
  | nominal =>
    rw [hcol] at h hc
    obtain ⟨x, h1, h2, h3⟩ := h
    obtain ⟨hk, z, hz⟩ := hc
    subst hz
    cases k with
    | numericalLeq => exact absurd (Or.inl rfl) hk
    | numericalGr => exact absurd (Or.inr rfl) hk
    | _ =>
      refine ⟨trivial, some x, h1, fun _ => ⟨x, rfl, h3⟩, ?_⟩
      simp [toCondition, toComparator, toThreshold, Body.Spec.holds, Body.Spec.satisfied, Boosting.Condition.holds, h2,
        Search.Comparator.holds]

theorem stack_add (conds : List Condition) : ∀ l, Body.Spec.stack (conds.map .add) l = some (l ++ conds) := by
  induction conds with
  | nil => intro l; simp [Body.Spec.stack]
  | cons c conds ih => intro l; simp [Body.Spec.stack, ih]

/-- The body of a rule covers the training examples that satisfy its conditions. -/
theorem createBody_covers {n : Nat} {rows : Nat → List FVal} (hrows : RowsOk env n values rows) {conds : List Boosting.Condition}
    (hc : ∀ c ∈ conds, Typed env c) (hn : 0 < n) :
    ∃ body, createBody conds = .ok body ∧ ∀ e < n, body.coversDense (rows e) = .ok (conds.all (fun c => c.holds values e)) := by
  have key : ∀ e < n, ∃ l body covered, ConditionList.applyCalls ((conds.map toCondition).map .add) .init = .ok l ∧
      l.createConjunctiveBody = .ok body ∧ body.coversDense (rows e) = .ok covered ∧ covered = conds.all (fun c => c.holds values e) := by
    intro e he
    obtain ⟨l, body, covered, h1, h2, h3, h4⟩ := Body.covers_iff_all_conditions ((conds.map toCondition).map .add) (conds.map toCondition)
      (stack_add _ []) (by
        intro c' hc'
        obtain ⟨c, hcm, rfl⟩ := List.mem_map.1 hc'
        exact (toCondition_holds hrows (hc c hcm) he).1) (rows e) (by
        intro c' hc'
        obtain ⟨c, hcm, rfl⟩ := List.mem_map.1 hc'
        obtain ⟨_, v, h1, h2, _⟩ := toCondition_holds hrows (hc c hcm) he
        exact ⟨v, h1, h2⟩)
    refine ⟨l, body, covered, h1, h2, h3, Bool.eq_iff_iff.2 (h4.trans ?_)⟩
    rw [List.all_eq_true]
    constructor
    · intro h c hcm
      obtain ⟨_, v, g1, _, g3⟩ := toCondition_holds hrows (hc c hcm) he
      exact g3.1 (h _ (List.mem_map_of_mem hcm) v g1)
    · intro h c' hc' v hv
      obtain ⟨c, hcm, rfl⟩ := List.mem_map.1 hc'
      obtain ⟨_, w, g1, _, g3⟩ := toCondition_holds hrows (hc c hcm) he
      rw [g1] at hv
      cases hv
      exact g3.2 (h c hcm)
  by_cases hnil : conds = []
  · subst hnil
    exact ⟨.empty, rfl, fun e _ => rfl⟩
  · obtain ⟨l, body, _, h1, h2, _⟩ := key 0 hn
    refine ⟨body, ?_, fun e he => ?_⟩
    · unfold createBody
      rw [if_neg hnil]
      rw [List.map_map] at h1
      rw [show (fun c => Body.Spec.Call.add (toCondition c)) = Body.Spec.Call.add ∘ toCondition from rfl, h1, ok_bind, h2]
    · obtain ⟨l', body', covered, g1, g2, g3, rfl⟩ := key e he
      rw [h1] at g1
      cases g1
      rw [h2] at g2
      cases g2
      exact g3

/-- All conditions of a rule have been found by a search. -/
theorem greedy_candidates {σ Cond H Q : Type} {ops : SubspaceOps σ Cond} {bet : Q → Q → Bool} {sortHead : H → H} {gcfg : GrowConfig}
    {search : Induction.Search σ Cond H Q} {minQuality : Q} {chosen : List (Scored (Found Cond H) Q)} {s : σ} {q : Q} {outputs : Option H}
    (hg : Greedy ops bet sortHead gcfg search minQuality chosen s q outputs) :
    ∀ x ∈ chosen, ∃ k s o candidates, search.candidates k s o = .ok candidates ∧ x ∈ candidates.flatten := by
  induction hg with
  | start => intro x hx; cases hx
  | step _ _ _ hc hx _ _ ih =>
    intro y hy
    rcases List.mem_append.1 hy with hy | hy
    · exact ih y hy
    · rw [List.mem_singleton] at hy
      subst hy
      exact ⟨_, _, _, _, hc, FirstBest.mem hx⟩

theorem Trainable.typed_rule (h : Trainable cfg data env values l1 l2) {k fuel : Nat} {cells cells' : List (Update.Cell (List K) (List (Stat K)))}
    {rule : Induction.Rule Boosting.Condition K}
    (recalculate : Option (List (Update.Cell (List K) (List (Stat K))) → (Nat → Bool) → Head K → Res (Head K)))
    (hr : ((cfg.using (reachable h.table) Subtype.val).recalculating recalculate).induceRule ((cfg.using (reachable h.table) Subtype.val).round k)
      fuel cells = Run.done (some (cells', rule))) : ∀ c ∈ rule.conditions, Typed env c := by
  unfold Learner.induceRule at hr
  obtain ⟨g, h1, hr⟩ := run_bind_done hr
  obtain ⟨chosen, s', q, outputs, k1, _, rfl⟩ := growRule_greedy better_strictWeak (fun m c => h.searchSchedule k m c) h1
  cases hlast : chosen.getLast? with
  | none =>
    rw [hlast] at hr
    cases hr
  | some x =>
    rw [hlast] at hr
    simp only [Option.map_some] at hr
    obtain ⟨r, h2, hr⟩ := lift_bind_done hr
    cases Run.done_inj hr
    obtain ⟨head', h3, rfl⟩ := finishRule_rule (Or.inr rfl) h2
    intro c hc
    obtain ⟨y, hy, rfl⟩ := List.mem_map.1 hc
    obtain ⟨_, s, o, candidates, g1, g2⟩ := greedy_candidates k1 y hy
    obtain ⟨f, _, l, g3, c, g4, _, _, _, _, rfl⟩ := candidates_origin g1 y g2
    obtain ⟨conds, hs⟩ := s.2
    have g5 : Tabular.searchFeature env f s.1 (Boosting.weightedStat cfg.weight cells) = .ok l := by
      rw [← h.searchFeature]
      exact g3
    exact searchFeature_typed h.table hs f g5 c g4

omit [IsStrictOrderedRing K] in
/-- Default rules do not have any conditions. -/
theorem default_conditions {σ Cond R S : Type} {t : Training.Setup σ Cond K K R S} {cells : List (Update.Cell R S)}
    {st : Training.State Cond K R S} (h : t.start cells = .ok st) : ∀ rule ∈ st.builder.defaultRule.toList, rule.conditions = [] := by
  unfold Training.Setup.start at h
  split at h
  · unfold Training.Setup.induceDefaultRule at h
    cases hd : t.defaultHead cells with
    | error e => simp only at h; rw [hd] at h; cases h
    | ok head =>
      simp only at h
      rw [hd, ok_bind] at h
      cases ha : Update.exec (Training.defaultSteps t.learner.updates head t.numExamples) cells with
      | error e => rw [ha] at h; cases h
      | ok cells' =>
        rw [ha, ok_bind] at h
        cases h
        intro rule hrule
        simp only [Option.toList_some, List.mem_singleton] at hrule
        rw [hrule]
  · cases h
    intro rule hrule
    cases hrule

/-- All conditions of a model suit the types of the features. -/
theorem Trainable.typed {update : T → K → Stat K} (h : Trainable cfg data env values l1 l2)
    (hu : Update.Laws cfg.updates data.numOutputs (fun r : List K => r.length = data.numOutputs) Update.denseValue (UpToDate data update))
    {cells : List (Update.Cell (List K) (List (Stat K)))}
    (hi : Training.Initial data.numExamples data.numOutputs (fun r : List K => r.length = data.numOutputs) Update.denseValue
      (UpToDate data update) cells) {fuel : Nat} {st : Training.State Boosting.Condition K (List K) (List (Stat K))}
    (hr : cfg.setup.induceRules fuel cells = Run.done st) : ∀ rule ∈ st.allRules, ∀ c ∈ rule.conditions, Typed env c := by
  rw [← h.training] at hr
  have hok := (config_setup (ConfigOk.mk h.components hu)).setup
  unfold Training.Setup.induceRules at hr
  obtain ⟨st0, h1, hr⟩ := lift_bind_done hr
  have hi' : Training.Initial (cfg.using (reachable h.table) Subtype.val).setup.numExamples data.numOutputs
      (fun r : List K => r.length = data.numOutputs) Update.denseValue (UpToDate data update) cells := by
    rw [show (cfg.using (reachable h.table) Subtype.val).setup.numExamples = data.numExamples from h.numExamples]
    exact hi
  obtain ⟨s1, s2, s3⟩ := Training.start_trained hok hi' h1
  refine (assemble_invariant hok fuel (fun rules => ∀ rule ∈ rules, ∀ c ∈ rule.conditions, Typed env c) ?_ fuel _ _ _ st0 st ?_ ?_ hr).1
  · intro k rules cells cells' rule _ hrules hind rule' hrule'
    rcases List.mem_append.1 hrule' with hm | hm
    · exact hrules rule' hm
    · rw [List.mem_singleton] at hm
      subst hm
      exact h.typed_rule none hind
  · unfold Training.State.allRules
    rw [s2, List.append_nil]
    exact s1
  · intro rule hrule c hc
    unfold Training.State.allRules at hrule
    rw [s2, List.append_nil] at hrule
    rw [default_conditions h1 rule hrule] at hc
    cases hc

theorem createRules {rules : List (Induction.Rule Boosting.Condition K)} {body : List Boosting.Condition → Body}
    (h : ∀ rule ∈ rules, createBody rule.conditions = .ok (body rule.conditions)) :
    rules.mapM createRule = .ok (rules.map (fun rule => (⟨body rule.conditions, rule.head⟩ : Predictor.Rule K))) := by
  induction rules with
  | nil => rfl
  | cons rule rules ih =>
    rw [List.mapM_cons, ih (fun r hr => h r (List.mem_cons_of_mem _ hr))]
    unfold createRule
    rw [h rule (List.mem_cons_self)]
    rfl

/-- What rules predict for the training examples if bodies can be created for them. -/
theorem rules_predict {n numOutputs : Nat} {rows : Nat → List FVal} {rules : List (Induction.Rule Boosting.Condition K)}
    (hbody : ∀ rule ∈ rules, ∃ body, createBody rule.conditions = .ok body ∧ ∀ e < n,
      body.coversDense (rows e) = .ok (rule.conditions.all (fun c => c.holds values e)))
    (hfits : ∀ rule ∈ rules, Update.Fits numOutputs rule.head) :
    ∃ created, rules.mapM createRule = .ok created ∧ ∀ e < n, applyRulesDense (rows e) created (List.replicate numOutputs 0) =
      .ok ((List.range numOutputs).map (modelScores (Boosting.Condition.holds values) rules e)) := by
  classical
  refine ⟨_, createRules (body := fun conds => match createBody conds with | .ok b => b | .error _ => .empty) ?_, fun e he => ?_⟩
  · intro rule hrule
    obtain ⟨b, hb, _⟩ := hbody rule hrule
    simp only [hb]
  · refine Training.predict_rules rules hfits
      (fun conds => match createBody conds with | .ok b => b | .error _ => .empty) e (rows e) (fun rule hrule => ?_)
    obtain ⟨b, hb, hcov⟩ := hbody rule hrule
    simp only [hb]
    exact hcov e he

/-- **C80**: the first rules of a model predict for each training example the sum of the predictions of the rules whose conditions the example
satisfies. Together with `tabular_decreases_partial`, it follows that the loss of the predictions decreases. -/
theorem tabular_prediction_partial {update : T → K → Stat K} (h : Trainable cfg data env values l1 l2)
    (hu : Update.Laws cfg.updates data.numOutputs (fun r : List K => r.length = data.numOutputs) Update.denseValue (UpToDate data update))
    {cells : List (Update.Cell (List K) (List (Stat K)))}
    (hi : Training.Initial data.numExamples data.numOutputs (fun r : List K => r.length = data.numOutputs) Update.denseValue
      (UpToDate data update) cells) {fuel : Nat} {st : Training.State Boosting.Condition K (List K) (List (Stat K))}
    (hr : cfg.setup.induceRules fuel cells = Run.done st) {rows : Nat → List FVal} (hrows : RowsOk env data.numExamples values rows)
    (hn : 0 < data.numExamples) (m : Nat) :
    ∃ rules, (st.allRules.take m).mapM createRule = .ok rules ∧
      ∀ e < data.numExamples, applyRulesDense (rows e) rules (List.replicate data.numOutputs 0) =
        .ok ((List.range data.numOutputs).map (modelScores (Boosting.Condition.holds values) (st.allRules.take m) e)) := by
  have htyped := h.typed hu hi hr
  rw [← h.training] at hr
  have hi' : Training.Initial (cfg.using (reachable h.table) Subtype.val).setup.numExamples data.numOutputs
      (fun r : List K => r.length = data.numOutputs) Update.denseValue (UpToDate data update) cells := by
    rw [show (cfg.using (reachable h.table) Subtype.val).setup.numExamples = data.numExamples from h.numExamples]
    exact hi
  have htr := Training.final_scores (config_setup (ConfigOk.mk h.components hu)).setup hi' hr
  exact rules_predict (fun rule hrule => createBody_covers hrows (htyped rule (List.mem_of_mem_take hrule)) hn)
    (fun rule hrule => htr.2.2.1 rule (List.mem_of_mem_take hrule))

omit [LinearOrder K] [IsStrictOrderedRing K] in
theorem range_map_denseValue {scores : List K} {n : Nat} (h : scores.length = n) : (List.range n).map (Update.denseValue scores) = scores := by
  refine List.ext_getElem? (fun j => ?_)
  rw [List.getElem?_map]
  by_cases hj : j < n
  · rw [List.getElem?_range hj]
    unfold Update.denseValue
    rw [List.getElem?_eq_getElem (by omega)]
    simp [List.getElem?_eq_getElem (show j < scores.length by omega)]
  · rw [List.getElem?_eq_none (by simpa using hj), List.getElem?_eq_none (by omega)]
    rfl

/-- **C80**: without global pruning and without sequential post-optimisation, the model that results from training predicts for each training
example the scores with which training has ended. -/
theorem tabular_fit_partial {update : T → K → Stat K} (h : Trainable cfg data env values l1 l2)
    (hu : Update.Laws cfg.updates data.numOutputs (fun r : List K => r.length = data.numOutputs) Update.denseValue (UpToDate data update))
    {cells : List (Update.Cell (List K) (List (Stat K)))}
    (hi : Training.Initial data.numExamples data.numOutputs (fun r : List K => r.length = data.numOutputs) Update.denseValue
      (UpToDate data update) cells) {fuel : Nat}
    {post : Training.PostConfig (Subspace Unit) Boosting.Condition K K (List K) (List (Stat K))}
    (hp : cfg.stopping.globalPruning = none) (hseq : post.sequential = none)
    {r : Training.Fitted Boosting.Condition K (List K) (List (Stat K))} (hr : cfg.setup.fit post fuel cells = Run.done r)
    (hlen : r.model.rules.length + 2 < 2 ^ 32) {rows : Nat → List FVal} (hrows : RowsOk env data.numExamples values rows)
    (hn : 0 < data.numExamples) :
    ∃ used rules, r.model.usedToList 0 = .ok used ∧ used.mapM createRule = .ok rules ∧
      ∀ e < data.numExamples, ∃ c, r.cells[e]? = some c ∧
        applyRulesDense (rows e) rules (List.replicate data.numOutputs 0) = .ok c.scores := by
  have hr0 := hr
  unfold Training.Setup.fit at hr0
  obtain ⟨st, h1, _⟩ := run_bind_done hr0
  have hpred := tabular_prediction_partial h hu hi h1 hrows hn st.allRules.length
  rw [List.take_length] at hpred
  obtain ⟨rules, hrules, happly⟩ := hpred
  have h1' := h1
  rw [← h.training] at h1'
  have hi' : Training.Initial (cfg.using (reachable h.table) Subtype.val).setup.numExamples data.numOutputs
      (fun r : List K => r.length = data.numOutputs) Update.denseValue (UpToDate data update) cells := by
    rw [show (cfg.using (reachable h.table) Subtype.val).setup.numExamples = data.numExamples from h.numExamples]
    exact hi
  have hsetup := (config_setup (ConfigOk.mk h.components hu)).setup
  have htr := Training.final_scores hsetup hi' h1'
  obtain ⟨_, _, _, _, _, _, _, hused, _⟩ := Training.induceRules_run hsetup hi' h1'
  have hnum := hused hp
  obtain ⟨st2, h2, hr⟩ := run_bind_done (by unfold Training.Setup.fit at hr; exact hr)
  rw [h1] at h2
  cases Run.done_inj h2
  obtain ⟨st3, h3, hr⟩ := run_bind_done hr
  cases Run.done_inj hr
  unfold Training.optimize at h3
  obtain ⟨st4, h4, h5⟩ := run_bind_done h3
  unfold Training.sequentialPhase at h5
  rw [hseq] at h5
  cases Run.done_inj h5
  obtain rfl : st3 = st := by
    unfold Training.removePhase at h4
    split at h4
    · exact (Run.done_inj h4).symm
    · simp only [IntermediateModelBuilder.removeUnusedRules, hnum, Nat.lt_irrefl, gt_iff_lt, if_false] at h4
      cases Run.done_inj h4
      rfl
  have hall : st3.allRules.length + 1 < 2 ^ 32 := by
    rw [IntermediateModelBuilder.buildModel_eq] at hlen
    simp only at hlen
    unfold Training.State.allRules
    rw [List.length_append]
    have : st3.builder.defaultRule.toList.length ≤ 1 := by cases st3.builder.defaultRule <;> simp
    omega
  obtain ⟨_, m2, _⟩ := Training.removePhase_used (remove := false) (fuel := fuel) (st := st3) rfl hall (by rw [hnum]; exact Nat.zero_le _)
  rw [hnum, if_pos rfl, List.take_length] at m2
  refine ⟨st3.allRules, rules, m2, hrules, fun e he => ?_⟩
  have hlt : e < st3.cells.length := by
    rw [htr.1]
    show e < cfg.numExamples
    rw [h.numExamples]
    exact he
  refine ⟨_, List.getElem?_eq_getElem hlt, ?_⟩
  have hsc := Training.trained_scores htr (List.getElem?_eq_getElem hlt)
  rw [happly e he]
  have hvalid := (htr.2.1 e _ (List.getElem?_eq_getElem hlt)).1
  show Except.ok (Training.predictedScores (Boosting.Condition.holds values) data.numOutputs st3.allRules e) = _
  rw [← hsc, range_map_denseValue hvalid]

end

/-! ### Example -/

/-- The values of a numerical, a nominal, a binary and an ordinal feature. -/
def exTable : List (List Rat) := [[3, 7, 1, -2], [1, 7, 0, 4], [2, 2, 0, 1], [5, 5, 0, 1]]

def exTableValues (f e : Nat) : Option Rat := (exTable[e]?).bind (fun row => row[f]?)

/-- The vectors that are created for these values. -/
def exColumn : Nat → FeatureVector
  | 0 => .numerical [(1, 1), (2, 2), (0, 3), (3, 5)] 0 false []
  | 1 => .nominal .nominal [(2, [2]), (5, [3])] 7 []
  | 2 => .nominal .binary [(1, [0])] 0 []
  | 3 => .nominal .ordinal [(-2, [0]), (4, [1])] 1 []
  | _ => .equal

/-- The examples in the training data have the weights 1, 1, 1 and 2. -/
def exEnv : Env := ⟨⟨4, 4, exColumn, fun a b => decide (a = b), fun _ => ()⟩, fun e => decide (exData.weight e ≠ 0), 1⟩

theorem exEnv_ok : exEnv.Ok 4 exTableValues where
  numExamples := rfl
  size := by decide
  numNonZero := by decide +kernel
  isEqual x := decide_eq_true rfl
  column f := by
    show ColumnOk 4 _ (exTableValues f) (exColumn f)
    match f with
    | 0 =>
      refine ColumnOk.numerical (by simp) (by unfold SortedEntries; decide +kernel) (by decide +kernel) ?_ (by decide +kernel)
        (Or.inr (by decide +kernel))
      intro e
      simp only [List.map_cons, List.map_nil, List.mem_cons, List.not_mem_nil, or_false]
      omega
    | 1 => exact ColumnOk.nominal (by simp) (by decide) (by decide) (by decide) (by decide +kernel) (by decide +kernel) (by simp) (by simp)
    | 2 => exact ColumnOk.nominal (by simp) (by decide) (by decide) (by decide) (by decide +kernel) (by decide +kernel) (by simp) (by simp)
    | 3 =>
      exact ColumnOk.nominal (by simp) (by decide) (by decide) (by decide) (by decide +kernel) (by decide +kernel) (by simp)
        (fun _ => ⟨by decide, by decide +kernel⟩)
    | _ + 4 => exact ColumnOk.equal

/-- Rules with at most two conditions and single-output heads; shrinkage is 1/2. -/
def exTabular : Boosting.Config (Subspace Unit) ℚ where
  subspaces := subspaces exEnv
  updates := exUpdates
  grow := ⟨1, 2, 0⟩
  shrinkage := 1 / 2
  numExamples := 4
  numOutputs := 2
  weight := exData.weight
  hasZeroWeights := false
  useDefaultRule := true
  defaultEvaluation := Boosting.completeEvaluation 0 1 (fun outputs => List.replicate outputs.length 0)
  evaluation := Boosting.singleEvaluation 0 1
  searchFeature := searchFeature exEnv
  features _ _ := [0, 1, 2, 3]
  sampledOutputs _ := none
  searchSchedule _ _ := sequentially
  applySchedule _ call := sequentially (call.tasks exUpdates 4)
  stopping := ⟨some 4, none, none⟩
  environment := ⟨fun n => n, [], fun _ _ => .ok 0⟩

theorem exTabular_ok : Trainable exTabular exData exEnv exTableValues 0 1 where
  numExamples := rfl
  numOutputs := rfl
  weight := rfl
  regularization := ⟨le_rfl, zero_le_one⟩
  weights := exConfig_ok.weights
  positive := exConfig_ok.positive
  atMostOne := exConfig_ok.atMostOne
  evaluation := single_scoring 0 1
  defaultEvaluation := complete_scoring 0 1 _ (fun _ => by simp)
  sampled k l h := by cases h
  searchSchedule _ _ _ := sequentially_interleaving _
  applySchedule _ _ := sequentially_interleaving _
  subspaces := rfl
  searchFeature := rfl
  nonZero := rfl
  table := exEnv_ok

/-- The feature matrix the training data has been created from. -/
def exRows (e : Nat) : List FVal := match e with
  | 0 => [some 3, some (15 / 2), some 1, some (-2)]
  | 1 => [some 1, some 7, some 0, some 4]
  | 2 => [some 2, some 2, some (-1 / 2), some 1]
  | _ => [some 5, some 5, some 0, some 1]

theorem exRows_ok : RowsOk exEnv 4 exTableValues exRows := by
  intro e he f
  show match exColumn f with
    | .equal => True
    | .numerical _ _ _ _ => ∃ x, (exRows e)[f]? = some (some x) ∧ exTableValues f e = some x
    | .nominal _ _ _ _ => ∃ x, (exRows e)[f]? = some (some x) ∧ exTableValues f e = some (Body.Spec.truncate x : Rat) ∧
        -2 ^ 31 ≤ Body.Spec.truncate x ∧ Body.Spec.truncate x < 2 ^ 31
  match f with
  | 0 => match e, he with
    | 0, _ => exact ⟨3, by decide +kernel⟩
    | 1, _ => exact ⟨1, by decide +kernel⟩
    | 2, _ => exact ⟨2, by decide +kernel⟩
    | 3, _ => exact ⟨5, by decide +kernel⟩
  | 1 => match e, he with
    | 0, _ => exact ⟨15 / 2, by decide +kernel⟩
    | 1, _ => exact ⟨7, by decide +kernel⟩
    | 2, _ => exact ⟨2, by decide +kernel⟩
    | 3, _ => exact ⟨5, by decide +kernel⟩
  | 2 => match e, he with
    | 0, _ => exact ⟨1, by decide +kernel⟩
    | 1, _ => exact ⟨0, by decide +kernel⟩
    | 2, _ => exact ⟨-1 / 2, by decide +kernel⟩
    | 3, _ => exact ⟨0, by decide +kernel⟩
  | 3 => match e, he with
    | 0, _ => exact ⟨-2, by decide +kernel⟩
    | 1, _ => exact ⟨4, by decide +kernel⟩
    | 2, _ => exact ⟨1, by decide +kernel⟩
    | 3, _ => exact ⟨1, by decide +kernel⟩
  | _ + 4 => trivial

example (fuel : Nat) (st : Training.State Boosting.Condition ℚ (List ℚ) (List (Stat ℚ)))
    (h : exTabular.setup.induceRules fuel exCells = Run.done st) :
    Stepwise (· < ·) (fun rules => exData.loss exEvaluate (modelScores (Boosting.Condition.holds exTableValues) rules)) 1 st.allRules :=
  tabular_decreases_partial exTabular_ok exConfig_ok.updates exMajorised exCells_initial h

/-- The losses of the models that consist of the default rule and the first rules. -/
def exTabularLosses (st : Training.State Boosting.Condition ℚ (List ℚ) (List (Stat ℚ))) : List ℚ :=
  (List.range (st.allRules.length + 1)).map
    (fun k => exData.loss exEvaluate (modelScores (Boosting.Condition.holds exTableValues) (st.allRules.take k)))

/-- What the model that results from training predicts for a training example. -/
def exPredict (r : Training.Fitted Boosting.Condition ℚ (List ℚ) (List (Stat ℚ))) (e : Nat) : Res (List ℚ) := do
  let used ← r.model.usedToList 0
  let rules ← used.mapM createRule
  applyRulesDense (exRows e) rules [0, 0]

/-- The rules that are learned and the losses of the models that consist of the first rules. -/
example : (exTabular.setup.induceRules 20 exCells >>= fun st => Run.done
      (st.allRules.map (fun rule => rule.conditions.map (fun c => (c.feature, c.comparator, c.threshold))), exTabularLosses st)) =
    Run.done ([[], [(1, .nominalEq, 7)], [(1, .nominalNeq, 7)], [(3, .ordinalGr, (1 : ℚ))]],
      [45, 161 / 5, 129 / 5, 528 / 25, 6873 / 400]) := by decide +kernel

/-! ### What the requirements are needed for -/

/-- Three examples, a single feature and a single output. -/
def badData (targets : List ℚ) : Data ℚ ℚ := ⟨3, 1, fun _ => 1, fun i _ => (targets[i]?).getD 0⟩

def badUpdates (targets : List ℚ) : Update.Ops ℚ (List ℚ) (List (Stat ℚ)) :=
  ⟨Update.changeDense (· + ·), Update.changeDense (· - ·), fun i _ scores _ =>
    .ok ((List.range 1).map (fun j => exUpdate ((badData targets).truth i j) (Update.denseValue scores j)))⟩

def badEnv (column : FeatureVector) : Env :=
  ⟨⟨3, 3, fun f => if f = 0 then column else .equal, fun a b => decide (a = b), fun _ => ()⟩, fun _ => true, 1⟩

/-- A single rule with a single condition is learned. -/
def badConfig (targets : List ℚ) (column : FeatureVector) : Boosting.Config (Subspace Unit) ℚ where
  subspaces := subspaces (badEnv column)
  updates := badUpdates targets
  grow := ⟨1, 1, 0⟩
  shrinkage := 1
  numExamples := 3
  numOutputs := 1
  weight _ := 1
  hasZeroWeights := false
  useDefaultRule := false
  defaultEvaluation := Boosting.completeEvaluation 0 0 (fun outputs => List.replicate outputs.length 0)
  evaluation := Boosting.singleEvaluation 0 0
  searchFeature := searchFeature (badEnv column)
  features _ _ := [0]
  sampledOutputs _ := none
  searchSchedule _ _ := sequentially
  applySchedule _ call := sequentially (call.tasks (badUpdates targets) 3)
  stopping := ⟨some 1, none, none⟩
  environment := ⟨fun n => n, [], fun _ _ => .ok 0⟩

def badCells (targets : List ℚ) : List (Update.Cell (List ℚ) (List (Stat ℚ))) :=
  (List.range 3).map (fun i => ⟨[0], [exUpdate ((badData targets).truth i 0) 0]⟩)

/-- The scores with which training ends and the predictions of the model. -/
def badRun (targets : List ℚ) (column : FeatureVector) (rows : Nat → List FVal) : Run (List (List ℚ) × List (List ℚ)) := do
  let r ← (badConfig targets column).setup.fit ⟨false, none⟩ 20 (badCells targets)
  let used ← Run.lift (r.model.usedToList 0)
  let rules ← Run.lift (used.mapM createRule)
  let predicted ← Run.lift ((List.range 3).mapM (fun e => applyRulesDense (rows e) rules [0]))
  Run.done (r.cells.map (fun c => c.scores), predicted)

/-- The loss of scores. -/
def badLoss (targets : List ℚ) (scores : List (List ℚ)) : ℚ :=
  (badData targets).loss exEvaluate (fun i j => (((scores[i]?).getD [])[j]?).getD 0)

/-- **C80**, negative part: if a numerical feature has values on both sides of the sparse value (here, -4, 1 and 9, the sparse value being zero),
the only rule that is learned is evaluated and applied during training to the first example only. Its condition is `<= 5/2` and also covers the
second one, so that the model predicts for this example a score it has not been trained for. The loss of the predictions is greater than without
any rule. -/
theorem numerical_training_fails :
    badRun [4, -4, 0] (.numerical [(0, -4), (1, 1), (2, 9)] 0 false []) (fun e => [([-4, 1, 9] : List ℚ)[e]?]) =
      Run.done ([[4], [0], [0]], [[4], [4], [0]]) ∧
    badLoss [4, -4, 0] [[0], [0], [0]] = 32 ∧ badLoss [4, -4, 0] [[4], [0], [0]] = 16 ∧ badLoss [4, -4, 0] [[4], [4], [0]] = 64 := by
  decide +kernel

/-- **C80**, negative part: an example whose value is missing is not covered by any condition during training, but by numerical `<=` conditions at
prediction time. The loss of the predictions is greater than without any rule. -/
theorem missing_training_fails :
    badRun [4, 0, -4] (.numerical [(0, -2), (1, -1)] 0 false [2]) (fun e => [([-2, -1] : List ℚ)[e]?]) =
      Run.done ([[4], [0], [0]], [[4], [0], [4]]) ∧
    badLoss [4, 0, -4] [[0], [0], [0]] = 32 ∧ badLoss [4, 0, -4] [[4], [0], [0]] = 16 ∧ badLoss [4, 0, -4] [[4], [0], [4]] = 64 := by
  decide +kernel

example (fuel : Nat) (r : Training.Fitted Boosting.Condition ℚ (List ℚ) (List (Stat ℚ)))
    (h : exTabular.setup.fit ⟨true, none⟩ fuel exCells = Run.done r) (hlen : r.model.rules.length + 2 < 2 ^ 32) :
    ∃ used rules, r.model.usedToList 0 = .ok used ∧ used.mapM createRule = .ok rules ∧
      ∀ e < 4, ∃ c, r.cells[e]? = some c ∧ applyRulesDense (exRows e) rules [0, 0] = .ok c.scores :=
  tabular_fit_partial exTabular_ok exConfig_ok.updates exCells_initial rfl rfl h hlen exRows_ok (by decide)

/-- The predictions of the model for the training examples and the scores with which training ends. -/
example : (exTabular.setup.fit ⟨true, none⟩ 20 exCells >>= fun r => Run.done ((List.range 4).map (exPredict r), r.cells.map (fun c => c.scores))) =
    Run.done ([.ok [12 / 5, 0], .ok [12 / 5, -3 / 4], .ok [1, 0], .ok [1, 0]], [[12 / 5, 0], [12 / 5, -3 / 4], [1, 0], [1, 0]]) := by decide +kernel

end MLRL.Tabular
