import Verif.Lemma.SecoGrow
import Verif.Props.Coverage
import Verif.Props.Stopping

/-! # Lemmas on training by separate-and-conquer algorithms -/

namespace MLRL.SecoTraining

open Predictor Induction Refinement Seco Statistics Stopping

section
variable {K : Type} [Field K] [LinearOrder K] [IsStrictOrderedRing K]
variable {cfg : Config K} {label : Nat → Nat → Bool} {values : Nat → Nat → Option Rat} {h : Heuristic K}

/-! ### Confusion matrices -/

omit [IsStrictOrderedRing K] in
theorem exampleConfusion_of_ge {majority : List Nat} {labels : LabelMatrix} {n c : Nat} {weights : Weights K} {cells : List Nat} {e j : Nat}
    (hj : c ≤ j) : exampleConfusion majority labels n c weights cells e j = 0 := by
  have hrow : ∀ r : Row, (Row.value majority c r : ConfusionMatrices K) j = 0 := by
    intro r
    unfold Row.value
    rw [if_neg (fun hh => absurd hh.1 (by omega))]
  unfold exampleConfusion stat
  cases (seCoData labels n c cells weights).rows[e]? with
  | none => rfl
  | some r =>
    cases (seCoData labels n c cells weights).weights with
    | equal _ => exact hrow r
    | vector l =>
      show (element l e • (Row.value majority c r : ConfusionMatrices K)) j = 0
      rw [Pi.smul_apply, hrow, smul_zero]

omit [IsStrictOrderedRing K] in
theorem exampleConfusion_of_le {majority : List Nat} {labels : LabelMatrix} {n c : Nat} {weights : Weights K} {cells : List Nat} {e : Nat}
    (he : n ≤ e) : exampleConfusion majority labels n c weights cells e = 0 := by
  unfold exampleConfusion stat seCoData
  simp [he]

omit [IsStrictOrderedRing K] in
theorem exampleConfusion_eq {majority : List Nat} {labels : LabelMatrix} {n c : Nat} (hl : IsLabels n c label labels) {cov : Nat → Nat → Nat}
    {cells : List Nat} (hc : IsCoverage n c cov cells) (weights : Weights K) :
    exampleConfusion majority labels n c weights cells = fun e j => if e < n ∧ j < c ∧ cov e j = 0 then
      weightAt weights e • (unitConfusion (label e j) (decide (j ∈ majority)) : Confusion K) else 0 := by
  funext e j
  by_cases he : e < n
  · by_cases hj : j < c
    · unfold exampleConfusion
      rw [seCoData_stat hl hc weights majority he hj]
      simp [he, hj]
    · rw [exampleConfusion_of_ge (by omega), if_neg (fun hh => hj hh.2.1)]
  · rw [exampleConfusion_of_le (by omega), if_neg (fun hh => he hh.1)]
    rfl

theorem smul_unit_nonneg {w : K} (hw : 0 ≤ w) (a b : Bool) : 0 ≤ w • (unitConfusion a b : Confusion K) := by
  cases a <;> cases b <;> simp [unitConfusion, Prod.le_def, hw]

/-- What is needed for growing a rule is available. -/
theorem growing (hok : ConfigOk cfg label values h) {majority : List Nat} (hm : majority.Pairwise (· < ·)) {cov : Nat → Nat → Nat}
    {cells : List Nat} (hc : IsCoverage cfg.numExamples cfg.numOutputs cov cells) (k : Nat) :
    ∃ total, totalSum (confusionOps majority) (seCoData cfg.labels cfg.numExamples cfg.numOutputs cells (cfg.rounds k).weights) = .ok total ∧
      total.length = cfg.numOutputs ∧
      Growing (cfg.rounds k) cfg.evaluation majority cfg.numExamples cfg.numOutputs values h total
        (exampleConfusion majority cfg.labels cfg.numExamples cfg.numOutputs (cfg.rounds k).weights cells) := by
  have hr := hok.rounds k
  have hsize : (seCoData cfg.labels cfg.numExamples cfg.numOutputs cells (cfg.rounds k).weights).weights.size = cfg.numExamples := by
    have hw := hr.weights
    show (cfg.rounds k).weights.size = _
    cases hcase : (cfg.rounds k).weights with
    | equal m => rw [hcase] at hw; exact hw
    | vector l => rw [hcase] at hw; exact hw
  obtain ⟨total, t1, t2, t3⟩ := totalSum_spec (confusionLaws (K := K) hm cfg.numOutputs)
    (d := seCoData cfg.labels cfg.numExamples cfg.numOutputs cells (cfg.rounds k).weights)
    (by rw [hsize]; exact seCoData_valid hok.labels hc hr.weights) rfl
  rw [hsize] at t3
  refine ⟨total, t1, t2, hok.outputs, hok.evaluation, hr, hm, ?_, ?_, ?_⟩
  · intro j hj
    have hlt : j < total.length := by rw [t2]; exact hj
    rw [List.getElem?_eq_getElem hlt]
    congr 1
    have := congrFun t3 j
    unfold element at this
    rw [List.getElem?_eq_getElem hlt, Option.getD_some, Seco.sum_apply, List.map_map] at this
    rw [this]
    unfold sums
    simp only [if_true]
    rfl
  · intro e he
    rw [exampleConfusion_eq hok.labels hc]
    funext j
    by_cases hen : e < cfg.numExamples
    · rw [hr.nonZero e hen] at he
      have : weightAt (cfg.rounds k).weights e = 0 := by
        by_contra hne
        simp [hne] at he
      simp [this]
    · simp [hen]
  · intro e he j
    rw [exampleConfusion_eq hok.labels hc]
    simp only
    split
    · exact smul_unit_nonneg (hr.nonneg e he) _ _
    · exact le_rfl

/-- Rules only depend on which labels have been covered, not on how often. -/
theorem growNext_congr (hok : ConfigOk cfg label values h) {majority : List Nat} (hm : majority.Pairwise (· < ·)) {m m' : CoverageMatrix K}
    {cov cov' : Nat → Nat → Nat} (hc : IsCoverage cfg.numExamples cfg.numOutputs cov m.cells)
    (hc' : IsCoverage cfg.numExamples cfg.numOutputs cov' m'.cells)
    (hsame : ∀ e < cfg.numExamples, ∀ j < cfg.numOutputs, cov e j = 0 ↔ cov' e j = 0) (k fuel : Nat) :
    cfg.growNext majority k fuel m = cfg.growNext majority k fuel m' := by
  have hex : exampleConfusion majority cfg.labels cfg.numExamples cfg.numOutputs (cfg.rounds k).weights m.cells =
      exampleConfusion majority cfg.labels cfg.numExamples cfg.numOutputs (cfg.rounds k).weights m'.cells := by
    rw [exampleConfusion_eq hok.labels hc, exampleConfusion_eq hok.labels hc']
    funext e j
    by_cases he : e < cfg.numExamples
    · by_cases hj : j < cfg.numOutputs
      · simp only [he, hj, hsame e he j hj]
      · simp [hj]
    · simp [he]
  obtain ⟨t, t1, t2, t3⟩ := growing hok hm hc k
  obtain ⟨t', t1', t2', t3'⟩ := growing hok hm hc' k
  have ht : t = t' := by
    refine List.ext_getElem? (fun j => ?_)
    by_cases hj : j < cfg.numOutputs
    · rw [t3.total j hj, t3'.total j hj, hex]
    · rw [List.getElem?_eq_none (by omega), List.getElem?_eq_none (by omega)]
  unfold Config.growNext
  rw [t1, t1', ht, hex]

/-! ### Heads -/

omit [LinearOrder K] [IsStrictOrderedRing K] in
theorem MinorityHead.ok {c : Nat} {majority : List Nat} {head : Predictor.Head K} (hh : MinorityHead c majority head) : HeadOk c head := by
  obtain ⟨indices, rfl, _, h2, h3⟩ := hh
  refine ⟨?_, ?_⟩
  · rw [List.map_map]
    simpa [Function.comp_def] using h2
  · intro x hx
    obtain ⟨j, hj, rfl⟩ := List.mem_map.1 hx
    exact h3 j hj

omit [IsStrictOrderedRing K] in
theorem MinorityHead.minority {c : Nat} {majority : List Nat} {head : Predictor.Head K} (hh : MinorityHead c majority head) (j : Nat) :
    predictsMinority majority head j = (predictedValue head j).isSome := by
  obtain ⟨indices, rfl, _, _, _⟩ := hh
  unfold predictsMinority
  rw [predictedValue_map]
  by_cases hj : j ∈ indices
  · rw [if_pos hj]
    unfold inverseMajority
    by_cases hm : j ∈ majority <;> simp [hm]
  · rw [if_neg hj]
    rfl

/-! ### Heuristics -/

theorem progressive_zero (hp : Progressive h) (t : Confusion K) : labelQuality h t 0 ≤ 0 := by
  unfold labelQuality
  cases hp with
  | precision => simp [Heuristic.evaluate, Seco.precision, RuleEval.divideOrZero]
  | recall => simp [Heuristic.evaluate, Seco.recall, RuleEval.divideOrZero]
  | wra => simp [Heuristic.evaluate, Seco.wra]
  | fMeasure beta =>
    cases beta with
    | none => simp [Heuristic.evaluate, Seco.fMeasure, Seco.recall, RuleEval.divideOrZero]
    | some b =>
      simp only [Heuristic.evaluate, Seco.fMeasure]
      split <;> simp [Seco.precision, RuleEval.divideOrZero]
  | infinite => simp [Heuristic.evaluate, Seco.mEstimate, Seco.wra]
  | zero m hm => simp [Heuristic.evaluate, Seco.mEstimate, not_lt.2 hm, Seco.precision, RuleEval.divideOrZero]

omit [LinearOrder K] [IsStrictOrderedRing K] in
theorem sums_zero {n : Nat} {ex : Nat → ConfusionMatrices K} {mask : Nat → Bool} {j : Nat} (hz : ∀ e < n, mask e = true → ex e j = 0) :
    sums n ex mask j = 0 := by
  unfold sums
  refine List.sum_eq_zero (fun x hx => ?_)
  obtain ⟨e, he, rfl⟩ := List.mem_map.1 hx
  by_cases hme : mask e = true
  · rw [if_pos hme]
    exact hz e (List.mem_range.1 he) hme
  · rw [if_neg hme]

/-- A rule covers at least one label that has not been covered, unless the heuristic rewards rules that do not cover anything. -/
theorem progressive_covers (hp : Progressive h) {n : Nat} {ex : Nat → ConfusionMatrices K} {mask : Nat → Bool} {j : Nat}
    (hq : 0 < qualityOf h n ex mask j) : ∃ e < n, mask e = true ∧ ex e j ≠ 0 := by
  by_contra hno
  unfold qualityOf at hq
  rw [sums_zero (mask := mask) (fun e he hme => by
    by_contra hne
    exact hno ⟨e, he, hme, hne⟩)] at hq
  exact absurd hq (not_lt.2 (progressive_zero hp _))

/-! ### Numbers of cells -/

theorem numCells_le (n c : Nat) (p : Nat → Nat → Prop) [∀ i j, Decidable (p i j)] : numCells n c p ≤ n * c := by
  unfold numCells
  calc ∑ i ∈ Finset.range n, ∑ j ∈ Finset.range c, (if p i j then 1 else 0)
      ≤ ∑ _i ∈ Finset.range n, ∑ _j ∈ Finset.range c, 1 :=
        Finset.sum_le_sum (fun i _ => Finset.sum_le_sum (fun j _ => by split <;> omega))
    _ = n * c := by simp

theorem numCells_lt {n c : Nat} {p q : Nat → Nat → Prop} [∀ i j, Decidable (p i j)] [∀ i j, Decidable (q i j)]
    (hpq : ∀ i j, p i j → q i j) {i j : Nat} (hi : i < n) (hj : j < c) (hq : q i j) (hp : ¬ p i j) : numCells n c p < numCells n c q := by
  have hle : ∀ a b, (if p a b then 1 else 0) ≤ (if q a b then 1 else 0 : Nat) := by
    intro a b
    by_cases h1 : p a b
    · rw [if_pos h1, if_pos (hpq a b h1)]
    · rw [if_neg h1]; omega
  unfold numCells
  refine Finset.sum_lt_sum (fun a _ => Finset.sum_le_sum (fun b _ => hle a b)) ⟨i, Finset.mem_range.2 hi, ?_⟩
  refine Finset.sum_lt_sum (fun b _ => hle i b) ⟨j, Finset.mem_range.2 hj, ?_⟩
  rw [if_pos hq, if_neg hp]
  omega

/-! ### States that are reached -/

/-- What holds whenever the stopping criteria are tested. `S` is the initial sum of the weights of uncovered labels. -/
structure Trained (cfg : Config K) (values : Nat → Nat → Option Rat) (h : Heuristic K) (majority : List Nat) (S : K) (st : State K) : Prop where
  rep : Rep cfg.numExamples cfg.numOutputs st.matrix (numCovering values st.builder.rules) S
  heads : ∀ r ∈ st.builder.rules, MinorityHead cfg.numOutputs majority r.head
  typed : ∀ r ∈ st.builder.rules, ∃ k, ∀ cond ∈ r.conditions, Tabular.Typed (cfg.rounds k).env cond
  used : st.builder.numUsedRules = 0
  progress : Progressive h → st.builder.rules.length ≤
    numCells cfg.numExamples cfg.numOutputs (fun e j => 0 < numCovering values st.builder.rules e j)

omit [Field K] [LinearOrder K] [IsStrictOrderedRing K] in
theorem numCovering_append (rules : List (Induction.Rule Boosting.Condition K)) (rule : Induction.Rule Boosting.Condition K) (e j : Nat) :
    numCovering values (rules ++ [rule]) e j = numCovering values rules e j +
      if rule.conditions.all (fun c => c.holds values e) = true ∧ (predictedValue rule.head j).isSome = true then 1 else 0 := by
  unfold numCovering
  rw [List.countP_append]
  congr 1
  rw [List.countP_singleton]
  simp only [Bool.and_eq_true]

omit [IsStrictOrderedRing K] in
theorem Trained.isCoverage {majority : List Nat} {S : K} {st : State K} (ht : Trained cfg values h majority S st) :
    IsCoverage cfg.numExamples cfg.numOutputs (numCovering values st.builder.rules) st.matrix.cells := ⟨ht.rep.length, ht.rep.get⟩

/-- What happens when another rule is induced. -/
theorem Trained.induce (hok : ConfigOk cfg label values h) {majority : List Nat} (hm : majority.Pairwise (· < ·)) {S : K} {st : State K}
    (ht : Trained cfg values h majority S st) (k : Nat) :
    ∃ bound gr, (∀ fuel, bound ≤ fuel → cfg.growNext majority k fuel st.matrix = Run.done gr) ∧
      (∀ fuel gr', cfg.growNext majority k fuel st.matrix = Run.done gr' → gr' = gr) ∧
      ∀ head, gr.head = some head → st.builder.rules.length + 1 < 2 ^ 32 →
        ∃ m, execCall majority cfg.numExamples ⟨Tabular.covers gr.subspace, head, false⟩ st.matrix = .ok m ∧
          Trained cfg values h majority S (st.addRule m ⟨gr.conditions, head⟩) := by
  obtain ⟨total, t1, _, g⟩ := growing hok hm ht.isCoverage k
  obtain ⟨bound, gr, hgr⟩ := g.terminates (gcfg := cfg.grow)
  have hnext : ∀ fuel, cfg.growNext majority k fuel st.matrix = growRule (Tabular.subspaces (cfg.rounds k).env) better Boosting.sortHead cfg.grow
      ((cfg.rounds k).search cfg.evaluation majority cfg.numOutputs total (Tabular.searchFeature (cfg.rounds k).env)
        (exampleConfusion majority cfg.labels cfg.numExamples cfg.numOutputs (cfg.rounds k).weights st.matrix.cells)) (some 0) fuel := by
    intro fuel
    unfold Config.growNext
    rw [t1]
    rfl
  refine ⟨bound, gr, fun fuel hf => by rw [hnext]; exact hgr fuel hf, ?_, ?_⟩
  · intro fuel gr' hgr'
    rw [hnext] at hgr'
    have h1 := Training.growRule_mono (Nat.le_max_left fuel bound) hgr'
    rw [hgr _ (Nat.le_max_right fuel bound)] at h1
    exact (Run.done_inj h1).symm
  · intro head hhead hlen
    obtain ⟨g1, g2, g3⟩ := g.grown (hgr bound le_rfl)
    obtain ⟨g4, j0, hj0, g5, g6⟩ := g3 head hhead
    obtain ⟨m, m1, m2⟩ := execCall_ok (call := ⟨Tabular.covers gr.subspace, head, false⟩) ht.rep hm g4.ok (fun i _ j _ _ _ => by
      show numCovering values st.builder.rules i j + 1 < uint32Size
      have : numCovering values st.builder.rules i j ≤ st.builder.rules.length := List.countP_le_length
      unfold uint32Size
      omega)
    have hcov : ∀ e < cfg.numExamples, ∀ j, numCovering values (st.builder.rules ++ [⟨gr.conditions, head⟩]) e j =
        afterCall majority ⟨Tabular.covers gr.subspace, head, false⟩ (numCovering values st.builder.rules) e j := by
      intro e he j
      rw [numCovering_append]
      unfold afterCall
      rw [g1, g4.minority]
      beta_reduce
      have : coverage cfg.numExamples (Boosting.Condition.holds values) gr.conditions e =
          gr.conditions.all (fun c => c.holds values e) := by
        unfold coverage
        simp [he]
      simp only [this, Bool.false_eq_true, if_false]
      split <;> rfl
    refine ⟨m, m1, m2.congr (fun e he j _ => hcov e he j), ?_, ?_, ht.used, ?_⟩
    · intro r hr
      rcases List.mem_append.1 hr with hr | hr
      · exact ht.heads r hr
      · rw [List.mem_singleton.1 hr]
        exact g4
    · intro r hr
      rcases List.mem_append.1 hr with hr | hr
      · exact ht.typed r hr
      · rw [List.mem_singleton.1 hr]
        exact ⟨k, g2⟩
    · intro hp
      obtain ⟨e, he, hmask, hex⟩ := progressive_covers hp g6
      have hzero : numCovering values st.builder.rules e j0 = 0 := by
        by_contra hne
        rw [exampleConfusion_eq hok.labels ht.isCoverage] at hex
        exact hex (by simp [hne])
      show (st.builder.rules ++ [_]).length ≤ _
      rw [List.length_append, List.length_singleton]
      refine Nat.lt_of_le_of_lt (ht.progress hp) (numCells_lt (fun a b hab => ?_) he hj0 ?_ ?_)
      · show 0 < numCovering values (st.builder.rules ++ [_]) a b
        rw [numCovering_append]
        omega
      · show 0 < numCovering values (st.builder.rules ++ [_]) e j0
        rw [hcov e he]
        unfold afterCall
        rw [if_pos ⟨hmask, by rw [g4.minority]; exact g5⟩]
        simp
      · rw [hzero]
        exact Nat.lt_irrefl 0

/-! ### Stopping criteria -/

/-- A state of a criterion that is used, after it has been tested several times. -/
def OwnState (cfg : Config K) (numTests : Nat) : CriterionState K → Prop
  | .size N => cfg.maxRules = some N
  | .time limit n timer => cfg.timeLimit = some limit ∧ n = numTests ∧ timer.timerStarted = decide (numTests ≠ 0) ∧
      (numTests ≠ 0 → timer.startTime = cfg.clock 0)
  | .coverage t => cfg.threshold = some t

/-- The criteria are those of a separate-and-conquer algorithm. -/
def OwnCriteria (cfg : Config K) (numTests : Nat) (criteria : List (Criterion (CriterionState K) (CoverageMatrix K))) : Prop :=
  ∀ c ∈ criteria, c.test = testCriterion cfg.clock ∧ OwnState cfg numTests c.state

omit [IsStrictOrderedRing K] in
theorem ownCriteria (cfg : Config K) : OwnCriteria cfg 0 cfg.criteria := by
  intro c hc
  obtain ⟨s, hs, rfl⟩ := List.mem_map.1 hc
  refine ⟨rfl, ?_⟩
  rcases List.mem_append.1 hs with hs | hs
  · rcases List.mem_append.1 hs with hs | hs
    · obtain ⟨N, hN, rfl⟩ := List.mem_map.1 hs
      exact Option.mem_toList.1 hN
    · obtain ⟨N, hN, rfl⟩ := List.mem_map.1 hs
      exact ⟨Option.mem_toList.1 hN, rfl, rfl, fun hne => absurd rfl hne⟩
  · obtain ⟨N, hN, rfl⟩ := List.mem_map.1 hs
    exact Option.mem_toList.1 hN

omit [Field K] [IsStrictOrderedRing K] in
theorem testCriterion_ok (clock : Nat → Nat) (s : CriterionState K) (m : CoverageMatrix K) (k : Nat) : ∃ p, testCriterion clock s m k = .ok p := by
  cases s <;> exact ⟨_, rfl⟩

omit [Field K] [IsStrictOrderedRing K] in
theorem listTest_own {cfg : Config K} {criteria : List (Criterion (CriterionState K) (CoverageMatrix K))} {t : Nat} (hown : OwnCriteria cfg t criteria)
    (m : CoverageMatrix K) (k : Nat) : ∃ result criteria', listTest criteria m k = .ok (result, criteria') := by
  obtain ⟨⟨r, cs⟩, hr⟩ := (listTest_ok_iff m k criteria).2 (fun c hc => by
    unfold Criterion.call
    rw [(hown c hc).1]
    obtain ⟨p, hp⟩ := testCriterion_ok cfg.clock c.state m k
    rw [hp, ok_bind]
    exact ⟨_, rfl⟩)
  exact ⟨r, cs, hr⟩

omit [Field K] [IsStrictOrderedRing K] in
theorem testCriterion_own {cfg : Config K} {s s' : CriterionState K} {m : CoverageMatrix K} {k : Nat} {r : Result}
    (ht : testCriterion cfg.clock s m k = .ok (r, s')) {t : Nat} (hs : OwnState cfg t s) : OwnState cfg (t + 1) s' := by
  cases s with
  | size N => cases ht; exact hs
  | coverage N => cases ht; exact hs
  | time limit n timer =>
    cases ht
    obtain ⟨o1, rfl, o3, o4⟩ := hs
    refine ⟨o1, rfl, ?_, fun _ => ?_⟩
    · unfold timeTest
      by_cases hn : n = 0
      · subst hn
        rw [if_neg (by rw [o3]; simp)]
        simp
      · rw [if_pos (by rw [o3]; simp [hn])]
        simp only
        split <;> rw [o3] <;> simp [hn]
    · unfold timeTest
      by_cases hn : n = 0
      · subst hn
        rw [if_neg (by rw [o3]; simp)]
      · rw [if_pos (by rw [o3]; simp [hn])]
        simp only
        split <;> exact o4 hn

omit [Field K] [IsStrictOrderedRing K] in
theorem listTest_next {cfg : Config K} {criteria criteria' : List (Criterion (CriterionState K) (CoverageMatrix K))} {t : Nat} (hown : OwnCriteria cfg t criteria)
    {m : CoverageMatrix K} {k : Nat} {result : Result} (hl : listTest criteria m k = .ok (result, criteria')) : OwnCriteria cfg (t + 1) criteria' := by
  obtain ⟨calls, g1, rfl, _, _⟩ := listTest_forall₂ hl
  intro c hc
  obtain ⟨p, hp, rfl⟩ := List.mem_map.1 hc
  obtain ⟨a, ha, hap⟩ := forall₂_mem_right g1 p hp
  obtain ⟨k1, k2⟩ := Criterion.call_test (c' := p.2) (r := p.1) hap
  obtain ⟨o1, o2⟩ := hown a ha
  rw [k1]
  refine ⟨o1, ?_⟩
  rw [o1] at k2
  exact testCriterion_own k2 o2

omit [IsStrictOrderedRing K] in
/-- The reason for which training is stopped. -/
theorem listTest_ends {cfg : Config K} {criteria criteria' : List (Criterion (CriterionState K) (CoverageMatrix K))} {numRules : Nat}
    (hown : OwnCriteria cfg (numRules - if cfg.useDefaultRule then 1 else 0) criteria) {m : CoverageMatrix K} {majority : List Nat} {growFuel : Nat}
    {result : Result} (hl : listTest criteria m numRules = .ok (result, criteria')) (hs : result.stop = true) : Ends cfg majority growFuel numRules m := by
  obtain ⟨calls, g1, rfl, g3, _⟩ := listTest_forall₂ hl
  obtain ⟨p, hp, hps⟩ := g3.1 hs
  obtain ⟨a, ha, hap⟩ := forall₂_mem_right g1 p hp
  obtain ⟨_, k2⟩ := Criterion.call_test (c' := p.2) (r := p.1) hap
  obtain ⟨o1, o2⟩ := hown a ha
  rw [o1] at k2
  cases hstate : a.state with
  | size N =>
    rw [hstate] at k2 o2
    unfold testCriterion at k2
    injection k2 with k2
    injection k2 with k2 k3
    rw [← k2] at hps
    refine .size N o2 ?_
    unfold sizeTest at hps
    by_contra hlt
    rw [if_neg (by omega)] at hps
    cases hps
  | time limit num timer =>
    rw [hstate] at k2 o2
    unfold testCriterion at k2
    injection k2 with k2
    injection k2 with k2 k3
    rw [← k2] at hps
    unfold timeTest at hps
    obtain ⟨o2, rfl, o4, o5⟩ := o2
    refine .time limit o2 ?_
    by_cases hst : timer.timerStarted = true
    · rw [if_pos hst] at hps
      rw [hst] at o4
      rw [← o5 (of_decide_eq_true o4.symm)]
      by_contra hlt
      simp only at hps
      rw [if_neg (by simpa using hlt)] at hps
      cases hps
    · rw [if_neg hst] at hps
      cases hps
  | coverage t =>
    rw [hstate] at k2 o2
    unfold testCriterion at k2
    injection k2 with k2
    injection k2 with k2 k3
    rw [← k2] at hps
    refine .coverage t o2 ?_
    simpa [testCoverage] using hps

omit [Field K] [IsStrictOrderedRing K] in
/-- If the first criterion limits the number of rules, it stops and remains. -/
theorem listTest_size {clock : Nat → Nat} {N : Nat} {rest criteria' : List (Criterion (CriterionState K) (CoverageMatrix K))}
    {m : CoverageMatrix K} {k : Nat} {result : Result} (hl : listTest (⟨.size N, testCriterion clock⟩ :: rest) m k = .ok (result, criteria')) :
    (N ≤ k → result.stop = true) ∧ ∃ rest', criteria' = ⟨.size N, testCriterion clock⟩ :: rest' := by
  obtain ⟨calls, g1, rfl, g3, _⟩ := listTest_forall₂ hl
  cases g1 with
  | @cons _ p _ calls hp _ =>
    have hp' : p = (sizeTest N k, ⟨.size N, testCriterion clock⟩) := by
      unfold Criterion.call testCriterion at hp
      cases hp
      rfl
    subst hp'
    refine ⟨fun hN => g3.2 ⟨_, List.mem_cons_self, ?_⟩, calls.map Prod.snd, rfl⟩
    unfold sizeTest
    rw [if_pos hN]

/-! ### The loop -/

theorem bind_lift_ok {A B : Type} {r : Res A} {a : A} (hr : r = .ok a) (f : A → Run B) : (Run.lift r >>= f) = f a := by
  rw [hr]
  rfl

/-- An upper bound on the number of rules that are learned. -/
def Bounded (cfg : Config K) (h : Heuristic K) (d : Nat) (criteria : List (Criterion (CriterionState K) (CoverageMatrix K))) (numRules : Nat)
    (st : State K) : Prop :=
  (Progressive h ∧ cfg.numExamples * cfg.numOutputs + 1 < 2 ^ 32 ∧ cfg.numExamples * cfg.numOutputs < st.builder.rules.length + d) ∨
  ∃ N rest, criteria = ⟨.size N, testCriterion cfg.clock⟩ :: rest ∧ N ≤ numRules + d ∧ st.builder.rules.length + d < 2 ^ 32

theorem assemble_terminates (hok : ConfigOk cfg label values h) {majority : List Nat} (hm : majority.Pairwise (· < ·)) {S : K} :
    ∀ (d : Nat) (criteria : List (Criterion (CriterionState K) (CoverageMatrix K))) (numRules : Nat) (st : State K),
      (∃ t, OwnCriteria cfg t criteria) → Trained cfg values h majority S st → Bounded cfg h d criteria numRules st →
      ∃ bound st', ∀ growFuel fuel, bound ≤ growFuel → bound ≤ fuel →
        cfg.assemble majority growFuel fuel criteria numRules st = Run.done st' ∧ st'.builder.rules.length ≤ st.builder.rules.length + d := by
  intro d
  induction d with
  | zero =>
    intro criteria numRules st ⟨t, hown⟩ ht hb
    obtain ⟨result, criteria', hl⟩ := listTest_own hown st.matrix numRules
    rcases hb with ⟨hp, _, hlt⟩ | ⟨N, rest, rfl, hN, _⟩
    · have := (ht.progress hp).trans (numCells_le _ _ _)
      omega
    · have hstop := (listTest_size hl).1 (by omega)
      refine ⟨1, st, fun growFuel fuel _ hf => ⟨?_, by omega⟩⟩
      obtain ⟨f, rfl⟩ : ∃ f, fuel = f + 1 := ⟨fuel - 1, by omega⟩
      rw [Config.assemble, bind_lift_ok hl]
      simp only [hstop]
  | succ d ih =>
    intro criteria numRules st ⟨t, hown⟩ ht hb
    obtain ⟨result, criteria', hl⟩ := listTest_own hown st.matrix numRules
    cases hstop : result.stop with
    | true =>
      refine ⟨1, st, fun growFuel fuel _ hf => ⟨?_, by omega⟩⟩
      obtain ⟨f, rfl⟩ : ∃ f, fuel = f + 1 := ⟨fuel - 1, by omega⟩
      rw [Config.assemble, bind_lift_ok hl]
      simp only [hstop]
    | false =>
      obtain ⟨b1, gr, hgr, _, hadd⟩ := ht.induce hok hm numRules
      cases hhead : gr.head with
      | none =>
        refine ⟨b1 + 1, st, fun growFuel fuel hg hf => ⟨?_, by omega⟩⟩
        obtain ⟨f, rfl⟩ : ∃ f, fuel = f + 1 := ⟨fuel - 1, by omega⟩
        rw [Config.assemble, bind_lift_ok hl]
        simp only [hstop]
        unfold Config.induceRule
        rw [hgr growFuel (by omega), Run.done_bind]
        simp only [hhead]
        rfl
      | some head =>
        have hlen : st.builder.rules.length + 1 < 2 ^ 32 := by
          rcases hb with ⟨hp, hnc, hlt⟩ | ⟨N, rest, rfl, hN, hsz⟩
          · have := (ht.progress hp).trans (numCells_le _ _ _)
            omega
          · omega
        obtain ⟨m, m1, m2⟩ := hadd head hhead hlen
        have hl2 : (st.addRule m ⟨gr.conditions, head⟩).builder.rules.length = st.builder.rules.length + 1 := by
          unfold State.addRule
          simp
        obtain ⟨b2, st', hst'⟩ := ih criteria' (numRules + 1) (st.addRule m ⟨gr.conditions, head⟩) ⟨_, listTest_next hown hl⟩ m2 (by
          rcases hb with ⟨hp, hnc, hlt⟩ | ⟨N, rest, rfl, hN, hsz⟩
          · exact Or.inl ⟨hp, hnc, by omega⟩
          · obtain ⟨rest', hrest⟩ := (listTest_size hl).2
            exact Or.inr ⟨N, rest', hrest, by omega, by omega⟩)
        refine ⟨b1 + b2 + 1, st', fun growFuel fuel hg hf => ⟨?_, ?_⟩⟩
        · obtain ⟨f, rfl⟩ : ∃ f, fuel = f + 1 := ⟨fuel - 1, by omega⟩
          rw [Config.assemble, bind_lift_ok hl]
          simp only [hstop]
          unfold Config.induceRule
          rw [hgr growFuel (by omega), Run.done_bind]
          simp only [hhead]
          rw [bind_lift_ok m1]
          exact (hst' growFuel f (by omega) (by omega)).1
        · have := (hst' (b1 + b2 + 1) (b1 + b2 + 1) (by omega) (by omega)).2
          omega

omit [IsStrictOrderedRing K] in
/-- The cases that are distinguished in each iteration. -/
theorem assemble_cases {majority : List Nat} {growFuel fuel numRules : Nat}
    {criteria : List (Criterion (CriterionState K) (CoverageMatrix K))} {st st' : State K}
    (hr : cfg.assemble majority growFuel (fuel + 1) criteria numRules st = Run.done st') :
    ∃ result criteria', listTest criteria st.matrix numRules = .ok (result, criteria') ∧
      ((result.stop = true ∧ st' = st) ∨
      result.stop = false ∧ ∃ gr, cfg.growNext majority numRules growFuel st.matrix = Run.done gr ∧
        ((gr.head = none ∧ st' = st) ∨
        ∃ head m, gr.head = some head ∧ execCall majority cfg.numExamples ⟨Tabular.covers gr.subspace, head, false⟩ st.matrix = .ok m ∧
          cfg.assemble majority growFuel fuel criteria' (numRules + 1) (st.addRule m ⟨gr.conditions, head⟩) = Run.done st')) := by
  rw [Config.assemble] at hr
  obtain ⟨⟨result, criteria'⟩, h1, h2⟩ := lift_bind_done hr
  refine ⟨result, criteria', h1, ?_⟩
  simp only at h2
  cases hstop : result.stop with
  | true =>
    rw [hstop] at h2
    exact Or.inl ⟨rfl, (Run.done_inj h2).symm⟩
  | false =>
    rw [hstop] at h2
    refine Or.inr ⟨rfl, ?_⟩
    simp only at h2
    obtain ⟨x, h3, h4⟩ := run_bind_done h2
    unfold Config.induceRule at h3
    obtain ⟨gr, h5, h6⟩ := run_bind_done h3
    refine ⟨gr, h5, ?_⟩
    cases hhead : gr.head with
    | none =>
      simp only [hhead] at h6
      cases Run.done_inj h6
      exact Or.inl ⟨rfl, (Run.done_inj h4).symm⟩
    | some head =>
      simp only [hhead] at h6
      obtain ⟨m, h7, h8⟩ := lift_bind_done h6
      cases Run.done_inj h8
      exact Or.inr ⟨head, m, rfl, h7, h4⟩

omit [IsStrictOrderedRing K] in
theorem assemble_default {majority : List Nat} {growFuel : Nat} : ∀ (fuel numRules : Nat)
    (criteria : List (Criterion (CriterionState K) (CoverageMatrix K))) (st st' : State K),
    cfg.assemble majority growFuel fuel criteria numRules st = Run.done st' →
      st'.builder.defaultRule = st.builder.defaultRule ∧ st.builder.rules.length ≤ st'.builder.rules.length
  | 0, numRules, criteria, st, st', hr => by
    rw [Config.assemble] at hr
    exact absurd hr.symm Run.done_ne_unfinished
  | fuel + 1, numRules, criteria, st, st', hr => by
    obtain ⟨result, criteria', _, h2⟩ := assemble_cases hr
    rcases h2 with ⟨_, rfl⟩ | ⟨_, gr, _, ⟨_, rfl⟩ | ⟨head, m, _, _, h3⟩⟩
    · exact ⟨rfl, le_rfl⟩
    · exact ⟨rfl, le_rfl⟩
    · obtain ⟨k1, k2⟩ := assemble_default fuel _ _ _ _ h3
      refine ⟨k1, ?_⟩
      unfold State.addRule at k2
      simp at k2
      omega

theorem assemble_trained (hok : ConfigOk cfg label values h) {majority : List Nat} (hm : majority.Pairwise (· < ·)) {S : K} {growFuel : Nat} :
    ∀ (fuel : Nat) (criteria : List (Criterion (CriterionState K) (CoverageMatrix K))) (st st' : State K),
      Trained cfg values h majority S st → OwnCriteria cfg st.builder.rules.length criteria →
      cfg.assemble majority growFuel fuel criteria (st.builder.rules.length + (if cfg.useDefaultRule then 1 else 0)) st = Run.done st' →
      st'.builder.rules.length < 2 ^ 32 → Trained cfg values h majority S st' ∧
        Ends cfg majority growFuel (st'.builder.rules.length + (if cfg.useDefaultRule then 1 else 0)) st'.matrix
  | 0, criteria, st, st', ht, hown, hr, hlen => by
    rw [Config.assemble] at hr
    exact absurd hr.symm Run.done_ne_unfinished
  | fuel + 1, criteria, st, st', ht, hown, hr, hlen => by
    obtain ⟨result, criteria', h1, h2⟩ := assemble_cases hr
    rcases h2 with ⟨hs, rfl⟩ | ⟨_, gr, hg, ⟨hn, rfl⟩ | ⟨head, m, hhead, hcall, h3⟩⟩
    · exact ⟨ht, listTest_ends (by rw [Nat.add_sub_cancel]; exact hown) h1 hs⟩
    · exact ⟨ht, .noRule gr hg hn⟩
    · obtain ⟨_, k2⟩ := assemble_default fuel _ _ _ _ h3
      have hlen' : st.builder.rules.length + 1 < 2 ^ 32 := by
        unfold State.addRule at k2
        simp at k2
        omega
      obtain ⟨_, gr', _, huniq, hadd⟩ := ht.induce hok hm (st.builder.rules.length + (if cfg.useDefaultRule then 1 else 0))
      cases huniq _ _ hg
      obtain ⟨m', m1, m2⟩ := hadd head hhead hlen'
      rw [hcall] at m1
      cases m1
      have hnum : st.builder.rules.length + (if cfg.useDefaultRule then 1 else 0) + 1 =
          (st.addRule m ⟨gr.conditions, head⟩).builder.rules.length + (if cfg.useDefaultRule then 1 else 0) := by
        unfold State.addRule
        simp
        omega
      rw [hnum] at h3
      refine assemble_trained hok hm fuel _ _ _ m2 ?_ h3 hlen
      have hnext := listTest_next hown h1
      unfold State.addRule
      simpa using hnext

end

end MLRL.SecoTraining
