import Verif.Lemma.SecoModel
import Verif.Props.DecisionList
import Verif.Props.RuleList
import Verif.Props.Tabular
import Mathlib.Tactic.LinearCombination

/-!
# C83: training by separate-and-conquer algorithms
-/

namespace MLRL.SecoTraining

open Predictor Induction Refinement Seco Statistics Stopping

section
variable {K : Type} [Field K] [LinearOrder K] [IsStrictOrderedRing K]
variable {cfg : Config K} {label : Nat → Nat → Bool} {values : Nat → Nat → Option Rat} {h : Heuristic K}

/-! ### Initialisation -/

theorem rowsOf_eq {n c : Nat} {array : List Bool} (hlen : array.length = n * c)
    (hget : ∀ i < n, ∀ j < c, array[i * c + j]? = some (label i j)) : LabelMatrix.rowsOf array n c = denseLabels n c label := by
  unfold LabelMatrix.rowsOf denseLabels Loss.row
  refine List.map_congr_left (fun i hi => ?_)
  have hi := List.mem_range.1 hi
  have hrow : i * c + c ≤ array.length := by rw [hlen]; exact row_le hi
  refine List.ext_getElem? (fun j => ?_)
  rw [List.getElem?_map, List.getElem?_map]
  by_cases hj : j < c
  · rw [List.getElem?_take_of_lt hj, List.getElem?_drop, hget i hi j hj, List.getElem?_range hj]
    rfl
  · rw [List.getElem?_eq_none (by simp; omega), List.getElem?_eq_none (by simp; omega)]
    rfl

theorem createStatistics_ok (hok : ConfigOk cfg label values h) {memory : List Nat} (hmem : memory.length = cfg.numOutputs) :
    cfg.createStatistics memory = .ok (majorityLabels cfg.numExamples cfg.numOutputs label,
      { numCols := cfg.numOutputs, cells := List.replicate (cfg.numExamples * cfg.numOutputs) 0, sumOfUncoveredWeights :=
        (numCells cfg.numExamples cfg.numOutputs (fun i j => label i j ≠ isMajority cfg.numExamples label j) : K) }) := by
  unfold Config.createStatistics
  have hl := hok.labels
  generalize cfg.labels = labels at hl
  cases hl with
  | dense array length get =>
    simp only
    rw [rowsOf_eq length get]
    exact createStatisticsDense_ok _ _ label hmem
  | csr rows length sorted mem =>
    exact createStatisticsCsr_ok ⟨length, fun row hr => (sorted row hr).imp (fun hh => Nat.ne_of_lt hh), mem⟩

/-- The head of the default rule. -/
def majorityHead (c : Nat) (majority : List Nat) : Predictor.Head K :=
  .complete ((List.range c).map (fun j => if j ∈ majority then 1 else 0))

omit [LinearOrder K] [IsStrictOrderedRing K] in
theorem majorityHead_value {c : Nat} {majority : List Nat} {j : Nat} (hj : j < c) :
    predictedValue (majorityHead c majority : Predictor.Head K) j = some (if j ∈ majority then 1 else 0) := by
  simp only [majorityHead, predictedValue]
  rw [List.getElem?_map, List.getElem?_range hj]
  rfl

theorem defaultHead_eq {majority : List Nat} (hm : majority.Pairwise (· < ·)) {m : CoverageMatrix K} {head : Predictor.Head K}
    (hd : cfg.defaultHead majority m = .ok head) : head = majorityHead cfg.numOutputs majority := by
  unfold Config.defaultHead at hd
  obtain ⟨_, _, hd⟩ := bind_ok hd
  obtain ⟨_, _, hd⟩ := bind_ok hd
  obtain ⟨r, hr, hd⟩ := bind_ok hd
  obtain ⟨r', h1, _, _, h4⟩ := majority_spec (K := K) hm (List.pairwise_lt_range (n := cfg.numOutputs))
  rw [h1] at hr
  cases hr
  cases hd
  unfold majorityHead
  rw [h4]

/-- The state in which the first rule is induced. -/
theorem start_trained {majority : List Nat} (hm : majority.Pairwise (· < ·)) {S : K} {st : State K}
    (hs : cfg.start majority ⟨cfg.numOutputs, List.replicate (cfg.numExamples * cfg.numOutputs) 0, S⟩ = .ok st) :
    Trained cfg values h majority S st ∧
      st.builder = ⟨if cfg.useDefaultRule then some ⟨[], majorityHead cfg.numOutputs majority⟩ else none, [], 0⟩ := by
  have hrep : Rep cfg.numExamples cfg.numOutputs ⟨cfg.numOutputs, List.replicate (cfg.numExamples * cfg.numOutputs) 0, S⟩ (fun _ _ => 0) S :=
    (rep_initial (V := K) majority cfg.numExamples cfg.numOutputs S).congr (fun i _ j _ => by simp [net_nil])
  have hcov : (numCovering values ([] : List (Induction.Rule Boosting.Condition K))) = fun _ _ => 0 := by
    funext e j
    rfl
  unfold Config.start at hs
  cases huse : cfg.useDefaultRule with
  | false =>
    rw [huse] at hs
    cases hs
    refine ⟨⟨by rw [hcov]; exact hrep, fun r hr => (by cases hr), fun r hr => (by cases hr), rfl, fun _ => Nat.zero_le _⟩, rfl⟩
  | true =>
    rw [huse] at hs
    simp only at hs
    unfold Config.induceDefaultRule at hs
    obtain ⟨head, h1, hs⟩ := bind_ok hs
    obtain ⟨m, h2, hs⟩ := bind_ok hs
    cases hs
    have hhead := defaultHead_eq hm h1
    subst hhead
    have hmin : ∀ j < cfg.numOutputs, predictsMinority majority (majorityHead cfg.numOutputs majority : Predictor.Head K) j = false := by
      intro j hj
      unfold predictsMinority
      rw [majorityHead_value hj]
      by_cases hmj : j ∈ majority <;> simp [hmj]
    obtain ⟨m', m1, m2⟩ := execCall_ok (call := ⟨fun _ => true, majorityHead cfg.numOutputs majority, false⟩) hrep hm
      (show HeadOk _ _ by simp [HeadOk, majorityHead]) (fun i _ j hj _ hp => by
        rw [hmin j hj] at hp
        cases hp)
    rw [h2] at m1
    cases m1
    refine ⟨⟨?_, fun r hr => (by cases hr), fun r hr => (by cases hr), rfl, fun _ => Nat.zero_le _⟩, rfl⟩
    refine m2.congr (fun i _ j hj => ?_)
    rw [hcov]
    unfold afterCall
    rw [if_neg]
    rintro ⟨_, hp⟩
    rw [hmin j hj] at hp
    cases hp

/-- What is known about the result of training. -/
theorem fit_trained (hok : ConfigOk cfg label values h) {memory : List Nat} (hmem : memory.length = cfg.numOutputs) {fuel : Nat} {r : Fitted K}
    (hr : cfg.fit memory fuel = Run.done r) (hlen : r.model.rules.length < 2 ^ 32) :
    ∃ st : State K, r = ⟨st.builder.buildModel false, majorityLabels cfg.numExamples cfg.numOutputs label, st.matrix⟩ ∧
      Trained cfg values h (majorityLabels cfg.numExamples cfg.numOutputs label)
        (numCells cfg.numExamples cfg.numOutputs (fun i j => label i j ≠ isMajority cfg.numExamples label j) : K) st ∧
      st.builder.defaultRule = (if cfg.useDefaultRule then
        some ⟨[], majorityHead cfg.numOutputs (majorityLabels cfg.numExamples cfg.numOutputs label)⟩ else none) ∧
      Ends cfg (majorityLabels cfg.numExamples cfg.numOutputs label) fuel (st.builder.rules.length + (if cfg.useDefaultRule then 1 else 0)) st.matrix := by
  unfold Config.fit at hr
  rw [bind_lift_ok (createStatistics_ok hok hmem)] at hr
  simp only at hr
  obtain ⟨st, h1, h2⟩ := run_bind_done hr
  cases Run.done_inj h2
  unfold Config.induceRules at h1
  obtain ⟨st0, h3, h4⟩ := lift_bind_done h1
  obtain ⟨t1, t2⟩ := start_trained (values := values) (h := h) (majorityLabels_sorted _ _ _) h3
  have hlen' : st.builder.rules.length < 2 ^ 32 := by
    rw [IntermediateModelBuilder.buildModel_eq] at hlen
    exact hlen
  have hnum : (if cfg.useDefaultRule then 1 else 0) = st0.builder.rules.length + (if cfg.useDefaultRule then 1 else 0) := by
    rw [t2]
    simp
  rw [hnum] at h4
  obtain ⟨k1, k2⟩ := assemble_trained hok (majorityLabels_sorted _ _ _) fuel _ _ _ t1 (by rw [t2]; exact ownCriteria cfg) h4 hlen'
  refine ⟨st, rfl, k1, ?_, k2⟩
  rw [(assemble_default fuel _ _ _ _ h4).1, t2]

/-! ### The coverage matrix -/

omit [Field K] [LinearOrder K] [IsStrictOrderedRing K] in
theorem numCovering_pos {rules : List (Induction.Rule Boosting.Condition K)} {e j : Nat} :
    0 < numCovering values rules e j ↔ coveredBy values rules e j = true := by
  unfold numCovering coveredBy
  rw [List.countP_pos_iff, List.any_eq_true]

theorem isMajority_eq {n c : Nat} {j : Nat} (hj : j < c) : isMajority n label j = decide (j ∈ majorityLabels n c label) := by
  unfold majorityLabels
  simp [hj]

/-- **C83**, the rules that are learned and the coverage matrix: each rule predicts the inverse of the majority value of some labels, the coverage of
a label is the number of rules that cover the example and predict for the label, and the sum of the weights of uncovered labels is the number of
labels that differ from the majority value minus the number of labels that are covered. Training ends for one of the intended reasons. What is missing:
pruning, recalculating predictions, post-optimisation and several threads that update the coverage matrix. -/
theorem seco_coverage_partial (hok : ConfigOk cfg label values h) {memory : List Nat} (hmem : memory.length = cfg.numOutputs) {fuel : Nat}
    {r : Fitted K} (hr : cfg.fit memory fuel = Run.done r) (hlen : r.model.rules.length < 2 ^ 32) :
    (∀ j, j ∈ r.majority ↔ j < cfg.numOutputs ∧ 2 * numRelevant cfg.numExamples label j > cfg.numExamples) ∧
      (∀ rule ∈ r.model.rules, MinorityHead cfg.numOutputs r.majority rule.head) ∧
      r.matrix.cells.length = cfg.numExamples * cfg.numOutputs ∧
      (∀ e < cfg.numExamples, ∀ j < cfg.numOutputs, r.matrix.cells[e * cfg.numOutputs + j]? = some (numCovering values r.model.rules e j)) ∧
      r.matrix.sumOfUncoveredWeights = (numCells cfg.numExamples cfg.numOutputs (fun e j => label e j ≠ decide (j ∈ r.majority)) : K) -
        (numCells cfg.numExamples cfg.numOutputs (fun e j => coveredBy values r.model.rules e j = true) : K) ∧
      Ends cfg r.majority fuel (r.model.rules.length + if cfg.useDefaultRule then 1 else 0) r.matrix := by
  obtain ⟨st, rfl, ht, _, he⟩ := fit_trained hok hmem hr hlen
  rw [IntermediateModelBuilder.buildModel_eq]
  refine ⟨fun j => by simp [majorityLabels, isMajority], ht.heads, ht.rep.length, ht.rep.get, ?_, he⟩
  have hsum := ht.rep.sum
  rw [numCells_congr (q := fun e j => coveredBy values st.builder.rules e j = true) (fun e _ j _ => numCovering_pos)] at hsum
  rw [numCells_congr (p := fun e j => label e j ≠ decide (j ∈ majorityLabels cfg.numExamples cfg.numOutputs label))
    (q := fun i j => label i j ≠ isMajority cfg.numExamples label j) (fun e _ j hj => by rw [isMajority_eq hj])]
  exact eq_sub_of_add_eq hsum

/-! ### Predictions -/

/-- A rule covers the training examples that satisfy its conditions. -/
theorem rule_covers {rows : Nat → List FVal} (hrows : ∀ k, Tabular.RowsOk (cfg.rounds k).env cfg.numExamples values rows)
    {rule : Induction.Rule Boosting.Condition K} (hn : 0 < cfg.numExamples)
    (ht : ∃ k, ∀ cond ∈ rule.conditions, Tabular.Typed (cfg.rounds k).env cond) :
    ∃ body, Tabular.createBody rule.conditions = .ok body ∧
      ∀ e < cfg.numExamples, body.coversDense (rows e) = .ok (rule.conditions.all (fun c => c.holds values e)) := by
  obtain ⟨k, hk⟩ := ht
  exact Tabular.createBody_covers (hrows k) hk hn

/-- The bodies of rules. -/
def bodyOf (conds : List Boosting.Condition) : Body :=
  match Tabular.createBody conds with
  | .ok b => b
  | .error _ => .empty

/-- Whether a rule that is stored in a model covers an example. -/
def storedCovers (row : List FVal) (rule : Predictor.Rule K) : Bool :=
  match rule.body.coversDense row with
  | .ok b => b
  | .error _ => false

/-- A rule as it is stored in a model. -/
def storedRule (rule : Induction.Rule Boosting.Condition K) : Predictor.Rule K := ⟨bodyOf rule.conditions, rule.head⟩

omit [LinearOrder K] [IsStrictOrderedRing K] in
theorem predicts_iff {head : Predictor.Head K} {c : Nat} {majority : List Nat} (hh : MinorityHead c majority head) {j : Nat} {v : K} :
    DecisionList.Spec.Predicts j v head ↔ (predictedValue head j).isSome = true ∧ v = inverseMajority majority j := by
  obtain ⟨indices, rfl, _, _, _⟩ := hh
  rw [predictedValue_map]
  show (j, v) ∈ indices.map _ ↔ _
  rw [List.mem_map]
  constructor
  · rintro ⟨i, hi, heq⟩
    cases heq
    rw [if_pos hi]
    exact ⟨rfl, rfl⟩
  · rintro ⟨h1, rfl⟩
    by_cases hj : j ∈ indices
    · exact ⟨j, hj, rfl⟩
    · rw [if_neg hj] at h1
      cases h1

/-- **C83**, predictions: the model predicts for each label of a training example the minority value if one of the (used) rules covers the example
and predicts for the label. Otherwise, the default rule predicts the majority value or, if there is none, the label is irrelevant. Neither training nor
the prediction accesses invalid memory. What is missing: see `seco_coverage_partial`. -/
theorem seco_prediction_partial (hok : ConfigOk cfg label values h) {memory : List Nat} (hmem : memory.length = cfg.numOutputs) {fuel : Nat}
    {r : Fitted K} (hr : cfg.fit memory fuel = Run.done r) (hlen : r.model.rules.length + 1 < 2 ^ 32) {rows : Nat → List FVal}
    (hrows : ∀ k, Tabular.RowsOk (cfg.rounds k).env cfg.numExamples values rows) (hn : 0 < cfg.numExamples) :
    ∃ model, createModel r.model = .ok model ∧ ∀ limit, ∀ e < cfg.numExamples,
      DecisionList.predictDense cfg.numOutputs model limit (rows e) = .ok ((List.range cfg.numOutputs).map (fun j =>
        some (prediction cfg.useDefaultRule r.majority values (usedRules r.model.rules cfg.useDefaultRule limit) e j))) := by
  obtain ⟨st, rfl, ht, hdef, _⟩ := fit_trained hok hmem hr (by omega)
  rw [IntermediateModelBuilder.buildModel_eq] at hlen ⊢
  simp only at hlen ⊢
  generalize hmaj : majorityLabels cfg.numExamples cfg.numOutputs label = majority at ht hdef ⊢
  have hcreate : ∀ rule ∈ st.builder.rules, Tabular.createBody rule.conditions = .ok (bodyOf rule.conditions) := by
    intro rule hrule
    obtain ⟨b, hb, _⟩ := rule_covers hrows hn (ht.typed rule hrule)
    unfold bodyOf
    rw [hb]
  have hcovers : ∀ rule ∈ st.builder.rules, ∀ e < cfg.numExamples,
      (bodyOf rule.conditions).coversDense (rows e) = .ok (rule.conditions.all (fun c => c.holds values e)) := by
    intro rule hrule e he
    obtain ⟨b, hb, hcov⟩ := rule_covers hrows hn (ht.typed rule hrule)
    unfold bodyOf
    rw [hb]
    exact hcov e he
  have hmapM : st.builder.rules.mapM Tabular.createRule = .ok (st.builder.rules.map storedRule) := Tabular.createRules hcreate
  refine ⟨⟨false, st.builder.defaultRule.map (fun d => ⟨.empty, d.head⟩), st.builder.rules.map storedRule, st.builder.numUsedRules⟩, ?_, ?_⟩
  · unfold createModel
    simp only
    rw [hmapM, ok_bind, hdef]
    cases cfg.useDefaultRule <;> rfl
  intro limit e he
  have hmodel := IntermediateModelBuilder.usedToList_eq false
    (⟨st.builder.defaultRule.map (fun d => ⟨.empty, d.head⟩), st.builder.rules.map storedRule, st.builder.numUsedRules⟩ :
      IntermediateModelBuilder (Predictor.Rule K)) limit (by rw [List.length_map]; exact hlen) (by rw [ht.used]; exact Nat.zero_le _)
  rw [IntermediateModelBuilder.buildModel_eq] at hmodel
  have hused : RuleList.Spec.firstRules false (st.builder.defaultRule.map (fun d => (⟨.empty, d.head⟩ : Predictor.Rule K)))
      (st.builder.rules.map storedRule)
      (let used := if st.builder.numUsedRules = 0 then (⟨st.builder.defaultRule.map (fun d => ⟨.empty, d.head⟩), st.builder.rules.map storedRule,
          st.builder.numUsedRules⟩ : IntermediateModelBuilder (Predictor.Rule K)).getNumRules else st.builder.numUsedRules
       if limit = 0 then used else min used limit) = (usedRules st.builder.rules cfg.useDefaultRule limit).map storedRule ++
        (if cfg.useDefaultRule then [⟨.empty, majorityHead cfg.numOutputs majority⟩] else []) := by
    rw [ht.used]
    unfold RuleList.Spec.firstRules usedRules IntermediateModelBuilder.getNumRules
    rw [hdef]
    cases cfg.useDefaultRule with
    | false =>
      by_cases hl : limit = 0
      · simp [hl]
      · simp [hl, List.map_take]
        omega
    | true =>
      by_cases hl : limit = 0
      · simp [hl]
      · simp [hl, List.map_take]
        omega
  rw [hused] at hmodel
  have hsub : ∀ rule ∈ usedRules st.builder.rules cfg.useDefaultRule limit, rule ∈ st.builder.rules := by
    intro rule hrule
    unfold usedRules at hrule
    split at hrule
    · exact hrule
    · exact List.mem_of_mem_take hrule
  generalize usedRules st.builder.rules cfg.useDefaultRule limit = used at hmodel hsub ⊢
  have hcov : ∀ rule ∈ used.map storedRule ++ (if cfg.useDefaultRule then [⟨.empty, majorityHead cfg.numOutputs majority⟩] else []),
      rule.body.coversDense (rows e) = .ok (storedCovers (rows e) rule) := by
    intro rule hrule
    rcases List.mem_append.1 hrule with hrule | hrule
    · obtain ⟨x, hx, rfl⟩ := List.mem_map.1 hrule
      unfold storedCovers storedRule
      simp only
      rw [hcovers x (hsub x hx) e he]
    · cases huse : cfg.useDefaultRule with
      | false => rw [huse] at hrule; cases hrule
      | true =>
        rw [huse] at hrule
        rw [List.mem_singleton.1 hrule]
        rfl
  obtain ⟨p, p1, p2, p3⟩ := DecisionList.dense_first_rule cfg.numOutputs
    ⟨false, st.builder.defaultRule.map (fun d => (⟨.empty, d.head⟩ : Predictor.Rule K)), st.builder.rules.map storedRule, st.builder.numUsedRules⟩
    limit (rows e) _ hmodel _ hcov (by
      intro rule hrule
      rcases List.mem_append.1 hrule with hrule | hrule
      · obtain ⟨x, hx, rfl⟩ := List.mem_map.1 hrule
        obtain ⟨indices, hi, _, _, hi2⟩ := ht.heads x (hsub x hx)
        show Predictor.Spec.HeadFits _ x.head
        rw [hi]
        intro y hy
        obtain ⟨j, hj, rfl⟩ := List.mem_map.1 hy
        exact hi2 j hj
      · cases huse : cfg.useDefaultRule with
        | false => rw [huse] at hrule; cases hrule
        | true =>
          rw [huse] at hrule
          rw [List.mem_singleton.1 hrule]
          simp [majorityHead, Predictor.Spec.HeadFits])
  rw [p1]
  refine congrArg Except.ok (List.ext_getElem? (fun j => ?_))
  by_cases hj : j < cfg.numOutputs
  swap
  · rw [List.getElem?_eq_none (by omega), List.getElem?_eq_none (by simp; omega)]
  rw [List.getElem?_map, List.getElem?_range hj, Option.map_some]
  unfold prediction
  have hcovered : ∀ x ∈ used, storedCovers (rows e) (storedRule x) =
      x.conditions.all (fun c => c.holds values e) := by
    intro x hx
    unfold storedCovers storedRule
    simp only
    rw [hcovers x (hsub x hx) e he]
  rcases p3 j hj with ⟨b, ⟨pre, x, post, v, d1, d2, d3, d4, d5⟩, hpj⟩ | ⟨hun, hpj⟩
  · rw [hpj]
    congr 2
    have hx : x ∈ used.map storedRule ++ (if cfg.useDefaultRule then [⟨.empty, majorityHead cfg.numOutputs majority⟩] else []) := by
      rw [d1]
      simp
    by_cases hcb : coveredBy values used e j = true
    · rw [if_pos hcb]
      -- the rule that decides is a learned one
      have hxu : ∃ y ∈ used, x = storedRule y := by
        rcases List.mem_append.1 hx with hx' | hx'
        · obtain ⟨y, hy, rfl⟩ := List.mem_map.1 hx'
          exact ⟨y, hy, rfl⟩
        · exfalso
          have hx'' : cfg.useDefaultRule = true ∧ x = ⟨.empty, majorityHead cfg.numOutputs majority⟩ := by
            cases huse : cfg.useDefaultRule with
            | false => rw [huse] at hx'; cases hx'
            | true => rw [huse] at hx'; exact ⟨rfl, List.mem_singleton.1 hx'⟩
          obtain ⟨huse, rfl⟩ := hx''
          rw [huse, if_pos rfl] at d1
          obtain ⟨y, hy, hyc⟩ := List.any_eq_true.1 hcb
          rw [Bool.and_eq_true] at hyc
          have hypre : storedRule y ∈ pre := by
            have hlast : post = [] ∨ (⟨.empty, majorityHead cfg.numOutputs majority⟩ : Predictor.Rule K) ∈ used.map storedRule := by
              rcases List.eq_nil_or_concat post with rfl | ⟨q, z, rfl⟩
              · exact Or.inl rfl
              · right
                have : used.map storedRule ++ [(⟨.empty, majorityHead cfg.numOutputs majority⟩ : Predictor.Rule K)] =
                    (pre ++ (⟨.empty, majorityHead cfg.numOutputs majority⟩ : Predictor.Rule K) :: q) ++ [z] := by
                  rw [d1]
                  simp
                rw [(List.append_inj' this rfl).1]
                simp
            rcases hlast with rfl | hmem'
            · rw [← (List.append_inj' d1 rfl).1]
              exact List.mem_map_of_mem hy
            · obtain ⟨w, hw, hweq⟩ := List.mem_map.1 hmem'
              obtain ⟨indices, hi, _⟩ := ht.heads w (hsub w hw)
              have := congrArg Predictor.Rule.head hweq
              simp only [storedRule] at this
              rw [hi] at this
              cases this
          exact d5 _ hypre (by rw [hcovered y hy]; exact hyc.1) _
            ((predicts_iff (ht.heads y (hsub y hy))).2 ⟨hyc.2, rfl⟩)
      obtain ⟨y, hy, rfl⟩ := hxu
      obtain ⟨_, rfl⟩ := (predicts_iff (ht.heads y (hsub y hy))).1 d3
      unfold inverseMajority at d4
      by_cases hmj : j ∈ majority
      · rw [if_pos hmj] at d4
        cases b with
        | false => simp [hmj]
        | true => exact absurd (d4.1 rfl) (lt_irrefl _)
      · rw [if_neg hmj] at d4
        rw [d4.2 zero_lt_one]
        simp [hmj]
    · rw [if_neg hcb]
      rcases List.mem_append.1 hx with hx' | hx'
      · exfalso
        obtain ⟨y, hy, rfl⟩ := List.mem_map.1 hx'
        rw [hcovered y hy] at d2
        exact hcb (List.any_eq_true.2 ⟨y, hy, by rw [d2, ((predicts_iff (ht.heads y (hsub y hy))).1 d3).1]; rfl⟩)
      · cases huse : cfg.useDefaultRule with
        | false => rw [huse] at hx'; cases hx'
        | true =>
          rw [huse] at hx'
          rw [List.mem_singleton.1 hx'] at d3
          have d3 : ((List.range cfg.numOutputs).map (fun j => if j ∈ majority then (1 : K) else 0))[j]? = some v := d3
          rw [List.getElem?_map, List.getElem?_range hj, Option.map_some] at d3
          cases d3
          by_cases hmj : j ∈ majority
          · rw [if_pos hmj] at d4
            rw [d4.2 zero_lt_one]
            simp [hmj]
          · rw [if_neg hmj] at d4
            cases b with
            | false => simp [hmj]
            | true => exact absurd (d4.1 rfl) (lt_irrefl _)
  · rw [hpj]
    have hcb : coveredBy values used e j = false := by
      by_contra hne
      obtain ⟨y, hy, hyc⟩ := List.any_eq_true.1 (Bool.eq_true_of_not_eq_false hne)
      rw [Bool.and_eq_true] at hyc
      exact hun (storedRule y) (List.mem_append_left _ (List.mem_map_of_mem hy)) (by rw [hcovered y hy]; exact hyc.1) _
        ((predicts_iff (ht.heads y (hsub y hy))).2 ⟨hyc.2, rfl⟩)
    rw [hcb]
    cases huse : cfg.useDefaultRule with
    | false =>
      rw [hdef, huse]
      rfl
    | true =>
      exfalso
      rw [huse] at hun
      refine hun ⟨.empty, majorityHead cfg.numOutputs majority⟩ (by simp) rfl (if j ∈ majority then 1 else 0) ?_
      show ((List.range cfg.numOutputs).map (fun j => if j ∈ majority then (1 : K) else 0))[j]? = _
      rw [List.getElem?_map, List.getElem?_range hj]
      rfl

/-! ### Errors -/

/-- **C83**, errors on the training data: if the default rule predicts the majority values (or all of them are irrelevant), the sum of the weights of
uncovered labels and twice the number of labels that are covered wrongly add up to the number of wrong predictions. What is missing: see
`seco_coverage_partial`. -/
theorem seco_errors_partial (hok : ConfigOk cfg label values h) {memory : List Nat} (hmem : memory.length = cfg.numOutputs) {fuel : Nat}
    {r : Fitted K} (hr : cfg.fit memory fuel = Run.done r) (hlen : r.model.rules.length < 2 ^ 32) (hd : cfg.useDefaultRule = true ∨ r.majority = []) :
    (numCells cfg.numExamples cfg.numOutputs (fun e j => prediction cfg.useDefaultRule r.majority values r.model.rules e j ≠ label e j) : K) =
      r.matrix.sumOfUncoveredWeights + 2 * (numCells cfg.numExamples cfg.numOutputs
        (fun e j => coveredBy values r.model.rules e j = true ∧ label e j = decide (j ∈ r.majority)) : K) := by
  obtain ⟨_, _, _, _, hsum, _⟩ := seco_coverage_partial hok hmem hr hlen
  rw [hsum]
  have hA := numCells_split cfg.numExamples cfg.numOutputs (fun e j => label e j ≠ decide (j ∈ r.majority))
    (fun e j => coveredBy values r.model.rules e j = true)
  have hC := numCells_split cfg.numExamples cfg.numOutputs (fun e j => coveredBy values r.model.rules e j = true)
    (fun e j => label e j = decide (j ∈ r.majority))
  have hW := numCells_split cfg.numExamples cfg.numOutputs
    (fun e j => prediction cfg.useDefaultRule r.majority values r.model.rules e j ≠ label e j)
    (fun e j => coveredBy values r.model.rules e j = true)
  have hunc : ∀ j, (cfg.useDefaultRule && decide (j ∈ r.majority)) = decide (j ∈ r.majority) := by
    intro j
    rcases hd with hd | hd
    · rw [hd]; rfl
    · rw [hd]; simp
  have e1 := numCells_congr (n := cfg.numExamples) (c := cfg.numOutputs)
    (p := fun e j => prediction cfg.useDefaultRule r.majority values r.model.rules e j ≠ label e j ∧ coveredBy values r.model.rules e j = true)
    (q := fun e j => coveredBy values r.model.rules e j = true ∧ label e j = decide (j ∈ r.majority)) (fun e _ j _ => by
      unfold prediction
      rw [hunc]
      cases coveredBy values r.model.rules e j <;> cases label e j <;> cases decide (j ∈ r.majority) <;> simp)
  have e2 := numCells_congr (n := cfg.numExamples) (c := cfg.numOutputs)
    (p := fun e j => prediction cfg.useDefaultRule r.majority values r.model.rules e j ≠ label e j ∧ ¬coveredBy values r.model.rules e j = true)
    (q := fun e j => label e j ≠ decide (j ∈ r.majority) ∧ ¬coveredBy values r.model.rules e j = true) (fun e _ j _ => by
      unfold prediction
      rw [hunc]
      cases coveredBy values r.model.rules e j <;> cases label e j <;> cases decide (j ∈ r.majority) <;> simp)
  have e3 := numCells_congr (n := cfg.numExamples) (c := cfg.numOutputs)
    (p := fun e j => label e j ≠ decide (j ∈ r.majority) ∧ coveredBy values r.model.rules e j = true)
    (q := fun e j => coveredBy values r.model.rules e j = true ∧ ¬label e j = decide (j ∈ r.majority)) (fun e _ j _ => And.comm)
  rw [e1, e2] at hW
  rw [e3] at hA
  rw [hA, hC, hW]
  push_cast
  ring

/-! ### Termination -/

/-- The default rule can be induced if there are at least as many labels as examples. -/
theorem start_ok (hok : ConfigOk cfg label values h) {majority : List Nat} (hm : majority.Pairwise (· < ·)) (S : K)
    (hd : cfg.useDefaultRule = true → cfg.numExamples ≤ cfg.numOutputs) :
    ∃ st, cfg.start majority ⟨cfg.numOutputs, List.replicate (cfg.numExamples * cfg.numOutputs) 0, S⟩ = .ok st := by
  unfold Config.start
  cases huse : cfg.useDefaultRule with
  | false => exact ⟨_, rfl⟩
  | true =>
    have hle := hd huse
    have hrep : Rep cfg.numExamples cfg.numOutputs ⟨cfg.numOutputs, List.replicate (cfg.numExamples * cfg.numOutputs) 0, S⟩ (fun _ _ => 0) S :=
      (rep_initial (V := K) majority cfg.numExamples cfg.numOutputs S).congr (fun i _ j _ => by simp [net_nil])
    have hcov : IsCoverage cfg.numExamples cfg.numOutputs (fun _ _ => 0) (List.replicate (cfg.numExamples * cfg.numOutputs) 0) :=
      ⟨hrep.length, hrep.get⟩
    have hw : WeightsOk cfg.numExamples (.equal cfg.numExamples : Weights K) := rfl
    have hvalid := seCoData_valid hok.labels hcov hw
    obtain ⟨v1, g1, _⟩ := totalSum_spec (confusionLaws (K := K) hm cfg.numExamples)
      (d := { seCoData cfg.labels cfg.numExamples cfg.numOutputs (List.replicate (cfg.numExamples * cfg.numOutputs) 0)
        (.equal cfg.numExamples : Weights K) with numCols := cfg.numExamples }) (by
        refine ⟨hvalid.1, hvalid.2, fun r hr => ?_⟩
        obtain ⟨r1, r2, r3⟩ := hvalid.3 r hr
        exact ⟨by omega, fun array offset e => by have := r2 array offset e; omega, r3⟩) rfl
    obtain ⟨v2, g2, _⟩ := subsetSum_partial hok.labels hcov hw hm (idx := .complete cfg.numOutputs)
      ⟨rfl, trivial⟩ (List.range cfg.numExamples) (fun e he => List.mem_range.1 he)
    obtain ⟨v3, g3, _, _, g4⟩ := majority_spec (K := K) hm (List.pairwise_lt_range (n := cfg.numOutputs))
    have hmin : ∀ j < cfg.numOutputs, predictsMinority majority (majorityHead cfg.numOutputs majority : Predictor.Head K) j = false := by
      intro j hj
      unfold predictsMinority
      rw [majorityHead_value hj]
      by_cases hmj : j ∈ majority <;> simp [hmj]
    obtain ⟨m', m1, _⟩ := execCall_ok (call := ⟨fun _ => true, majorityHead cfg.numOutputs majority, false⟩) hrep hm
      (show HeadOk _ _ by simp [HeadOk, majorityHead]) (fun i _ j hj _ hp => by
        rw [hmin j hj] at hp
        cases hp)
    have hhead : cfg.defaultHead majority ⟨cfg.numOutputs, List.replicate (cfg.numExamples * cfg.numOutputs) 0, S⟩ =
        .ok (majorityHead cfg.numOutputs majority) := by
      unfold Config.defaultHead subsetTotal
      rw [g1, ok_bind, g2, ok_bind, g3, ok_bind]
      unfold majorityHead
      rw [g4]
      rfl
    refine ⟨⟨m', ⟨some ⟨[], majorityHead cfg.numOutputs majority⟩, [], 0⟩⟩, ?_⟩
    simp only
    unfold Config.induceDefaultRule
    rw [hhead, ok_bind, m1, ok_bind]
    rfl

/-- **C83**, termination: if the number of rules is limited or if the heuristic assigns the quality zero to rules that do not cover any uncovered label
correctly, training terminates without accessing invalid memory. In the latter case, there are at most as many rules as labels of training examples. If
there is a default rule, there must be at least as many labels as examples. What is missing: see `seco_coverage_partial`. -/
theorem seco_terminates_partial (hok : ConfigOk cfg label values h) {memory : List Nat} (hmem : memory.length = cfg.numOutputs)
    (hd : cfg.useDefaultRule = true → cfg.numExamples ≤ cfg.numOutputs)
    (hb : (Progressive h ∧ cfg.numExamples * cfg.numOutputs + 1 < 2 ^ 32) ∨ ∃ N, cfg.maxRules = some N ∧ N < 2 ^ 32) :
    ∃ bound r, (∀ fuel, bound ≤ fuel → cfg.fit memory fuel = Run.done r) ∧ r.model.rules.length < 2 ^ 32 ∧
      (∀ N, cfg.maxRules = some N → N < 2 ^ 32 → r.model.rules.length ≤ N - if cfg.useDefaultRule then 1 else 0) ∧
      (Progressive h → cfg.numExamples * cfg.numOutputs + 1 < 2 ^ 32 → r.model.rules.length ≤ cfg.numExamples * cfg.numOutputs) := by
  obtain ⟨st0, h0⟩ := start_ok (label := label) (values := values) (h := h) hok (majorityLabels_sorted cfg.numExamples cfg.numOutputs label)
    ((numCells cfg.numExamples cfg.numOutputs (fun i j => label i j ≠ isMajority cfg.numExamples label j) : K)) hd
  obtain ⟨t1, t2⟩ := start_trained (values := values) (h := h) (majorityLabels_sorted _ _ _) h0
  have hlen0 : st0.builder.rules.length = 0 := by rw [t2]; rfl
  have key : ∀ d, Bounded cfg h d cfg.criteria (if cfg.useDefaultRule then 1 else 0) st0 →
      ∃ bound r, (∀ fuel, bound ≤ fuel → cfg.fit memory fuel = Run.done r) ∧ r.model.rules.length ≤ d := by
    intro d hbound
    obtain ⟨bound, st', h1⟩ := assemble_terminates hok (majorityLabels_sorted _ _ _) d cfg.criteria _ st0 ⟨0, ownCriteria cfg⟩ t1 hbound
    refine ⟨bound, ⟨st'.builder.buildModel false, majorityLabels cfg.numExamples cfg.numOutputs label, st'.matrix⟩, fun fuel hf => ?_, ?_⟩
    · unfold Config.fit
      rw [bind_lift_ok (createStatistics_ok hok hmem)]
      simp only
      unfold Config.induceRules
      rw [bind_lift_ok h0, (h1 fuel fuel hf hf).1]
      rfl
    · rw [IntermediateModelBuilder.buildModel_eq]
      have := (h1 bound bound (Nat.le_refl _) (Nat.le_refl _)).2
      rw [hlen0] at this
      simpa using this
  have hsize : ∀ N, cfg.maxRules = some N → N < 2 ^ 32 → ∃ bound r, (∀ fuel, bound ≤ fuel → cfg.fit memory fuel = Run.done r) ∧
      r.model.rules.length ≤ N - (if cfg.useDefaultRule then 1 else 0) := by
    intro N hN hlt
    refine key _ (Or.inr ⟨N, ?_⟩)
    unfold Config.criteria
    rw [hN]
    refine ⟨_, rfl, ?_, ?_⟩
    · split <;> omega
    · rw [hlen0]
      split <;> omega
  have hprog : Progressive h → cfg.numExamples * cfg.numOutputs + 1 < 2 ^ 32 → ∃ bound r, (∀ fuel, bound ≤ fuel → cfg.fit memory fuel = Run.done r) ∧
      r.model.rules.length ≤ cfg.numExamples * cfg.numOutputs + 1 :=
    fun hp hlt => key _ (Or.inl ⟨hp, hlt, by omega⟩)
  have hunique : ∀ {b1 b2 : Nat} {r1 r2 : Fitted K}, (∀ fuel, b1 ≤ fuel → cfg.fit memory fuel = Run.done r1) →
      (∀ fuel, b2 ≤ fuel → cfg.fit memory fuel = Run.done r2) → r1 = r2 := by
    intro b1 b2 r1 r2 g1 g2
    have e1 := g1 (max b1 b2) (le_max_left _ _)
    rw [g2 (max b1 b2) (le_max_right _ _)] at e1
    exact (Run.done_inj e1).symm
  have hsome : ∃ bound r, (∀ fuel, bound ≤ fuel → cfg.fit memory fuel = Run.done r) ∧ r.model.rules.length < 2 ^ 32 := by
    rcases hb with ⟨hp, hlt⟩ | ⟨N, hN, hlt⟩
    · obtain ⟨bound, r, g1, g2⟩ := hprog hp hlt
      exact ⟨bound, r, g1, by omega⟩
    · obtain ⟨bound, r, g1, g2⟩ := hsize N hN hlt
      exact ⟨bound, r, g1, by omega⟩
  obtain ⟨bound, r, g1, g2⟩ := hsome
  refine ⟨bound, r, g1, g2, fun N hN hlt => ?_, fun hp hlt => ?_⟩
  · obtain ⟨_, r', g3, g4⟩ := hsize N hN hlt
    rw [hunique g1 g3]
    exact g4
  · obtain ⟨st, rfl, ht, _, _⟩ := fit_trained hok hmem (g1 bound (Nat.le_refl _)) g2
    rw [IntermediateModelBuilder.buildModel_eq]
    exact Nat.le_trans (ht.progress hp) (numCells_le _ _ _)

/-- **C83**, negation: if a default rule is used and there are more examples than labels, training accesses invalid memory. -/
theorem seco_default_fault (hok : ConfigOk cfg label values h) {memory : List Nat} (hmem : memory.length = cfg.numOutputs)
    (hd : cfg.useDefaultRule = true) (hlt : cfg.numOutputs < cfg.numExamples) (fuel : Nat) (r : Fitted K) : cfg.fit memory fuel ≠ Run.done r := by
  intro hr
  unfold Config.fit at hr
  rw [bind_lift_ok (createStatistics_ok hok hmem)] at hr
  simp only at hr
  obtain ⟨st, h1, _⟩ := run_bind_done hr
  unfold Config.induceRules at h1
  obtain ⟨st0, h2, _⟩ := lift_bind_done h1
  unfold Config.start at h2
  rw [hd] at h2
  obtain ⟨head, h3, _⟩ := bind_ok h2
  unfold Config.defaultHead at h3
  obtain ⟨v, h4, _⟩ := bind_ok h3
  exact subsetTotal_fault hlt _ _ (by simp) (show WeightsOk cfg.numExamples (.equal cfg.numExamples : Weights K) from rfl) v h4

/-! ### The rules that are learned -/

/-- Each rule is grown with respect to the labels that are not covered by its predecessors. -/
theorem assemble_grown (hok : ConfigOk cfg label values h) {majority : List Nat} (hm : majority.Pairwise (· < ·)) {S : K} {growFuel : Nat} :
    ∀ (fuel : Nat) (criteria : List (Criterion (CriterionState K) (CoverageMatrix K))) (st st' : State K),
      Trained cfg values h majority S st →
      cfg.assemble majority growFuel fuel criteria (st.builder.rules.length + (if cfg.useDefaultRule then 1 else 0)) st = Run.done st' →
      st'.builder.rules.length < 2 ^ 32 → st.builder.rules <+: st'.builder.rules ∧
        ∀ i, st.builder.rules.length ≤ i → i < st'.builder.rules.length → ∃ (m : CoverageMatrix K) (g : _) (head : _),
          IsCoverage cfg.numExamples cfg.numOutputs (numCovering values (st'.builder.rules.take i)) m.cells ∧
          cfg.growNext majority (i + if cfg.useDefaultRule then 1 else 0) growFuel m = Run.done g ∧ g.head = some head ∧
          st'.builder.rules[i]? = some ⟨g.conditions, head⟩
  | 0, criteria, st, st', ht, hr, hlen => by
    rw [Config.assemble] at hr
    exact absurd hr.symm Run.done_ne_unfinished
  | fuel + 1, criteria, st, st', ht, hr, hlen => by
    obtain ⟨result, criteria', h1, h2⟩ := assemble_cases hr
    rcases h2 with ⟨hs, rfl⟩ | ⟨_, gr, hg, ⟨hn, rfl⟩ | ⟨head, m, hhead, hcall, h3⟩⟩
    · exact ⟨List.prefix_rfl, fun i h1 h2 => by omega⟩
    · exact ⟨List.prefix_rfl, fun i h1 h2 => by omega⟩
    · obtain ⟨_, k2⟩ := assemble_default fuel _ _ _ _ h3
      have hlen' : st.builder.rules.length + 1 < 2 ^ 32 := by
        unfold State.addRule at k2
        simp at k2
        omega
      obtain ⟨_, gr', _, huniq, hadd⟩ := ht.induce hok hm (st.builder.rules.length + (if cfg.useDefaultRule then 1 else 0))
      cases huniq _ _ hg
      obtain ⟨m', m1, m2⟩ := hadd head hhead hlen'
      rw [hcall] at m1
      cases m1
      have hnum : st.builder.rules.length + (if cfg.useDefaultRule then 1 else 0) + 1 =
          (st.addRule m ⟨gr.conditions, head⟩).builder.rules.length + (if cfg.useDefaultRule then 1 else 0) := by
        unfold State.addRule
        simp
        omega
      rw [hnum] at h3
      obtain ⟨p1, p2⟩ := assemble_grown hok hm fuel _ _ _ m2 h3 hlen
      have hrules : (st.addRule m ⟨gr.conditions, head⟩).builder.rules = st.builder.rules ++ [⟨gr.conditions, head⟩] := rfl
      rw [hrules] at p1 p2
      obtain ⟨post, hpost⟩ := p1
      refine ⟨⟨[⟨gr.conditions, head⟩] ++ post, by rw [← hpost, List.append_assoc]⟩, fun i hi1 hi2 => ?_⟩
      rcases Nat.lt_or_ge st.builder.rules.length i with hlt | hge
      · exact p2 i (by rw [List.length_append]; simpa using hlt) hi2
      · have hi : i = st.builder.rules.length := by omega
        subst hi
        refine ⟨st.matrix, gr, head, ?_, hg, hhead, ?_⟩
        · rw [← hpost, List.append_assoc, List.take_left]
          exact ht.isCoverage
        · rw [← hpost, List.append_assoc, List.getElem?_append_right (Nat.le_refl _), Nat.sub_self]
          rfl

/-- **C83**, the rules that are learned: the `i`-th rule is the result of growing a rule for any coverage matrix, according to which the same labels
as those that are covered by the preceding rules are covered. What is missing: see `seco_coverage_partial`. -/
theorem seco_rules_partial (hok : ConfigOk cfg label values h) {memory : List Nat} (hmem : memory.length = cfg.numOutputs) {fuel : Nat}
    {r : Fitted K} (hr : cfg.fit memory fuel = Run.done r) (hlen : r.model.rules.length < 2 ^ 32) {i : Nat} (hi : i < r.model.rules.length)
    {m : CoverageMatrix K} {cov : Nat → Nat → Nat} (hc : IsCoverage cfg.numExamples cfg.numOutputs cov m.cells)
    (hcov : ∀ e < cfg.numExamples, ∀ j < cfg.numOutputs, cov e j = 0 ↔ coveredBy values (r.model.rules.take i) e j = false) :
    ∃ g head, cfg.growNext r.majority (i + if cfg.useDefaultRule then 1 else 0) fuel m = Run.done g ∧ g.head = some head ∧
      r.model.rules[i]? = some ⟨g.conditions, head⟩ := by
  unfold Config.fit at hr
  rw [bind_lift_ok (createStatistics_ok hok hmem)] at hr
  simp only at hr
  obtain ⟨st, h1, h2⟩ := run_bind_done hr
  cases Run.done_inj h2
  rw [IntermediateModelBuilder.buildModel_eq] at hlen hi hcov ⊢
  simp only at hlen hi hcov ⊢
  unfold Config.induceRules at h1
  obtain ⟨st0, h3, h4⟩ := lift_bind_done h1
  obtain ⟨t1, t2⟩ := start_trained (values := values) (h := h) (majorityLabels_sorted _ _ _) h3
  have hnum : (if cfg.useDefaultRule then 1 else 0) = st0.builder.rules.length + (if cfg.useDefaultRule then 1 else 0) := by
    rw [t2]
    simp
  rw [hnum] at h4
  obtain ⟨_, k2⟩ := assemble_grown hok (majorityLabels_sorted _ _ _) fuel _ _ _ t1 h4 hlen
  obtain ⟨m', g, head, k3, k4, k5, k6⟩ := k2 i (by rw [t2]; exact Nat.zero_le _) hi
  refine ⟨g, head, ?_, k5, k6⟩
  rw [← k4]
  refine growNext_congr hok (majorityLabels_sorted _ _ _) hc k3 (fun e he j hj => ?_) _ _
  rw [hcov e he j hj, ← Bool.not_eq_true, ← numCovering_pos]
  omega

/-- **C83**, rules that do not make progress: if nothing is sampled and a rule does not cover anything that has not been covered by its predecessors,
all rules that follow are copies of it. What is missing: see `seco_coverage_partial`. -/
theorem seco_repeats_partial (hok : ConfigOk cfg label values h) {memory : List Nat} (hmem : memory.length = cfg.numOutputs) {fuel : Nat}
    {r : Fitted K} (hr : cfg.fit memory fuel = Run.done r) (hlen : r.model.rules.length < 2 ^ 32) (hrounds : ∀ k, cfg.rounds k = cfg.rounds 0)
    {i : Nat} {rule : Induction.Rule Boosting.Condition K} (hrule : r.model.rules[i]? = some rule)
    (hno : ∀ e < cfg.numExamples, ∀ j < cfg.numOutputs, coveredBy values [rule] e j = true → coveredBy values (r.model.rules.take i) e j = true) :
    ∀ d, i + d < r.model.rules.length → r.model.rules[i + d]? = some rule ∧ ∀ e < cfg.numExamples, ∀ j < cfg.numOutputs,
      coveredBy values (r.model.rules.take (i + d)) e j = coveredBy values (r.model.rules.take i) e j := by
  have hcovapp : ∀ (l l' : List (Induction.Rule Boosting.Condition K)) e j,
      coveredBy values (l ++ l') e j = (coveredBy values l e j || coveredBy values l' e j) := by
    intro l l' e j
    unfold coveredBy
    rw [List.any_append]
  have hgrow : ∀ k m f, cfg.growNext r.majority k f m = cfg.growNext r.majority 0 f m := by
    intro k m f
    unfold Config.growNext
    rw [hrounds k]
  intro d
  induction d with
  | zero => exact fun _ => ⟨hrule, fun _ _ _ _ => rfl⟩
  | succ d ih =>
    intro hd
    obtain ⟨ih1, ih2⟩ := ih (by omega)
    have hcov : ∀ e < cfg.numExamples, ∀ j < cfg.numOutputs,
        coveredBy values (r.model.rules.take (i + (d + 1))) e j = coveredBy values (r.model.rules.take i) e j := by
      intro e he j hj
      rw [show i + (d + 1) = i + d + 1 from rfl, List.take_succ, ih1, hcovapp, ih2 e he j hj]
      have := hno e he j hj
      show (coveredBy values (r.model.rules.take i) e j || coveredBy values [rule] e j) = _
      cases h1 : coveredBy values (r.model.rules.take i) e j with
      | true => rfl
      | false =>
        cases h2 : coveredBy values [rule] e j with
        | false => rfl
        | true =>
          rw [h1] at this
          exact absurd (this h2) (by simp)
    refine ⟨?_, hcov⟩
    -- a coverage matrix according to which the same labels are covered
    obtain ⟨cells, hcells⟩ : ∃ cells : List Nat, IsCoverage cfg.numExamples cfg.numOutputs
        (fun e j => if coveredBy values (r.model.rules.take i) e j then 1 else 0) cells := by
      refine ⟨(List.range (cfg.numExamples * cfg.numOutputs)).map
        (fun x => if coveredBy values (r.model.rules.take i) (x / cfg.numOutputs) (x % cfg.numOutputs) then 1 else 0), by simp, fun e he j hj => ?_⟩
      have hlt : e * cfg.numOutputs + j < cfg.numExamples * cfg.numOutputs := by
        have := row_le (c := cfg.numOutputs) he
        omega
      rw [List.getElem?_map, List.getElem?_range hlt, Option.map_some]
      have h1 : (e * cfg.numOutputs + j) / cfg.numOutputs = e := by
        rw [Nat.mul_comm, Nat.mul_add_div (by omega), Nat.div_eq_of_lt hj, Nat.add_zero]
      have h2 : (e * cfg.numOutputs + j) % cfg.numOutputs = j := by
        rw [Nat.mul_comm, Nat.mul_add_mod, Nat.mod_eq_of_lt hj]
      rw [h1, h2]
    have hzero : ∀ e j, (if coveredBy values (r.model.rules.take i) e j then 1 else 0) = 0 ↔ coveredBy values (r.model.rules.take i) e j = false := by
      intro e j
      cases coveredBy values (r.model.rules.take i) e j <;> simp
    obtain ⟨g, head, g1, g2, g3⟩ := seco_rules_partial hok hmem hr hlen (i := i) (by omega) (m := ⟨0, cells, 0⟩) hcells
      (fun e _ j _ => hzero e j)
    obtain ⟨g', head', g1', g2', g3'⟩ := seco_rules_partial hok hmem hr hlen hd (m := ⟨0, cells, 0⟩) hcells
      (fun e he j hj => by rw [hcov e he j hj]; exact hzero e j)
    rw [hgrow] at g1 g1'
    rw [g1] at g1'
    cases Run.done_inj g1'
    rw [g2] at g2'
    cases g2'
    rw [g3'.trans g3.symm, hrule]

end

/-! ### Examples -/

/-- A separate-and-conquer algorithm that is applied to the examples in `Tabular.exTable`. -/
def exSeco (h : Heuristic ℚ) (c : Nat) (labels : List Bool) (features : List Nat) (useDefaultRule : Bool) (maxRules : Option Nat) : Config ℚ where
  numExamples := 4
  numOutputs := c
  labels := .dense labels
  grow := ⟨1, 2, 0⟩
  evaluation := singleEvaluation h
  useDefaultRule := useDefaultRule
  rounds _ := ⟨Tabular.exEnv, .equal 4, fun _ => features, none, fun _ => Induction.sequentially⟩
  maxRules := maxRules
  timeLimit := none
  threshold := some 0
  clock n := n

theorem exSeco_ok (h : Heuristic ℚ) {c : Nat} {labels : List Bool} (features : List Nat) (useDefaultRule : Bool) (maxRules : Option Nat)
    (hc : 0 < c) (hlen : labels.length = 4 * c) :
    ConfigOk (exSeco h c labels features useDefaultRule maxRules) (fun i j => (labels[i * c + j]?).getD false) Tabular.exTableValues h where
  labels := .dense labels hlen (fun i (hi : i < 4) j (hj : j < c) => by
    show labels[i * c + j]? = _
    have : i * c + j < labels.length := by
      rw [hlen]
      have := row_le (c := c) hi
      have : i * c + c ≤ 4 * c := this
      omega
    rw [List.getElem?_eq_getElem this]
    rfl)
  outputs := hc
  evaluation := .single h
  rounds k :=
    { table := Tabular.exEnv_ok
      weights := rfl
      nonneg := fun e _ => zero_le_one
      nonZero := fun e he => by
        show Tabular.exEnv.nonZero e = decide (weightAt (.equal 4 : Weights ℚ) e ≠ 0)
        match e, he with
        | 0, _ => decide +kernel
        | 1, _ => decide +kernel
        | 2, _ => decide +kernel
        | 3, _ => decide +kernel
      sampled := fun l hl => by cases hl
      schedule := fun k candidates => Induction.sequentially_interleaving candidates }

/-- Two of four examples are relevant, but only one of them satisfies a condition that distinguishes it from the irrelevant ones. -/
abbrev exRepeated (N : Nat) : Config ℚ := exSeco .laplace 1 [true, true, false, false] [2] false (some N)

/-- What is grown for a coverage matrix: the conditions and the elements of the head. -/
def exGrown (cells : List Nat) : Option (List Boosting.Condition × List (Nat × ℚ)) :=
  match ((exRepeated 0).growNext [] 0 4 ⟨1, cells, 0⟩).run with
  | some (.ok ⟨conditions, _, some (.partial_ entries)⟩) => some (conditions, entries)
  | _ => none

/-- The rule that is learned again and again. -/
def exRepeatedRule : Induction.Rule Boosting.Condition ℚ := ⟨[⟨2, .nominalEq, 1, ⟨0, 1, false⟩, 1⟩], .partial_ [(0, 1)]⟩

theorem exGrown_eq {cells : List Nat} (hg : exGrown cells = some ([⟨2, .nominalEq, 1, ⟨0, 1, false⟩, 1⟩], [(0, 1)])) (N k : Nat) {fuel : Nat}
    {g : Grown (FeatureSpace.Subspace Unit) Boosting.Condition (Predictor.Head ℚ)}
    (hr : (exRepeated N).growNext [] k fuel ⟨1, cells, 0⟩ = Run.done g) :
    g.conditions = exRepeatedRule.conditions ∧ g.head = some exRepeatedRule.head := by
  have hsame : ∀ f, (exRepeated N).growNext [] k f ⟨1, cells, 0⟩ = (exRepeated 0).growNext [] 0 f ⟨1, cells, 0⟩ := fun _ => rfl
  have hmono : ∀ {f f' : Nat} {g : Grown (FeatureSpace.Subspace Unit) Boosting.Condition (Predictor.Head ℚ)}, f ≤ f' →
      (exRepeated 0).growNext [] 0 f ⟨1, cells, 0⟩ = Run.done g → (exRepeated 0).growNext [] 0 f' ⟨1, cells, 0⟩ = Run.done g := by
    intro f f' g hle h1
    unfold Config.growNext at h1 ⊢
    obtain ⟨t, h2, h3⟩ := lift_bind_done h1
    rw [bind_lift_ok h2]
    exact Training.growRule_mono hle h3
  rw [hsame] at hr
  unfold exGrown at hg
  split at hg
  · rename_i conditions sub entries heq
    cases hg
    have h4 : (exRepeated 0).growNext [] 0 4 ⟨1, cells, 0⟩ = Run.done _ := heq
    rcases Nat.le_total fuel 4 with hle | hle
    · cases Run.done_inj ((hmono hle hr).symm.trans h4)
      exact ⟨rfl, rfl⟩
    · cases Run.done_inj (hr.symm.trans (hmono hle h4))
      exact ⟨rfl, rfl⟩
  · cases hg

theorem exGrown_zero : exGrown [0, 0, 0, 0] = some ([⟨2, .nominalEq, 1, ⟨0, 1, false⟩, 1⟩], [(0, 1)]) := by decide +kernel

theorem exGrown_one : exGrown [1, 0, 0, 0] = some ([⟨2, .nominalEq, 1, ⟨0, 1, false⟩, 1⟩], [(0, 1)]) := by decide +kernel

theorem exRepeated_covered (k e j : Nat) : coveredBy Tabular.exTableValues (List.replicate (k + 1) exRepeatedRule) e j =
    coveredBy Tabular.exTableValues [exRepeatedRule] e j := by
  induction k with
  | zero => rfl
  | succ k ih =>
    rw [List.replicate_succ]
    have : coveredBy Tabular.exTableValues (exRepeatedRule :: List.replicate (k + 1) exRepeatedRule) e j =
        (coveredBy Tabular.exTableValues [exRepeatedRule] e j || coveredBy Tabular.exTableValues (List.replicate (k + 1) exRepeatedRule) e j) := by
      unfold coveredBy
      simp [List.any_cons]
    rw [this, ih, Bool.or_self]

/-- **C83**, negation: with the Laplace heuristic, training needs not make progress. For every limit on the number of rules, as many copies of a rule as
possible are learned, although all of them but the first cover nothing that has not been covered before and a relevant label remains uncovered. -/
theorem seco_no_progress (N : Nat) (hN : N < 2 ^ 32) : ∃ bound r, (∀ fuel, bound ≤ fuel → (exRepeated N).fit [0] fuel = Run.done r) ∧
    r.model.rules = List.replicate N exRepeatedRule := by
  have hok : ConfigOk (exRepeated N) _ Tabular.exTableValues .laplace :=
    exSeco_ok .laplace [2] false (some N) (by decide) (by decide : [true, true, false, false].length = 4 * 1)
  obtain ⟨bound, r, h1, h2, h3, _⟩ := seco_terminates_partial hok (memory := [0]) rfl (fun h => by cases h) (Or.inr ⟨N, rfl, hN⟩)
  refine ⟨bound, r, h1, ?_⟩
  have hr := h1 bound (Nat.le_refl _)
  have hle : r.model.rules.length ≤ N := h3 N rfl hN
  have hmaj : r.majority = [] := by
    obtain ⟨st, rfl, _⟩ := fit_trained hok (memory := [0]) rfl hr h2
    show majorityLabels 4 1 (fun i j => ([true, true, false, false][i * 1 + j]?).getD false) = []
    decide +kernel
  have hgrow : ∀ i, ∀ cells, (cells = [0, 0, 0, 0] ∨ cells = [1, 0, 0, 0]) → ∀ {fuel : Nat}
      {g : Grown (FeatureSpace.Subspace Unit) Boosting.Condition (Predictor.Head ℚ)},
      (exRepeated N).growNext r.majority i fuel ⟨1, cells, 0⟩ = Run.done g →
      g.conditions = exRepeatedRule.conditions ∧ g.head = some exRepeatedRule.head := by
    intro i cells hc fuel g hg
    rw [hmaj] at hg
    rcases hc with rfl | rfl
    · exact exGrown_eq exGrown_zero N _ hg
    · exact exGrown_eq exGrown_one N _ hg
  -- the coverage depends only on whether there are rules
  have hcells : ∀ i, ∃ cells cov, (cells = [0, 0, 0, 0] ∨ cells = [1, 0, 0, 0]) ∧ IsCoverage 4 1 cov cells ∧
      ∀ e < 4, ∀ j < 1, cov e j = 0 ↔ coveredBy Tabular.exTableValues (List.replicate i exRepeatedRule) e j = false := by
    intro i
    cases i with
    | zero => exact ⟨[0, 0, 0, 0], fun _ _ => 0, Or.inl rfl, by unfold IsCoverage; decide, fun _ _ _ _ => by simp [coveredBy]⟩
    | succ i =>
      refine ⟨[1, 0, 0, 0], fun e _ => if e = 0 then 1 else 0, Or.inr rfl, by unfold IsCoverage; decide, fun e he j hj => ?_⟩
      rw [exRepeated_covered]
      revert e j
      decide +kernel
  have hrules : ∀ i, i ≤ r.model.rules.length → r.model.rules.take i = List.replicate i exRepeatedRule := by
    intro i
    induction i with
    | zero => exact fun _ => by simp
    | succ i ih =>
      intro hi
      have ih := ih (by omega)
      obtain ⟨cells, cov, c1, c2, c3⟩ := hcells i
      obtain ⟨g, head, g1, g2, g3⟩ := seco_rules_partial hok (memory := [0]) rfl hr h2 (i := i) (by omega) (m := ⟨1, cells, 0⟩) c2
        (fun e he j hj => by rw [ih]; exact c3 e he j hj)
      obtain ⟨g4, g5⟩ := hgrow _ _ c1 g1
      rw [g5] at g2
      cases g2
      rw [List.take_succ, ih, g3, g4, List.replicate_succ']
      rfl
  have hall : r.model.rules = List.replicate r.model.rules.length exRepeatedRule := by
    rw [← hrules _ (Nat.le_refl _), List.take_length]
  obtain ⟨_, _, c1, c2, hsum, hends⟩ := seco_coverage_partial hok (memory := [0]) rfl hr h2
  have hlen : N ≤ r.model.rules.length := by
    cases hends with
    | size N' hN' hle' =>
      cases hN'
      exact hle'
    | time limit hl _ => cases hl
    | coverage t ht hle' =>
      exfalso
      cases ht
      rw [hsum, hmaj] at hle'
      have hA : numCells 4 1 (fun e j => ([true, true, false, false][e * 1 + j]?).getD false ≠ decide (j ∈ ([] : List Nat))) = 2 := by decide +kernel
      have hC : numCells 4 1 (fun e j => coveredBy Tabular.exTableValues r.model.rules e j = true) ≤ 1 := by
        rw [hall]
        cases r.model.rules.length with
        | zero =>
          have : numCells 4 1 (fun e j => coveredBy Tabular.exTableValues (List.replicate 0 exRepeatedRule) e j = true) = 0 := by decide +kernel
          omega
        | succ k =>
          rw [numCells_congr (q := fun e j => coveredBy Tabular.exTableValues [exRepeatedRule] e j = true)
            (fun e _ j _ => by rw [exRepeated_covered])]
          decide +kernel
      have hA' : ((numCells 4 1 (fun e j => ([true, true, false, false][e * 1 + j]?).getD false ≠ decide (j ∈ ([] : List Nat))) : Nat) : ℚ) = 2 := by
        rw [hA]
        rfl
      have hC' : ((numCells 4 1 (fun e j => coveredBy Tabular.exTableValues r.model.rules e j = true) : Nat) : ℚ) ≤ 1 := by exact_mod_cast hC
      have hle'' : (2 : ℚ) - ((numCells 4 1 (fun e j => coveredBy Tabular.exTableValues r.model.rules e j = true) : Nat) : ℚ) ≤ 0 := by
        rw [← hA']
        exact hle'
      linarith
    | noRule g hg hn =>
      exfalso
      obtain ⟨cells, cov, d1, d2, d3⟩ := hcells r.model.rules.length
      rw [← hall] at d3
      rw [growNext_congr hok (by rw [hmaj]; exact List.Pairwise.nil) (m' := ⟨1, cells, 0⟩) ⟨c1, c2⟩ d2 (fun e he j hj => by
        rw [d3 e he j hj, ← Bool.not_eq_true, ← numCovering_pos]
        omega)] at hg
      rw [(hgrow _ _ d1 hg).2] at hn
      cases hn
  rw [hall, Nat.le_antisymm hle hlen]

/-- The labels of four examples. -/
abbrev exLabels : List Bool := [true, true, false, false, false, false, true, true, true, true, false, false, false, true, true, true]

/-- Four labels, one of which is relevant to most examples, and a default rule. The labels that are not predicted by the default rule are learned by
rules with maximum precision. -/
abbrev exPrecision : Config ℚ := exSeco .precision 4 exLabels [0, 1, 2, 3] true none

theorem exPrecision_ok : ConfigOk exPrecision (fun i j => (exLabels[i * 4 + j]?).getD false) Tabular.exTableValues .precision :=
  exSeco_ok .precision [0, 1, 2, 3] true none (by decide) (by decide)

/-- The result of training: the number of rules, the majority labels, the coverage matrix and the sum of the weights of uncovered labels. -/
def exSummary (r : Run (Fitted ℚ)) : Option (Nat × List Nat × List Nat × ℚ) :=
  match r.run with
  | some (.ok r) => some (r.model.rules.length, r.majority, r.matrix.cells, r.matrix.sumOfUncoveredWeights)
  | _ => none

example : exSummary (exPrecision.fit [0, 0, 0, 0] 20) =
    some (7, [1], [1, 0, 0, 0, 0, 1, 1, 1, 1, 0, 0, 0, 0, 0, 1, 1], 0) := by decide +kernel

-- training terminates
example : ∃ bound r, ∀ fuel, bound ≤ fuel → exPrecision.fit [0, 0, 0, 0] fuel = Run.done r := by
  obtain ⟨bound, r, h1, _⟩ := seco_terminates_partial exPrecision_ok (memory := [0, 0, 0, 0]) rfl (fun _ => by decide)
    (Or.inl ⟨.precision, by decide⟩)
  exact ⟨bound, r, h1⟩

example (fuel : Nat) (r : Fitted ℚ) (hr : exPrecision.fit [0, 0, 0, 0] fuel = Run.done r) (hlen : r.model.rules.length + 1 < 2 ^ 32) :
    ∃ model, createModel r.model = .ok model ∧ ∀ limit, ∀ e < 4,
      DecisionList.predictDense 4 model limit (Tabular.exRows e) = .ok ((List.range 4).map (fun j =>
        some (prediction true r.majority Tabular.exTableValues (usedRules r.model.rules true limit) e j))) :=
  seco_prediction_partial exPrecision_ok (memory := [0, 0, 0, 0]) rfl hr hlen (fun _ => Tabular.exRows_ok) (by decide)

-- a default rule is not possible if there are less labels than examples
example (fuel : Nat) (r : Fitted ℚ) :
    (exSeco .precision 2 (exLabels.take 8) [0, 1] true none).fit [0, 0] fuel ≠ Run.done r := by
  have hok := exSeco_ok (c := 2) (labels := exLabels.take 8) .precision [0, 1] true none (by decide) (by decide)
  exact seco_default_fault hok rfl rfl (show 2 < 4 by decide) fuel r

-- the hypotheses of `seco_repeats_partial` are met by the second of three copies
example : (exRepeated 3).rounds 5 = (exRepeated 3).rounds 0 ∧ exSummary ((exRepeated 3).fit [0] 10) = some (3, [], [3, 0, 0, 0], 1) ∧
    ∀ e < 4, ∀ j < 1, coveredBy Tabular.exTableValues [exRepeatedRule] e j = true →
      coveredBy Tabular.exTableValues (([exRepeatedRule, exRepeatedRule, exRepeatedRule]).take 1) e j = true :=
  ⟨rfl, by decide +kernel, fun e _ j _ h => h⟩

end MLRL.SecoTraining
