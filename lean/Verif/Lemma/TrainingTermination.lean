import Verif.Props.Training

/-! # Lemmas on the termination of training -/

namespace MLRL.Training

open Predictor Induction Stopping Stopping.Spec Refinement

variable {σ Cond K Q R S : Type}

/-! ### Growing rules -/

section
variable {H : Type} {ops : SubspaceOps σ Cond} {better : Q → Q → Bool} {sortHead : H → H} {cfg : GrowConfig} {search : Search σ Cond H Q}

theorem growLoop_mono (extra : Nat) : ∀ (fuel : Nat) (st x : GrowState σ Cond H Q),
    growLoop ops better sortHead cfg search fuel st = Run.done x → growLoop ops better sortHead cfg search (fuel + extra) st = Run.done x
  | 0, st, x, h => by
    simp only [growLoop] at h
    exact absurd h.symm Run.done_ne_unfinished
  | fuel + 1, st, x, h => by
    rw [show fuel + 1 + extra = (fuel + extra) + 1 by omega]
    simp only [growLoop] at h ⊢
    by_cases hlim : cfg.maxConditions = 0 ∨ st.conditions.length < cfg.maxConditions
    · rw [if_pos hlim] at h ⊢
      obtain ⟨candidates, h1, h⟩ := lift_bind_done h
      rw [h1, Run.lift_ok, Run.done_bind]
      obtain ⟨⟨comparator, found⟩, h2, h⟩ := lift_bind_done h
      rw [h2, Run.lift_ok, Run.done_bind]
      cases found with
      | false => simpa using h
      | true =>
        simp only [if_true] at h ⊢
        obtain ⟨⟨st1, k⟩, h3, h⟩ := lift_bind_done h
        rw [h3, Run.lift_ok, Run.done_bind]
        by_cases hk : k ≤ cfg.minCoverage
        · simp only [hk, if_true] at h ⊢
          exact h
        · simp only [hk, if_false] at h ⊢
          exact growLoop_mono extra fuel st1 x h
    · rw [if_neg hlim] at h ⊢
      exact h

theorem growRule_mono {minQuality : Q} {fuel fuel' : Nat} (hle : fuel ≤ fuel') {g : Grown σ Cond H}
    (h : growRule ops better sortHead cfg search minQuality fuel = Run.done g) :
    growRule ops better sortHead cfg search minQuality fuel' = Run.done g := by
  unfold growRule at h ⊢
  obtain ⟨st, h1, h2⟩ := run_bind_done h
  have := growLoop_mono (fuel' - fuel) fuel _ _ h1
  rw [show fuel + (fuel' - fuel) = fuel' by omega] at this
  rw [this, Run.done_bind]
  exact h2

end

theorem foldlM_prefix {α β : Type} {f : β → α → Res β} {l l' : List α} (h : l <+: l') {b b' : β} (hf : l'.foldlM f b = .ok b') :
    ∃ b1, l.foldlM f b = .ok b1 := by
  obtain ⟨t, rfl⟩ := h
  rw [List.foldlM_append] at hf
  cases hl : l.foldlM f b with
  | error e => rw [hl] at hf; cases hf
  | ok b1 => exact ⟨b1, rfl⟩

/-! ### Inducing rules -/

/-- The statistics are valid. -/
def CellsOk (numExamples : Nat) (Valid : R → Prop) (Consistent : Nat → R → S → Prop) (cells : List (Update.Cell R S)) : Prop :=
  cells.length = numExamples ∧ ∀ i c, cells[i]? = some c → Update.CellOk Valid Consistent i c

/-- A rule whose conditions are meaningful and that fits the number of outputs. -/
def RuleOk (ops : SubspaceOps σ Cond) (numOutputs : Nat) (rule : Rule Cond K) : Prop :=
  Update.Fits numOutputs rule.head ∧ ∃ s, rule.conditions.foldlM ops.filter ops.create = .ok s

/-- The components of a learner do not fail. -/
structure LearnerTotal (l : Learner σ Cond K Q R S) (numExamples numOutputs : Nat) (Valid : R → Prop) (Consistent : Nat → R → S → Prop) :
    Prop where
  recalculate : ∀ f, l.recalculate = some f → ∀ cells mask h, CellsOk numExamples Valid Consistent cells → Update.Fits numOutputs h →
    ∃ h', f cells mask h = .ok h'
  pruning : ∀ eval, l.pruning = some eval → ∀ cells h mask, CellsOk numExamples Valid Consistent cells → Update.Fits numOutputs h →
    ∃ q, eval cells h mask = .ok q
  reset : l.pruning ≠ none → ∀ s0 (conditions : List Cond) s, conditions.foldlM l.subspaces.filter l.subspaces.create = .ok s →
    ∃ s', conditions.foldlM l.subspaces.filter (l.subspaces.reset s0) = .ok s'

/-- The search for refinements does not fail, and it is guaranteed to end: either the number of conditions is limited or each
refinement that is better than the previous one decreases the measure `size`. -/
structure RoundTotal (l : Learner σ Cond K Q R S) (numExamples : Nat) (Valid : R → Prop) (Consistent : Nat → R → S → Prop)
    (size : List (Scored (Found Cond (Head K)) Q) → σ → Nat) (round : Round σ Cond K Q R S) : Prop where
  succeeds : ∀ cells, CellsOk numExamples Valid Consistent cells →
    Succeeds l.subspaces l.better l.sortHead l.config (round.search cells) l.minQuality
  ends : l.config.maxConditions ≠ 0 ∨ ∀ cells, CellsOk numExamples Valid Consistent cells →
    Shrinks l.subspaces l.better l.sortHead l.config (round.search cells) l.minQuality size

/-- The number of iterations that are needed for growing a rule. -/
def growBound (l : Learner σ Cond K Q R S) (size : List (Scored (Found Cond (Head K)) Q) → σ → Nat) : Nat := l.config.maxConditions + size [] l.subspaces.create + 2

section
variable [AddCommGroup K] {l : Learner σ Cond K Q R S} {numExamples numOutputs : Nat} {holds : Cond → Nat → Bool} {Valid : R → Prop}
  {value : R → Nat → K} {Consistent : Nat → R → S → Prop} {size : List (Scored (Found Cond (Head K)) Q) → σ → Nat} {round : Round σ Cond K Q R S}

/-- Pruning a rule and recalculating its prediction do not fail. -/
structure HeadTotal (l : Learner σ Cond K Q R S) (cells : List (Update.Cell R S)) (conditions : List Cond) (head : Head K) : Prop where
  recalculate : ∀ f, l.recalculate = some f → ∀ mask, ∃ h', f cells mask head = .ok h'
  pruning : ∀ eval, l.pruning = some eval → ∀ mask, ∃ q, eval cells head mask = .ok q
  reset : l.pruning ≠ none → ∀ s0, ∃ s', conditions.foldlM l.subspaces.filter (l.subspaces.reset s0) = .ok s'

omit [AddCommGroup K] in
theorem LearnerTotal.head (ht : LearnerTotal l numExamples numOutputs Valid Consistent) {cells : List (Update.Cell R S)}
    (hc : CellsOk numExamples Valid Consistent cells) {conditions : List Cond} {head : Head K} (hh : Update.Fits numOutputs head) {s : σ}
    (hs : conditions.foldlM l.subspaces.filter l.subspaces.create = .ok s) : HeadTotal l cells conditions head :=
  ⟨fun f hf mask => ht.recalculate f hf cells mask head hc hh, fun eval he mask => ht.pruning eval he cells head mask hc hh,
    fun hp s0 => ht.reset hp s0 conditions s hs⟩

theorem pruneRule_total (hl : l.Ok numExamples numOutputs holds Valid value Consistent) {cells : List (Update.Cell R S)} {conditions : List Cond}
    {head : Head K} (ht : HeadTotal l cells conditions head) {s : σ} (hs : conditions.foldlM l.subspaces.filter l.subspaces.create = .ok s) :
    ∃ pruned, l.pruneRule round cells conditions head s = .ok pruned ∧ pruned.conditions <+: conditions := by
  unfold Learner.pruneRule
  split
  · rename_i eval _ hp
    by_cases hn : 1 < conditions.length
    · have hq : ∀ mask, ∃ q, eval cells head mask = .ok q := fun mask => ht.pruning eval hp mask
      choose f hf using hq
      obtain ⟨s', hs'⟩ := ht.reset (by rw [hp]; simp) s
      obtain ⟨k, s1, h1, _⟩ := prune_optimal hl.better hl.subspaces hn (create_covers hl.subspaces hs)
        (q := fun j => f (coverage numExamples holds (conditions.take j))) (fun j _ _ => hf _)
        (fun j _ => foldlM_prefix (List.take_prefix j conditions) hs')
      exact ⟨_, h1, List.take_prefix _ _⟩
    · rw [prune_single (by omega)]
      exact ⟨_, rfl, List.prefix_rfl⟩
  · exact ⟨_, rfl, List.prefix_rfl⟩

theorem finishRule_total (hl : l.Ok numExamples numOutputs holds Valid value Consistent)
    (hr : round.Ok l numExamples numOutputs) {cells : List (Update.Cell R S)} (hc : CellsOk numExamples Valid Consistent cells)
    {conditions : List Cond} {head : Head K} (ht : HeadTotal l cells conditions head) (hh : Update.Fits numOutputs head) {s : σ}
    (hs : conditions.foldlM l.subspaces.filter l.subspaces.create = .ok s) :
    ∃ cells' rule, l.finishRule round cells conditions s head = .ok (cells', rule) ∧ CellsOk numExamples Valid Consistent cells' ∧
      RuleOk l.subspaces numOutputs rule := by
  obtain ⟨pruned, h1, h2⟩ := pruneRule_total (round := round) hl ht hs
  have hrec : ∃ head', l.recalculateHead round cells pruned head = .ok head' ∧ Update.Fits numOutputs head' := by
    unfold Learner.recalculateHead
    split
    · rename_i f _ hf
      obtain ⟨h', g⟩ := ht.recalculate f hf (pruned.mask.getD (l.subspaces.covers pruned.subspace))
      exact ⟨h', g, hl.recalculate f hf _ _ _ _ hh g⟩
    · exact ⟨head, rfl, hh⟩
  obtain ⟨head', h3, h4⟩ := hrec
  have hfits := hl.postProcess _ h4
  obtain ⟨cells1, e1, e2, e3⟩ := Update.exec_exact hl.updates ⟨l.subspaces.covers pruned.subspace, l.postProcess head', false⟩ hfits cells hc.2
    (round.applySchedule ⟨l.subspaces.covers pruned.subspace, l.postProcess head', false⟩) (by rw [hc.1]; exact hr.applied _)
  refine ⟨cells1, ⟨pruned.conditions, l.postProcess head'⟩, ?_, ⟨by rw [e2, hc.1], ?_⟩, hfits, foldlM_prefix h2 hs⟩
  · unfold Learner.finishRule
    rw [h1, ok_bind, h3, ok_bind]
    simp only
    rw [e1, ok_bind]
    rfl
  · intro i c' hc'
    have hlt : i < cells.length := by
      have := (List.getElem?_eq_some_iff.1 hc').1
      omega
    obtain ⟨c1, g1, g2, _⟩ := e3 i _ (List.getElem?_eq_getElem hlt)
    rw [hc'] at g1
    cases g1
    exact g2

theorem growRule_total (hl : l.Ok numExamples numOutputs holds Valid value Consistent)
    (hr : round.Ok l numExamples numOutputs) (hrt : RoundTotal l numExamples Valid Consistent size round)
    {cells : List (Update.Cell R S)} (hc : CellsOk numExamples Valid Consistent cells) :
    ∃ g, ∀ fuel, growBound l size ≤ fuel →
      growRule l.subspaces l.better l.sortHead l.config (round.search cells) l.minQuality fuel = Run.done g := by
  rcases hrt.ends with hm | hdec
  · obtain ⟨g, hg⟩ := growRule_terminates_limited hl.better (hr.search cells) (hrt.succeeds cells hc) hm
    exact ⟨g, fun fuel hf => growRule_mono (by unfold growBound at hf; omega) hg⟩
  · obtain ⟨g, hg⟩ := growRule_terminates_shrinking hl.better (hr.search cells) (hrt.succeeds cells hc) (hdec cells hc)
    exact ⟨g, fun fuel hf => growRule_mono (by unfold growBound at hf; omega) hg⟩

/-- A rule is induced without a fault, provided that this applies to pruning and recalculating the prediction of each rule that may be found. -/
theorem induceRule_found (hl : l.Ok numExamples numOutputs holds Valid value Consistent)
    (hr : round.Ok l numExamples numOutputs) (hrt : RoundTotal l numExamples Valid Consistent size round)
    {cells : List (Update.Cell R S)} (hc : CellsOk numExamples Valid Consistent cells)
    (ht : ∀ chosen s q outputs x, Greedy l.subspaces l.better l.sortHead l.config (round.search cells) l.minQuality chosen s q outputs →
      chosen.getLast? = some x → HeadTotal l cells (chosen.map (fun y => y.refinement.condition)) (l.sortHead x.refinement.head)) :
    ∃ r, (∀ fuel, growBound l size ≤ fuel → l.induceRule round fuel cells = Run.done r) ∧
      ∀ cells' rule, r = some (cells', rule) → CellsOk numExamples Valid Consistent cells' ∧ RuleOk l.subspaces numOutputs rule := by
  obtain ⟨g, hg⟩ := growRule_total hl hr hrt hc
  obtain ⟨chosen, s, q, outputs, k1, _, hge⟩ := growRule_greedy hl.better (hr.search cells) (hg _ (Nat.le_refl _))
  cases hh : g.head with
  | none =>
    refine ⟨none, fun fuel hf => ?_, by simp⟩
    unfold Learner.induceRule
    rw [hg fuel hf, Run.done_bind, hh]
  | some head =>
    have hlast : ∃ x, chosen.getLast? = some x ∧ head = l.sortHead x.refinement.head := by
      rw [hge] at hh
      simp only at hh
      cases hx : chosen.getLast? with
      | none => rw [hx] at hh; cases hh
      | some x => rw [hx] at hh; cases hh; exact ⟨x, rfl, rfl⟩
    obtain ⟨x, hx, rfl⟩ := hlast
    have hhead : Update.Fits numOutputs (l.sortHead x.refinement.head) :=
      greedy_candidates k1 (fun x => Update.Fits numOutputs (l.sortHead x.refinement.head)) (hr.heads cells) x
        (List.mem_of_getLast? hx)
    have hs := k1.filtered
    obtain ⟨cells', rule, f1, f2, f3⟩ := finishRule_total hl hr hc (ht _ _ _ _ x k1 hx) hhead hs
    refine ⟨some (cells', rule), fun fuel hf => ?_, fun c r h => by cases h; exact ⟨f2, f3⟩⟩
    unfold Learner.induceRule
    rw [hg fuel hf, Run.done_bind, hh]
    simp only
    rw [hge]
    simp only
    rw [f1, Run.lift_ok, Run.done_bind]

theorem induceRule_total (hl : l.Ok numExamples numOutputs holds Valid value Consistent) (ht : LearnerTotal l numExamples numOutputs Valid Consistent)
    (hr : round.Ok l numExamples numOutputs) (hrt : RoundTotal l numExamples Valid Consistent size round)
    {cells : List (Update.Cell R S)} (hc : CellsOk numExamples Valid Consistent cells) :
    ∃ r, (∀ fuel, growBound l size ≤ fuel → l.induceRule round fuel cells = Run.done r) ∧
      ∀ cells' rule, r = some (cells', rule) → CellsOk numExamples Valid Consistent cells' ∧ RuleOk l.subspaces numOutputs rule :=
  induceRule_found hl hr hrt hc (fun _ _ _ _ x k1 hx => ht.head hc
    (greedy_candidates k1 (fun x => Update.Fits numOutputs (l.sortHead x.refinement.head)) (hr.heads cells) x (List.mem_of_getLast? hx)) k1.filtered)

end

/-! ### Stopping criteria -/

theorem runTests_snoc {α ι : Type} {test : α → ι → Res (Result × α)} {x : ι} : ∀ {history : List ι} {a b c : α} {rs rs' : List Result},
    runTests test a history = .ok (rs, b) → runTests test a (history ++ [x]) = .ok (rs', c) → ∃ r, test b x = .ok (r, c)
  | [], a, b, c, rs, rs', h, h' => by
    cases h
    simp only [List.nil_append, runTests] at h'
    cases ht : test a x with
    | error e => rw [ht] at h'; cases h'
    | ok p =>
      rw [ht, ok_bind] at h'
      cases h'
      exact ⟨_, rfl⟩
  | y :: history, a, b, c, rs, rs', h, h' => by
    simp only [List.cons_append, runTests] at h h'
    cases ht : test a y with
    | error e => rw [ht] at h; cases h
    | ok p =>
      rw [ht, ok_bind] at h h'
      cases h1 : runTests test p.2 history with
      | error e => rw [h1] at h; cases h
      | ok p1 =>
        cases h2 : runTests test p.2 (history ++ [x]) with
        | error e => rw [h2] at h'; cases h'
        | ok p2 =>
          rw [h1, ok_bind] at h
          rw [h2, ok_bind] at h'
          cases h
          cases h'
          exact runTests_snoc h1 h2

section
variable [Field K] [LinearOrder K]

/-- The state of pre-pruning after it has been tested repeatedly. -/
def preInit (q : PreParams K) : PrePruning K := PrePruning.init q.aggregation (some q.removeUnusedRules) q.minRules q.updateInterval
  q.stopInterval q.numPast q.numCurrent q.minImprovement

/-- The states of criteria whose tests do not fail. -/
def Fine : CriterionState K → Prop
  | .size _ => True
  | .time _ _ _ => True
  | .pre p => ∃ (q : PreParams K), ValidPre q ∧ ∃ (history : List (Nat × K)) (rs : List Result), runTests (fun p x => PrePruning.test p x.1 x.2) (preInit q) history = .ok (rs, p)
  | .post p => 1 ≤ p.interval

theorem postTest_total {p : PostPruning K} (hp : 1 ≤ p.interval) (n : Nat) (score : K) :
    ∃ r p', p.test n score = .ok (r, p') ∧ p'.interval = p.interval := by
  unfold PostPruning.test
  have hm : modAt n p.interval = .ok (n % p.interval) := by
    unfold modAt
    rw [if_neg (by omega)]
  rw [hm]
  simp only
  split
  · split
    · exact ⟨_, _, rfl, rfl⟩
    · exact ⟨_, _, rfl, rfl⟩
  · exact ⟨_, _, rfl, rfl⟩

variable [IsStrictOrderedRing K] {numExamples : Nat} {Valid : R → Prop} {Consistent : Nat → R → S → Prop}

/-- The evaluation measure does not fail, and the examples it is used for exist. -/
structure Environment.Total (env : Environment K R) (numExamples : Nat) (Valid : R → Prop) : Prop where
  measure : ∀ i r, i < numExamples → Valid r → ∃ m, env.measure i r = .ok m
  indices : ∀ i ∈ env.indices, i < numExamples

theorem evaluate_total {env : Environment K R} (he : env.Total numExamples Valid) {cells : List (Update.Cell R S)}
    (hc : CellsOk numExamples Valid Consistent cells) : ∃ score, evaluate env.indices env.measure cells = .ok score := by
  have h : ∀ i, ∃ m, ∀ c, cells[i]? = some c → i < numExamples → env.measure i c.scores = .ok m := by
    intro i
    by_cases hi : i < cells.length
    · have hi' : i < numExamples := by rw [← hc.1]; exact hi
      obtain ⟨m, hm⟩ := he.measure i cells[i].scores hi' (hc.2 i _ (List.getElem?_eq_getElem hi)).valid
      exact ⟨m, fun c h _ => by rw [List.getElem?_eq_getElem hi] at h; cases h; exact hm⟩
    · exact ⟨0, fun c h => by rw [List.getElem?_eq_none (by omega)] at h; cases h⟩
  choose f hf using h
  refine ⟨_, evaluate_eq env.indices env.measure cells f (fun i hi => ?_)⟩
  have hlt : i < cells.length := by rw [hc.1]; exact he.indices i hi
  exact ⟨_, List.getElem?_eq_getElem hlt, hf i _ (List.getElem?_eq_getElem hlt) (he.indices i hi)⟩

/-- Tests of criteria do not fail. -/
theorem test_total {env : Environment K R} (he : env.Total numExamples Valid) {cells : List (Update.Cell R S)}
    (hc : CellsOk numExamples Valid Consistent cells) {state : CriterionState K} (hs : Fine state) (n : Nat) :
    ∃ r state', env.test state cells n = .ok (r, state') ∧ Fine state' := by
  obtain ⟨score, hscore⟩ := evaluate_total he hc
  cases state with
  | size m => exact ⟨_, _, rfl, trivial⟩
  | time a b c => exact ⟨_, _, rfl, trivial⟩
  | pre p =>
    obtain ⟨q, hq, history, rs, hrun⟩ := hs
    obtain ⟨rs', p', h1, _⟩ := prePruning_history q hq (history ++ [(n, score)])
    obtain ⟨r, hr⟩ := runTests_snoc hrun h1
    refine ⟨r, .pre p', ?_, q, hq, history ++ [(n, score)], rs', h1⟩
    simp only [Environment.test]
    rw [hscore, ok_bind, hr, ok_bind]
    rfl
  | post p =>
    obtain ⟨r, p', h1, h2⟩ := postTest_total hs n score
    refine ⟨r, .post p', ?_, by show 1 ≤ p'.interval; rw [h2]; exact hs⟩
    simp only [Environment.test]
    rw [hscore, ok_bind, h1, ok_bind]
    rfl

omit [IsStrictOrderedRing K] in
/-- The criterion stops after at most `d` further rules. For the time limit, `last` is the number of a reading of the clock at which the
limit has been reached. -/
def StopsIn (env : Environment K R) (d numRules : Nat) : CriterionState K → Prop
  | .size m => m ≤ numRules + d
  | .time limit n timer => ∃ last, 1 ≤ last ∧ (∀ m, last ≤ m → limit ≤ (env.clock m - env.clock 0) / ticksPerSecond) ∧ last ≤ n + d ∧
      (n = 0 → timer.timerStarted = false) ∧ (n ≠ 0 → timer = ⟨env.clock 0, true⟩)
  | _ => False

omit [IsStrictOrderedRing K] in
theorem stopsIn_zero {env : Environment K R} {cells : List (Update.Cell R S)} {state state' : CriterionState K} {n : Nat} {r : Result}
    (hs : StopsIn env 0 n state) (h : env.test state cells n = .ok (r, state')) : r.stop = true := by
  cases state with
  | size m =>
    cases h
    have hm : m ≤ n := hs
    unfold sizeTest
    rw [if_pos hm]
  | time limit k timer =>
    cases h
    obtain ⟨last, h1, h2, h3, _, h5⟩ := hs
    rw [h5 (by omega)]
    unfold timeTest
    simp only [if_true]
    rw [if_pos (h2 k (by omega))]
  | pre p => cases hs
  | post p => cases hs

omit [IsStrictOrderedRing K] in
theorem stopsIn_succ {env : Environment K R} {cells : List (Update.Cell R S)} {state state' : CriterionState K} {n d : Nat} {r : Result}
    (hs : StopsIn env (d + 1) n state) (h : env.test state cells n = .ok (r, state')) : StopsIn env d (n + 1) state' := by
  cases state with
  | size m =>
    cases h
    have hm : m ≤ n + (d + 1) := hs
    show m ≤ n + 1 + d
    omega
  | time limit k timer =>
    cases h
    obtain ⟨last, h1, h2, h3, h4, h5⟩ := hs
    refine ⟨last, h1, h2, by omega, by omega, fun _ => ?_⟩
    unfold timeTest
    by_cases hk : k = 0
    · simp only [h4 hk, Bool.false_eq_true, if_false, hk]
    · rw [h5 hk]
      simp only [if_true]
      split <;> rfl
  | pre p => cases hs
  | post p => cases hs

/-- The stopping criteria do not fail, and one of them stops after at most `d` further rules. -/
structure CriteriaOk (env : Environment K R) (d numRules : Nat) (criteria : List (Criterion (CriterionState K) (List (Update.Cell R S)))) :
    Prop where
  test : ∀ c ∈ criteria, c.test = env.test
  fine : ∀ c ∈ criteria, Fine c.state
  stops : ∃ c ∈ criteria, StopsIn env d numRules c.state

theorem criteria_total {env : Environment K R} (he : env.Total numExamples Valid) {cells : List (Update.Cell R S)}
    (hc : CellsOk numExamples Valid Consistent cells) {d n : Nat}
    {criteria : List (Criterion (CriterionState K) (List (Update.Cell R S)))} (hcr : CriteriaOk env d n criteria) :
    ∃ r criteria', listTest criteria cells n = .ok (r, criteria') ∧ (d = 0 → r.stop = true) ∧
      ∀ d', d = d' + 1 → CriteriaOk env d' (n + 1) criteria' := by
  obtain ⟨⟨r, criteria'⟩, h⟩ := (listTest_ok_iff cells n criteria).2 (by
    intro c hm
    obtain ⟨r, s', h1, _⟩ := test_total he hc (hcr.fine c hm) n
    refine ⟨(r, { c with state := s' }), ?_⟩
    unfold Criterion.call
    rw [hcr.test c hm, h1, ok_bind]
    rfl)
  refine ⟨r, criteria', h, ?_, ?_⟩
  · rintro rfl
    obtain ⟨calls, g1, _, g3, _⟩ := listTest_forall₂ h
    obtain ⟨c, hm, hs⟩ := hcr.stops
    obtain ⟨p, p1, p2⟩ := forall₂_mem_left g1 c hm
    refine g3.2 ⟨p, p1, ?_⟩
    have := (Criterion.call_test (c' := p.2) (r := p.1) p2).2
    rw [hcr.test c hm] at this
    exact stopsIn_zero hs this
  · rintro d' rfl
    obtain ⟨calls, g1, g2, _, _⟩ := listTest_forall₂ h
    subst g2
    refine ⟨?_, ?_, ?_⟩
    · intro c hm
      obtain ⟨p, hp, rfl⟩ := List.mem_map.1 hm
      obtain ⟨a, ha, hap⟩ := forall₂_mem_right g1 p hp
      rw [(Criterion.call_test (c' := p.2) (r := p.1) hap).1, hcr.test a ha]
    · intro c hm
      obtain ⟨p, hp, rfl⟩ := List.mem_map.1 hm
      obtain ⟨a, ha, hap⟩ := forall₂_mem_right g1 p hp
      have := (Criterion.call_test (c' := p.2) (r := p.1) hap).2
      rw [hcr.test a ha] at this
      obtain ⟨r', s', k1, k2⟩ := test_total he hc (hcr.fine a ha) n
      rw [k1] at this
      have e : s' = p.2.state := by injection this with this; injection this
      rw [← e]
      exact k2
    · obtain ⟨c, hm, hs⟩ := hcr.stops
      obtain ⟨p, p1, p2⟩ := forall₂_mem_left g1 c hm
      refine ⟨p.2, List.mem_map.2 ⟨p, p1, rfl⟩, ?_⟩
      have := (Criterion.call_test (c' := p.2) (r := p.1) p2).2
      rw [hcr.test c hm] at this
      exact stopsIn_succ hs this

end

end MLRL.Training
