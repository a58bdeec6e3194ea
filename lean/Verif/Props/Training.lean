import Verif.Lemma.Training

/-!
# C76, C77: training as a whole
-/

namespace MLRL.Training

open Predictor Induction Stopping Stopping.Spec Refinement

variable {σ Cond K Q R S : Type} [Field K] [LinearOrder K] [IsStrictOrderedRing K]

/-- The evaluation measure depends on the scores of an example only, and it is used for existing examples. -/
structure Environment.Ok (env : Environment K R) (numExamples numOutputs : Nat) (Valid : R → Prop) (value : R → Nat → K)
    (loss : Nat → List K → K) : Prop where
  measure : ∀ i r, Valid r → env.measure i r = .ok (loss i ((List.range numOutputs).map (value r)))
  indices : ∀ i ∈ env.indices, i < numExamples

omit [LinearOrder K] [IsStrictOrderedRing K] in
/-- The scores of the examples are those the rules predict. -/
theorem trained_scores {numExamples numOutputs : Nat} {holds : Cond → Nat → Bool} {Valid : R → Prop} {value : R → Nat → K}
    {Consistent : Nat → R → S → Prop} {rules : List (Rule Cond K)} {cells : List (Update.Cell R S)}
    (h : Trained numExamples numOutputs holds Valid value Consistent rules cells) {i : Nat} {c : Update.Cell R S} (hc : cells[i]? = some c) :
    (List.range numOutputs).map (value c.scores) = predictedScores holds numOutputs rules i := by
  unfold predictedScores
  refine List.map_congr_left (fun j hj => ?_)
  rw [h.2.2.2 i c hc j (List.mem_range.1 hj), zero_add]

theorem evaluate_trained {numExamples numOutputs : Nat} {holds : Cond → Nat → Bool} {Valid : R → Prop} {value : R → Nat → K}
    {Consistent : Nat → R → S → Prop} {loss : Nat → List K → K} {env : Environment K R} (he : env.Ok numExamples numOutputs Valid value loss)
    {rules : List (Rule Cond K)} {cells : List (Update.Cell R S)}
    (h : Trained numExamples numOutputs holds Valid value Consistent rules cells) :
    evaluate env.indices env.measure cells = .ok (averageLoss loss holds numOutputs env.indices rules) := by
  rw [evaluate_eq env.indices env.measure cells (fun i => loss i (predictedScores holds numOutputs rules i))]
  · rfl
  · intro i hi
    have hlt := he.indices i hi
    rw [← h.1] at hlt
    refine ⟨_, List.getElem?_eq_getElem hlt, ?_⟩
    rw [he.measure i _ (h.2.1 i _ (List.getElem?_eq_getElem hlt)).1, trained_scores h (List.getElem?_eq_getElem hlt)]

/-- The sizes of the models post-pruning chooses from: at least `minRules` rules, a multiple of the interval. -/
def Candidate (minRules interval total : Nat) (m : Nat) : Prop := minRules ≤ m ∧ m ≤ total ∧ m % interval = 0

/-- The first minimum of a history in which the number of rules increases. -/
theorem isBest_of_firstMin {first count minRules interval : Nat} {lossOf : Nat → K} (hm : first ≤ minRules) {best : Nat × K}
    (h : IsFirstMin (((List.range' first count).map (fun m => (m, lossOf m))).filter
      (fun x => decide (minRules ≤ x.1 ∧ x.1 % interval = 0))) best) (hc : 0 < count) :
    IsBest (Candidate minRules interval (first + count - 1)) lossOf best.1 := by
  obtain ⟨i, h1, h2, h3⟩ := h
  have hmem := List.mem_of_getElem? h1
  simp only [List.mem_filter, List.mem_map, List.mem_range', decide_eq_true_eq] at hmem
  obtain ⟨⟨k, ⟨d, hd, rfl⟩, rfl⟩, hk1, hk2⟩ := hmem
  simp only at hk1 hk2 h2 h3 ⊢
  refine ⟨⟨hk1, by omega, hk2⟩, fun m hcand => ?_⟩
  obtain ⟨c1, c2, c3⟩ := hcand
  have hm' : (m, lossOf m) ∈ ((List.range' first count).map (fun m => (m, lossOf m))).filter
      (fun x => decide (minRules ≤ x.1 ∧ x.1 % interval = 0)) := by
    simp only [List.mem_filter, List.mem_map, List.mem_range', decide_eq_true_eq]
    exact ⟨⟨m, ⟨m - first, by omega, by omega⟩, rfl⟩, c1, c3⟩
  refine ⟨h3 _ hm', fun hlt => ?_⟩
  obtain ⟨j, hj, hj'⟩ := List.getElem_of_mem hm'
  have hsorted : (((List.range' first count).map (fun m => (m, lossOf m))).filter
      (fun x => decide (minRules ≤ x.1 ∧ x.1 % interval = 0))).Pairwise (fun a b => a.1 < b.1) := by
    apply List.Pairwise.filter
    rw [List.pairwise_map]
    exact List.pairwise_lt_range'
  have hji : j < i := by
    by_contra hge
    rcases Nat.lt_or_eq_of_le (Nat.le_of_not_lt hge) with h' | h'
    · have hi := (List.getElem?_eq_some_iff.1 h1)
      have := List.pairwise_iff_getElem.1 hsorted i j hi.1 hj h'
      rw [hj', hi.2] at this
      simp only at this
      omega
    · subst h'
      rw [List.getElem?_eq_getElem hj, hj'] at h1
      cases h1
      omega
  exact h2 j _ hji (by rw [List.getElem?_eq_getElem hj, hj'])

omit [LinearOrder K] [IsStrictOrderedRing K] in
/-- A list of indices and values. -/
theorem zipIdx_map_snd {X Y : Type} (l : List X) (k : Nat) (f : Nat → Y) :
    (l.zipIdx k).map (fun x => f x.2) = (List.range' k l.length).map f := by
  induction l generalizing k with
  | nil => rfl
  | cons x xs ih => simp [List.zipIdx_cons, List.range'_succ, ih]

/-- The scores that are passed to the criterion for global pruning. -/
theorem hist_evaluate {t : Setup σ Cond K Q R S} {numOutputs : Nat} {holds : Cond → Nat → Bool} {Valid : R → Prop} {value : R → Nat → K}
    {Consistent : Nat → R → S → Prop} {loss : Nat → List K → K} (he : t.environment.Ok t.numExamples numOutputs Valid value loss)
    {rules : List (Rule Cond K)} {first : Nat} {hist : List (List (Update.Cell R S))}
    (hh : ∀ (m : Nat) cells, hist[m]? = some cells →
      Trained t.numExamples numOutputs holds Valid value Consistent (rules.take (first + m)) cells) (x : List (Update.Cell R S) × Nat)
    (hx : x ∈ hist.zipIdx first) :
    evaluate t.environment.indices t.environment.measure x.1 =
      .ok (averageLoss loss holds numOutputs t.environment.indices (rules.take x.2)) := by
  obtain ⟨cells, n⟩ := x
  obtain ⟨h1, h2⟩ := List.mk_mem_zipIdx_iff_le_and_getElem?_sub.1 hx
  have := evaluate_trained he (hh _ _ h2)
  rwa [Nat.add_sub_cancel' h1] at this

/-- **C76.** If post-pruning is used, the number of rules that are marked as used is the smallest one among those with the lowest average
loss on the examples post-pruning looks at, among all numbers of rules that are taken into account. The loss is that of the predictions of
the first rules of the model. If no number is taken into account, all rules are used. -/
theorem post_pruning_best {t : Setup σ Cond K Q R S} {numOutputs : Nat} {holds : Cond → Nat → Bool} {Valid : R → Prop}
    {value : R → Nat → K} {Consistent : Nat → R → S → Prop} (ht : t.Ok numOutputs holds Valid value Consistent)
    {loss : Nat → List K → K} (he : t.environment.Ok t.numExamples numOutputs Valid value loss) {minRules interval : Nat}
    (hm : 1 ≤ minRules) (hi : 1 ≤ interval) (hp : t.stopping.globalPruning = some (.post (PostPruning.init minRules interval)))
    {cells : List (Update.Cell R S)} (h0 : Initial t.numExamples numOutputs Valid value Consistent cells) {fuel : Nat}
    {st : State Cond K R S} (h : t.induceRules fuel cells = Run.done st) :
    (st.builder.numUsedRules = 0 ∧ ∀ m, ¬ Candidate minRules interval st.allRules.length m) ∨
    IsBest (Candidate minRules interval st.allRules.length)
      (fun m => averageLoss loss holds numOutputs t.environment.indices (st.allRules.take m)) st.builder.numUsedRules := by
  obtain ⟨first, hist, f1, f2, _, f4, f5, _, f7⟩ := induceRules_run ht h0 h
  obtain ⟨results, state', g1, g2⟩ := f7 _ hp
  have hfirst : first ≤ minRules := by rw [f1]; split <;> omega
  have hcount : 0 < hist.length := by
    apply List.length_pos_iff.2
    rintro rfl
    cases f4
  generalize hl : (fun m => averageLoss loss holds numOutputs t.environment.indices (st.allRules.take m)) = lossOf
  have hmap := runTests_map (test := fun s (x : List (Update.Cell R S) × Nat) => t.environment.test s x.1 x.2)
    (test' := fun (p : PostPruning K) (x : Nat × K) => PostPruning.test p x.1 x.2) CriterionState.post
    (fun x => (x.2, lossOf x.2)) (hist.zipIdx first) (by
      intro x hx b
      simp only [Environment.test]
      rw [hist_evaluate he f5 x hx, ok_bind, ← hl]
      rfl) (PostPruning.init minRules interval)
  rw [hmap, zipIdx_map_snd hist first (fun m => (m, lossOf m))] at g1
  obtain ⟨rs, p', k1, _, _, k4, k5⟩ := postPruning_selects_best minRules interval hm hi
    ((List.range' first hist.length).map (fun m => (m, lossOf m)))
  rw [k1, ok_bind] at g1
  cases g1
  have htotal : st.allRules.length = first + hist.length - 1 := by omega
  rw [g2, htotal]
  by_cases hev : ((List.range' first hist.length).map (fun m => (m, lossOf m))).filter
      (fun x => decide (minRules ≤ x.1 ∧ x.1 % interval = 0)) = []
  · left
    refine ⟨k4 hev, ?_⟩
    rintro m ⟨c1, c2, c3⟩
    have := List.filter_eq_nil_iff.1 hev (m, lossOf m) (List.mem_map.2 ⟨m, by
      simp only [List.mem_range']
      exact ⟨m - first, by omega, by omega⟩, rfl⟩)
    simp only [decide_eq_true_eq] at this
    exact this ⟨c1, c3⟩
  · right
    obtain ⟨best, b1, b2⟩ := k5 hev
    rw [b2]
    exact isBest_of_firstMin hfirst b1 hcount

/-- Pre-pruning, provided that its fields are initialised (which is not the case, see `prePruningFactory_uninitialised`): either it has never
fired and all rules are used, or it has fired and the number of rules that are used is the smallest one with the lowest average loss among
those that have been assessed before, except for the first ones that fill the buffers. -/
theorem pre_pruning_best_partial {t : Setup σ Cond K Q R S} {numOutputs : Nat} {holds : Cond → Nat → Bool} {Valid : R → Prop}
    {value : R → Nat → K} {Consistent : Nat → R → S → Prop} (ht : t.Ok numOutputs holds Valid value Consistent)
    {loss : Nat → List K → K} (he : t.environment.Ok t.numExamples numOutputs Valid value loss) (q : PreParams K) (hq : ValidPre q)
    (hp : t.stopping.globalPruning = some (.pre (PrePruning.init q.aggregation (some q.removeUnusedRules) q.minRules q.updateInterval
      q.stopInterval q.numPast q.numCurrent q.minImprovement)))
    {cells : List (Update.Cell R S)} (h0 : Initial t.numExamples numOutputs Valid value Consistent cells) {fuel : Nat}
    {st : State Cond K R S} (h : t.induceRules fuel cells = Run.done st) :
    let history := ((List.range (st.allRules.length + 1)).drop (if t.useDefaultRule then 1 else 0)).map
      (fun m => (m, averageLoss loss holds numOutputs t.environment.indices (st.allRules.take m)))
    (st.builder.numUsedRules = 0 ∧ ∀ (i : Nat) x, history[i]? = some x → ¬ q.Fires (history.take i) x.1) ∨
    ∃ (i : Nat) (x b : Nat × K), history[i]? = some x ∧ q.Fires (history.take i) x.1 ∧
      IsFirstMin ((q.assessments (history.take (i + 1))).drop (q.numPast + q.numCurrent)) b ∧ st.builder.numUsedRules = b.1 := by
  intro history
  obtain ⟨first, hist, f1, f2, _, f4, f5, _, f7⟩ := induceRules_run ht h0 h
  obtain ⟨results, state', g1, g2⟩ := f7 _ hp
  generalize hl : (fun m => averageLoss loss holds numOutputs t.environment.indices (st.allRules.take m)) = lossOf
  have hhist : history = (List.range' first hist.length).map (fun m => (m, lossOf m)) := by
    show ((List.range _).drop _).map _ = _
    rw [← f1, ← f2, List.range_eq_range', List.drop_range', ← hl]
    congr 2 <;> omega
  have hmap := runTests_map (test := fun s (x : List (Update.Cell R S) × Nat) => t.environment.test s x.1 x.2)
    (test' := fun (p : PrePruning K) (x : Nat × K) => PrePruning.test p x.1 x.2) CriterionState.pre
    (fun x => (x.2, lossOf x.2)) (hist.zipIdx first) (by
      intro x hx b
      simp only [Environment.test]
      rw [hist_evaluate he f5 x hx, ok_bind, ← hl]
      rfl) (PrePruning.init q.aggregation (some q.removeUnusedRules) q.minRules q.updateInterval
      q.stopInterval q.numPast q.numCurrent q.minImprovement)
  rw [hmap, zipIdx_map_snd hist first (fun m => (m, lossOf m)), ← hhist] at g1
  obtain ⟨rs, p', k1, k2, k3⟩ := prePruning_history q hq history
  rw [k1, ok_bind] at g1
  cases g1
  rw [g2]
  by_cases hf : ∃ (i : Nat) (x : Nat × K), history[i]? = some x ∧ q.Fires (history.take i) x.1
  · right
    classical
    have hex : ∃ i, ∃ x : Nat × K, history[i]? = some x ∧ q.Fires (history.take i) x.1 := hf
    obtain ⟨x, hx1, hx2⟩ := Nat.find_spec hex
    have hmin := fun j (hj : j < Nat.find hex) => Nat.find_min hex hj
    generalize Nat.find hex = i at hx1 hx2 hmin
    have hlt : i < rs.length := by
      rw [k2]; exact (List.getElem?_eq_some_iff.1 hx1).1
    obtain ⟨_, _, a3⟩ := k3 i x _ hx1 (List.getElem?_eq_getElem hlt)
    obtain ⟨b, b1, b2⟩ := a3 hx2 (fun j y hj hy hfy => hmin j hj ⟨y, hy, hfy⟩)
    refine ⟨i, x, b, hx1, hx2, b2, ?_⟩
    -- all other rs are empty
    have hempty : ∀ (j : Nat) r, j ≠ i → rs[j]? = some r → r.numUsedRules = 0 := by
      intro j r hji hr
      have hjl : j < history.length := by rw [← k2]; exact (List.getElem?_eq_some_iff.1 hr).1
      obtain ⟨c1, c2, _⟩ := k3 j _ r (List.getElem?_eq_getElem hjl) hr
      rcases Nat.lt_or_gt_of_ne hji with hlt' | hgt
      · rw [c1 (fun hfy => hmin j hlt' ⟨_, List.getElem?_eq_getElem hjl, hfy⟩)]
      · rw [c2 ⟨i, x, hgt, hx1, hx2⟩]
    have hsplit : rs = rs.take i ++ rs[i] :: rs.drop (i + 1) := by
      rw [← List.drop_eq_getElem_cons, List.take_append_drop]
    unfold lastNonZero
    rw [hsplit, b1]
    simp only [List.map_append, List.map_cons, List.filter_append]
    have hfront : ((rs.take i).map Result.numUsedRules).filter (fun x => decide (x ≠ 0)) = [] := by
      apply List.filter_eq_nil_iff.2
      intro y hy
      obtain ⟨r, hr, rfl⟩ := List.mem_map.1 hy
      obtain ⟨j, hj⟩ := List.mem_iff_getElem?.1 hr
      have hji : j < i := by
        have := (List.getElem?_eq_some_iff.1 hj).1
        rw [List.length_take] at this
        omega
      rw [List.getElem?_take_of_lt hji] at hj
      simp [hempty j r (by omega) hj]
    have hrest : ((rs.drop (i + 1)).map Result.numUsedRules).filter (fun x => decide (x ≠ 0)) = [] := by
      apply List.filter_eq_nil_iff.2
      intro y hy
      obtain ⟨r, hr, rfl⟩ := List.mem_map.1 hy
      obtain ⟨j, hj⟩ := List.mem_iff_getElem?.1 hr
      rw [List.getElem?_drop] at hj
      simp [hempty (i + 1 + j) r (by omega) hj]
    rw [hfront, List.nil_append]
    by_cases hb0 : b.1 = 0
    · rw [List.filter_cons_of_neg (by simp [hb0]), hrest, hb0]
      rfl
    · rw [List.filter_cons_of_pos (by simp [hb0]), hrest]
      rfl
  · left
    refine ⟨lastNonZero_zeros _ ?_, fun i x hx hfx => hf ⟨i, x, hx, hfx⟩⟩
    intro y hy
    obtain ⟨r, hr, rfl⟩ := List.mem_map.1 hy
    obtain ⟨j, hj⟩ := List.mem_iff_getElem?.1 hr
    have hjl : j < history.length := by rw [← k2]; exact (List.getElem?_eq_some_iff.1 hj).1
    obtain ⟨c1, _, _⟩ := k3 j _ r (List.getElem?_eq_getElem hjl) hj
    rw [c1 (fun hfx => hf ⟨j, _, List.getElem?_eq_getElem hjl, hfx⟩)]

/-! ### The model that is returned -/

omit [LinearOrder K] [IsStrictOrderedRing K] in
/-- The predictor calculates the scores that a sequence of rules predicts, provided that their bodies cover the example if and only if its
feature values satisfy the conditions. -/
theorem predict_rules {numOutputs : Nat} {holds : Cond → Nat → Bool} (rules : List (Rule Cond K))
    (hf : ∀ rule ∈ rules, Update.Fits numOutputs rule.head) (body : List Cond → Body) (i : Nat) (row : List FVal)
    (hbody : ∀ rule ∈ rules, (body rule.conditions).coversDense row = .ok (rule.conditions.all (fun c => holds c i))) :
    applyRulesDense row (rules.map (fun rule => (⟨body rule.conditions, rule.head⟩ : Predictor.Rule K))) (List.replicate numOutputs 0) =
      .ok (predictedScores holds numOutputs rules i) := by
  have main : ∀ (rules : List (Rule Cond K)) (scores : List K), scores.length = numOutputs →
      (∀ rule ∈ rules, (body rule.conditions).coversDense row = .ok (rule.conditions.all (fun c => holds c i))) →
      (∀ rule ∈ rules, Update.Fits numOutputs rule.head) →
      applyRulesDense row (rules.map (fun rule => (⟨body rule.conditions, rule.head⟩ : Predictor.Rule K))) scores =
        .ok ((List.range numOutputs).map (fun j => scores.getD j 0 + (rules.map (fun rule => rule.contribution holds i j)).sum)) := by
    intro rules
    induction rules with
    | nil =>
      intro scores h1 _ _
      simp only [List.map_nil, applyRulesDense, List.sum_nil, add_zero]
      congr 1
      apply List.ext_getElem
      · simp [h1]
      · intro k h2 h3
        simp [List.getD_eq_getElem?_getD, List.getElem?_eq_getElem h2]
    | cons rule rules ih =>
      intro scores h1 h2 h3
      obtain ⟨s1, g1, g2, g3⟩ := applyRuleDense_spec row (⟨body rule.conditions, rule.head⟩ : Predictor.Rule K) scores _
        (h2 rule List.mem_cons_self) (by
          have := h3 rule List.mem_cons_self
          rw [h1]
          revert this
          cases rule.head with
          | complete values => exact fun h => Nat.le_of_eq h
          | partial_ entries => exact id)
      rw [List.map_cons]
      simp only [applyRulesDense]
      rw [g1, ok_bind, ih s1 (by omega) (fun r hr => h2 r (List.mem_cons_of_mem _ hr)) (fun r hr => h3 r (List.mem_cons_of_mem _ hr))]
      congr 1
      refine List.map_congr_left (fun j hj => ?_)
      have hx := List.getElem?_eq_getElem (by rw [h1]; exact List.mem_range.1 hj : j < scores.length)
      rw [List.map_cons, List.sum_cons, List.getD_eq_getElem?_getD, List.getD_eq_getElem?_getD, hx]
      have := g3 j _ hx
      rw [this]
      simp only [Option.getD_some, Rule.contribution]
      cases rule.conditions.all (fun c => holds c i) <;> simp [add_assoc]
  rw [main rules _ (by simp) hbody hf]
  congr 1
  unfold predictedScores
  refine List.map_congr_left (fun j hj => ?_)
  simp [List.getD_eq_getElem?_getD, List.mem_range.1 hj]

omit [Field K] [LinearOrder K] [IsStrictOrderedRing K] in
theorem removeLoop_mono {T : Type} (n : Nat) : ∀ (fuel extra : Nat) (b : IntermediateModelBuilder T) (r : Res (IntermediateModelBuilder T)),
    IntermediateModelBuilder.removeLoop n fuel b = some r → IntermediateModelBuilder.removeLoop n (fuel + extra) b = some r
  | 0, _, _, _, h => by cases h
  | fuel + 1, extra, b, r, h => by
    rw [show fuel + 1 + extra = (fuel + extra) + 1 by omega]
    unfold IntermediateModelBuilder.removeLoop at h ⊢
    split at h
    · rename_i hgt
      rw [if_pos hgt]
      cases hr : b.removeLastRule with
      | error e => rw [hr] at h; exact h
      | ok b' =>
        rw [hr] at h
        exact removeLoop_mono n fuel extra b' r h
    · rename_i hgt
      rw [if_neg hgt]
      exact h

omit [Field K] [LinearOrder K] [IsStrictOrderedRing K] in
/-- The phase that removes rules changes neither the statistics nor the rules that are used. -/
theorem removePhase_used {remove : Bool} {fuel : Nat} {st st' : State Cond K R S} (h : removePhase remove fuel st = Run.done st')
    (hlen : st.allRules.length + 1 < 2 ^ 32) (hused : st.builder.numUsedRules ≤ st.allRules.length) :
    st'.cells = st.cells ∧ (st'.builder.buildModel true).usedToList 0 = .ok (st.allRules.take
      (if st.builder.numUsedRules = 0 then st.allRules.length else st.builder.numUsedRules)) ∧
      (remove = true → (st'.builder.buildModel true).usedToList 0 = (st'.builder.buildModel true).toList 0) := by
  have hnum : st.builder.getNumRules = st.allRules.length := by
    unfold IntermediateModelBuilder.getNumRules State.allRules
    cases st.builder.defaultRule <;> simp [Nat.add_comm]
  have hlen' : st.builder.rules.length + 1 < 2 ^ 32 := by
    have : st.builder.rules.length ≤ st.allRules.length := by simp [State.allRules]
    omega
  have hu := IntermediateModelBuilder.usedToList_eq true st.builder 0 hlen' (by rw [hnum]; exact hused)
  simp only [if_true, hnum, RuleList.Spec.firstRules] at hu
  unfold removePhase at h
  cases remove with
  | false =>
    cases Run.done_inj h
    exact ⟨rfl, hu, fun h' => by cases h'⟩
  | true =>
    simp only at h
    obtain ⟨b', k1, k2, k3⟩ := IntermediateModelBuilder.removeUnusedRules_keeps_used st.builder hlen' (by rw [hnum]; exact hused)
      (fuel + (st.builder.rules.length + 1)) (by omega)
    cases hr : st.builder.removeUnusedRules fuel with
    | none => rw [hr] at h; exact absurd h.symm Run.done_ne_unfinished
    | some r =>
      have hsame : st.builder.removeUnusedRules (fuel + (st.builder.rules.length + 1)) = some r := by
        unfold IntermediateModelBuilder.removeUnusedRules at hr ⊢
        split at hr
        · rename_i hpos
          rw [if_pos hpos]
          cases hloop : IntermediateModelBuilder.removeLoop st.builder.numUsedRules fuel st.builder with
          | none => rw [hloop] at hr; cases hr
          | some x =>
            rw [removeLoop_mono _ _ _ _ _ hloop]
            rw [hloop] at hr
            exact hr
        · rename_i hpos
          rw [if_neg hpos]
          exact hr
      rw [k1] at hsame
      cases hsame
      rw [hr] at h
      cases Run.done_inj h
      exact ⟨rfl, by rw [k2]; exact hu, fun _ => k3 true⟩

/-- The result of training if sequential post-optimisation is not used. -/
theorem fit_model {t : Setup σ Cond K Q R S} {post : PostConfig σ Cond K Q R S} (hseq : post.sequential = none) {fuel : Nat}
    {cells : List (Update.Cell R S)} {st : State Cond K R S} (h : t.induceRules fuel cells = Run.done st) {r : Fitted Cond K R S}
    (hr : t.fit post fuel cells = Run.done r) (hlen : st.allRules.length + 1 < 2 ^ 32)
    (hused : st.builder.numUsedRules ≤ st.allRules.length) :
    r.cells = st.cells ∧ r.model.usedToList 0 = .ok (st.allRules.take
      (if st.builder.numUsedRules = 0 then st.allRules.length else st.builder.numUsedRules)) ∧
      (post.removeUnusedRules = true → r.model.usedToList 0 = r.model.toList 0) := by
  unfold Setup.fit at hr
  rw [h, Run.done_bind] at hr
  obtain ⟨st', h1, hr⟩ := run_bind_done hr
  unfold optimize at h1
  obtain ⟨st1, h2, h1⟩ := run_bind_done h1
  unfold sequentialPhase at h1
  rw [hseq] at h1
  cases Run.done_inj h1
  cases Run.done_inj hr
  exact removePhase_used h2 hlen hused

/-- **C76**, in terms of the model that is returned: it uses the first `k` rules that have been learned, where `k` is the best number of
rules (or all of them, if post-pruning does not take any number into account), the predictor calculates the sum of the predictions of these
rules for the training examples, and if unused rules are removed, the model contains no other rules. -/
theorem fit_post_pruning {t : Setup σ Cond K Q R S} {numOutputs : Nat} {holds : Cond → Nat → Bool} {Valid : R → Prop}
    {value : R → Nat → K} {Consistent : Nat → R → S → Prop} (ht : t.Ok numOutputs holds Valid value Consistent)
    {loss : Nat → List K → K} (he : t.environment.Ok t.numExamples numOutputs Valid value loss) {minRules interval : Nat}
    (hm : 1 ≤ minRules) (hi : 1 ≤ interval) (hp : t.stopping.globalPruning = some (.post (PostPruning.init minRules interval)))
    {cells : List (Update.Cell R S)} (h0 : Initial t.numExamples numOutputs Valid value Consistent cells) {fuel : Nat}
    {st : State Cond K R S} (h : t.induceRules fuel cells = Run.done st) {post : PostConfig σ Cond K Q R S} (hseq : post.sequential = none)
    {r : Fitted Cond K R S} (hr : t.fit post fuel cells = Run.done r) (hlen : st.allRules.length + 1 < 2 ^ 32) :
    ∃ k, r.model.usedToList 0 = .ok (st.allRules.take k) ∧
      (post.removeUnusedRules = true → r.model.toList 0 = .ok (st.allRules.take k)) ∧
      ((k = st.allRules.length ∧ ∀ m, ¬ Candidate minRules interval st.allRules.length m) ∨
        IsBest (Candidate minRules interval st.allRules.length)
          (fun m => averageLoss loss holds numOutputs t.environment.indices (st.allRules.take m)) k) ∧
      ∀ (body : List Cond → Body) (i : Nat) (row : List FVal), (∀ rule ∈ st.allRules.take k,
          (body rule.conditions).coversDense row = .ok (rule.conditions.all (fun c => holds c i))) →
        applyRulesDense row ((st.allRules.take k).map (fun rule => (⟨body rule.conditions, rule.head⟩ : Predictor.Rule K)))
          (List.replicate numOutputs 0) = .ok (predictedScores holds numOutputs (st.allRules.take k) i) := by
  have hbest := post_pruning_best ht he hm hi hp h0 h
  have hused : st.builder.numUsedRules ≤ st.allRules.length := by
    rcases hbest with ⟨h1, _⟩ | ⟨h1, _⟩
    · omega
    · exact h1.2.1
  obtain ⟨_, g2, g3⟩ := fit_model hseq h hr hlen hused
  have hfits : ∀ rule ∈ st.allRules, Update.Fits numOutputs rule.head := by
    obtain ⟨first, hist, _, f2, _, f4, f5, _, _⟩ := induceRules_run ht h0 h
    rw [List.getLast?_eq_getElem?] at f4
    have := (f5 _ _ f4).2.2.1
    have hpos : 0 < hist.length := (Nat.pos_of_ne_zero (by
      intro hz
      have := (List.getElem?_eq_some_iff.1 f4).1
      omega))
    rw [List.take_of_length_le (by omega)] at this
    exact this
  refine ⟨_, g2, fun hrem => by rw [← g3 hrem]; exact g2, ?_, ?_⟩
  · rcases hbest with ⟨h1, h2⟩ | h1
    · left
      rw [if_pos h1]
      exact ⟨rfl, h2⟩
    · right
      rw [if_neg (by have := h1.1.1; omega)]
      exact h1
  · intro body i row hbody
    exact predict_rules _ (fun rule hrule => hfits rule (List.mem_of_mem_take hrule)) body i row hbody

/-! ### C77: the scores probability calibration models are fitted to -/

/-- The scores that remain after training, to which probability calibration models are fitted, are those of all rules that have been
learned. -/
theorem final_scores {t : Setup σ Cond K Q R S} {numOutputs : Nat} {holds : Cond → Nat → Bool} {Valid : R → Prop}
    {value : R → Nat → K} {Consistent : Nat → R → S → Prop} (ht : t.Ok numOutputs holds Valid value Consistent)
    {cells : List (Update.Cell R S)} (h0 : Initial t.numExamples numOutputs Valid value Consistent cells) {fuel : Nat}
    {st : State Cond K R S} (h : t.induceRules fuel cells = Run.done st) :
    Trained t.numExamples numOutputs holds Valid value Consistent st.allRules st.cells := by
  obtain ⟨first, hist, _, f2, _, f4, f5, _, _⟩ := induceRules_run ht h0 h
  rw [List.getLast?_eq_getElem?] at f4
  have hpos := (List.getElem?_eq_some_iff.1 f4).1
  have := f5 _ _ f4
  rwa [List.take_of_length_le (by omega)] at this

/-- What is assumed of sequential post-optimisation: the order in which threads revert predictions, the calls to `induceRule`, rules are
not pruned, and a replacement is found for each rule. -/
structure PostConfig.Ok (post : PostConfig σ Cond K Q R S) (l : Learner σ Cond K Q R S) (numExamples numOutputs fuel : Nat) : Prop where
  schedule : ∀ x, post.sequential = some x → ∀ k call, Interleaving (Update.Call.tasks l.updates call numExamples) (x.2.1 k call)
  rounds : ∀ x, post.sequential = some x → ∀ k, (x.2.2 k).Ok l numExamples numOutputs
  unpruned : ∀ x, post.sequential = some x → ∀ k, (x.2.2 k).hasZeroWeights = false ∨ l.pruning = none
  found : ∀ x, post.sequential = some x → ∀ k cells, l.induceRule (x.2.2 k) fuel cells ≠ Run.done none

/-- **C77**, what holds of it: without global pruning, the scores that remain after training, to which probability calibration models are
fitted, are those the returned model predicts for the training examples. Missing is the case in which global pruning is used, for which this
is false, see `calibration_ignores_pruning`. -/
theorem calibration_scores_partial {t : Setup σ Cond K Q R S} {numOutputs : Nat} {holds : Cond → Nat → Bool} {Valid : R → Prop}
    {value : R → Nat → K} {Consistent : Nat → R → S → Prop} (ht : t.Ok numOutputs holds Valid value Consistent)
    (hp : t.stopping.globalPruning = none) {cells : List (Update.Cell R S)}
    (h0 : Initial t.numExamples numOutputs Valid value Consistent cells) {fuel : Nat} {post : PostConfig σ Cond K Q R S}
    (hpost : post.Ok t.learner t.numExamples numOutputs fuel) {r : Fitted Cond K R S} (hr : t.fit post fuel cells = Run.done r)
    (hlen : r.model.rules.length + 2 < 2 ^ 32) :
    ∃ used, r.model.usedToList 0 = .ok used ∧ r.cells.length = t.numExamples ∧
      ∀ (i : Nat) (c : Update.Cell R S), r.cells[i]? = some c →
        (List.range numOutputs).map (value c.scores) = predictedScores holds numOutputs used i ∧
        ∀ (body : List Cond → Body) (row : List FVal),
          (∀ rule ∈ used, (body rule.conditions).coversDense row = .ok (rule.conditions.all (fun c => holds c i))) →
          applyRulesDense row (used.map (fun rule => (⟨body rule.conditions, rule.head⟩ : Predictor.Rule K)))
            (List.replicate numOutputs 0) = .ok ((List.range numOutputs).map (value c.scores)) := by
  unfold Setup.fit at hr
  obtain ⟨st, h, hr⟩ := run_bind_done hr
  obtain ⟨st2, h1, hr⟩ := run_bind_done hr
  unfold optimize at h1
  obtain ⟨st1, h2, h3⟩ := run_bind_done h1
  clear h1
  cases Run.done_inj hr
  obtain ⟨_, _, _, _, _, _, _, hu, _⟩ := induceRules_run ht h0 h
  have hused := hu hp
  have htr := final_scores ht h0 h
  -- nothing is removed
  have hst1 : st1 = st := by
    unfold removePhase at h2
    cases hb : post.removeUnusedRules with
    | false =>
      rw [hb] at h2
      exact (Run.done_inj h2).symm
    | true =>
      rw [hb] at h2
      simp only [IntermediateModelBuilder.removeUnusedRules, hused, Nat.lt_irrefl, gt_iff_lt, if_false] at h2
      cases Run.done_inj h2
      rfl
  subst hst1
  have hfinal : st2.builder.numUsedRules = 0 ∧
      Trained t.numExamples numOutputs holds Valid value Consistent st2.allRules st2.cells := by
    unfold sequentialPhase at h3
    cases hs : post.sequential with
    | none =>
      rw [hs] at h3
      cases Run.done_inj h3
      exact ⟨hused, htr⟩
    | some x =>
      obtain ⟨numIterations, schedule, rounds⟩ := x
      rw [hs] at h3
      simp only at h3
      obtain ⟨st', g1, g2⟩ := run_bind_done h3
      cases Run.done_inj g2
      refine ⟨hused, ?_⟩
      have := optimizeModel_partial ht.learner (hpost.schedule _ hs) (hpost.rounds _ hs) (hpost.unpruned _ hs) (hpost.found _ hs)
        (base := fun i j => (st1.builder.defaultRule.toList.map (fun rule => rule.contribution holds i j)).sum)
        (st := ⟨st1.cells, st1.builder.rules⟩) htr.1 ⟨htr.2.1, fun rule hrule => htr.2.2.1 rule (List.mem_append_right _ hrule), fun i c hc j hj => by
          have := htr.2.2.2 i c hc j hj
          rw [zero_add] at this
          simp only [State.allRules, List.map_append, List.sum_append] at this
          exact this⟩ g1
      obtain ⟨k1, _, k3⟩ := this
      refine ⟨k1, k3.1, ?_, ?_⟩
      · intro rule hrule
        rcases List.mem_append.1 hrule with hrule | hrule
        · exact htr.2.2.1 rule (List.mem_append_left _ hrule)
        · exact k3.2.1 rule hrule
      · intro i c hc j hj
        rw [k3.2.2 i c hc j hj, zero_add]
        simp only [State.allRules, List.map_append, List.sum_append]
  obtain ⟨hz, htr2⟩ := hfinal
  have hrules : (st2.builder.buildModel true).rules = st2.builder.rules := by
    rw [IntermediateModelBuilder.buildModel_eq]
  have hl : st2.builder.rules.length + 2 < 2 ^ 32 := by rw [← hrules]; exact hlen
  have hall : st2.allRules.length + 1 < 2 ^ 32 := by
    unfold State.allRules
    rw [List.length_append]
    have : st2.builder.defaultRule.toList.length ≤ 1 := by cases st2.builder.defaultRule <;> simp
    omega
  obtain ⟨_, m2, _⟩ := removePhase_used (remove := false) (fuel := fuel) (st := st2) rfl hall (by rw [hz]; exact Nat.zero_le _)
  rw [hz, if_pos rfl, List.take_length] at m2
  refine ⟨st2.allRules, m2, htr2.1, fun i c hc => ⟨trained_scores htr2 hc, fun body row hbody => ?_⟩⟩
  rw [predict_rules _ htr2.2.2.1 body i row hbody, trained_scores htr2 hc]

/-! ### Examples -/

/-- Subspaces and the rest of the learner are those of `Induction.exLearner` without pruning, the scores are rational numbers. -/
def exLearner : Learner (List Nat) (List Nat) ℚ Int (List ℚ) Unit where
  subspaces := exSubspaces
  updates := ⟨Update.changeDense (· + ·), Update.changeDense (· - ·), fun _ _ _ _ => .ok ()⟩
  better := lower
  minQuality := 0
  sortHead := id
  config := ⟨0, 1, 0⟩
  pruning := none
  recalculate := none
  postProcess := id

/-- A call to `induceRule` for which there is a single candidate. -/
def exRound (condition : List Nat) (score : ℚ) : Round (List Nat) (List Nat) ℚ Int (List ℚ) Unit where
  search _ := ⟨fun _ _ _ => .ok [[⟨⟨condition, 2, .complete [score]⟩, -1⟩]], fun _ => sequentially⟩
  hasZeroWeights := true
  applySchedule call := sequentially (call.tasks exLearner.updates 3)

/-- The desired score is 3 for the examples 0 and 1 and 1 for the example 2. -/
def exTarget (i : Nat) : ℚ := if i = 2 then 1 else 3

/-- There are three examples. The default rule predicts 1. The first rule covers the examples 0 and 1 and predicts 2. The second one covers
the example 0 and predicts 5. The examples 0 and 2 are held out, the measure is the squared error. -/
def exSetup (pruning : Option (CriterionState ℚ)) : Setup (List Nat) (List Nat) ℚ Int (List ℚ) Unit where
  learner := exLearner
  numExamples := 3
  useDefaultRule := true
  defaultHead _ := .ok (.complete [1])
  rounds n := if n = 1 then exRound [0, 1] 2 else exRound [0] 5
  stopping := ⟨some 3, some 1000, pruning⟩
  environment := ⟨fun n => n, [0, 2], fun i row => .ok ((Update.denseValue row 0 - exTarget i) * (Update.denseValue row 0 - exTarget i))⟩

def exCells : List (Update.Cell (List ℚ) Unit) := [⟨[0], ()⟩, ⟨[0], ()⟩, ⟨[0], ()⟩]

theorem exRound_ok (condition : List Nat) (score : ℚ) : (exRound condition score).Ok exLearner 3 1 where
  search _ _ _ := sequentially_interleaving _
  heads cells n s o candidates h := by
    cases h
    intro x hx
    simp only [List.flatten_cons, List.flatten_nil, List.append_nil, List.mem_cons, List.not_mem_nil, or_false] at hx
    subst hx
    rfl
  applied call := sequentially_interleaving _

theorem exSetup_ok (pruning : Option (CriterionState ℚ)) : (exSetup pruning).Ok 1 (fun c e => c.contains e)
    (fun r : List ℚ => r.length = 1) Update.denseValue (fun _ _ _ => True) where
  learner := {
    better := lower_strictWeak
    subspaces := exSubspaces_laws
    updates := Update.dense_laws 1 _ _ (fun _ _ _ _ _ _ _ _ _ _ => ⟨(), rfl, trivial⟩)
    postProcess := fun _ h => h
    recalculate := fun _ h => by cases h }
  rounds n := by
    show (if n = 1 then exRound [0, 1] 2 else exRound [0] 5).Ok exLearner 3 1
    split <;> exact exRound_ok _ _
  defaultHead _ h hh := by cases hh; rfl
  unpruned _ := Or.inr rfl

theorem exEnvironment_ok (pruning : Option (CriterionState ℚ)) : (exSetup pruning).environment.Ok 3 1 (fun r : List ℚ => r.length = 1)
    Update.denseValue (fun i l => (l.headD 0 - exTarget i) * (l.headD 0 - exTarget i)) where
  measure i r _ := rfl
  indices i hi := by
    simp only [exSetup, List.mem_cons, List.not_mem_nil, or_false] at hi
    omega

theorem exCells_initial : Initial 3 1 (fun r : List ℚ => r.length = 1) Update.denseValue (fun _ _ _ => True) exCells := by
  refine ⟨rfl, fun i c hc => ?_⟩
  have : c = ⟨[0], ()⟩ := by
    have := List.mem_of_getElem? hc
    simpa [exCells] using this
  subst this
  exact ⟨⟨rfl, trivial⟩, fun j hj => by
    have : j = 0 := by omega
    subst this
    rfl⟩

/-- What the examples show of a result: the scores that remain, the conditions of the rules, their scores and the number of used rules. -/
def exSummary (r : Fitted (List Nat) ℚ (List ℚ) Unit) : List ℚ × List (List (List Nat)) × List ℚ × Nat :=
  (r.cells.flatMap (fun c => c.scores), r.model.rules.map (fun rule => rule.conditions), r.model.rules.flatMap (fun rule => match rule.head with
    | .complete values => values
    | .partial_ _ => []), r.model.numUsedRules)

/-- Without global pruning, the model has two rules besides the default rule. -/
example : ((exSetup none).fit ⟨true, none⟩ 9 exCells >>= fun r => Run.done (exSummary r)) =
    Run.done ([8, 3, 1], [[[0, 1]], [[0]]], [2, 5], 0) := by decide +kernel

/-- With post-pruning, the second rule is not used. -/
example : ((exSetup (some (.post (PostPruning.init 1 1)))).fit ⟨false, none⟩ 9 exCells >>= fun r => Run.done (exSummary r)) =
    Run.done ([8, 3, 1], [[[0, 1]], [[0]]], [2, 5], 2) := by decide +kernel

/-- The hypotheses of `fit_post_pruning` hold in this case. -/
example (fuel : Nat) (st : State (List Nat) ℚ (List ℚ) Unit)
    (h : (exSetup (some (.post (PostPruning.init 1 1)))).induceRules fuel exCells = Run.done st) :=
  post_pruning_best (exSetup_ok _) (exEnvironment_ok _) (Nat.le_refl 1) (Nat.le_refl 1) rfl exCells_initial h

/-- Pre-pruning, which compares the last average loss to the one before it. -/
def exPre : PreParams ℚ := ⟨.min, true, 1, 1, 1, 1, 1, 0, 0⟩

example (fuel : Nat) (st : State (List Nat) ℚ (List ℚ) Unit)
    (h : (exSetup (some (.pre (PrePruning.init .min (some true) 1 1 1 1 1 0)))).induceRules fuel exCells = Run.done st) :=
  pre_pruning_best_partial (exSetup_ok _) (exEnvironment_ok _) exPre
    ⟨by decide, by decide, by decide, by decide, by decide, by decide⟩ rfl
    exCells_initial h

/-- Sequential post-optimisation finds a replacement for each rule, i.e., the hypotheses of `calibration_scores_partial` hold. -/
def exPost : PostConfig (List Nat) (List Nat) ℚ Int (List ℚ) Unit :=
  ⟨true, some (1, fun _ call => sequentially (call.tasks exLearner.updates 3), fun _ => exRound [0] 5)⟩

theorem exPost_ok : exPost.Ok exLearner 3 1 9 where
  schedule x hx k call := by cases hx; exact sequentially_interleaving _
  rounds x hx k := by cases hx; exact exRound_ok _ _
  unpruned x hx k := Or.inr rfl
  found x hx k cells := by
    cases hx
    intro h
    unfold Learner.induceRule at h
    obtain ⟨g, g1, g2⟩ := run_bind_done h
    have hg : (growRule exLearner.subspaces exLearner.better exLearner.sortHead exLearner.config ((exRound [0] 5).search []) exLearner.minQuality
        9 >>= fun g => Run.done g.head.isSome) = Run.done true := by decide +kernel
    have g1' : growRule exLearner.subspaces exLearner.better exLearner.sortHead exLearner.config ((exRound [0] 5).search [])
      exLearner.minQuality 9 = Run.done g := g1
    rw [g1', Run.done_bind] at hg
    have hs := Run.done_inj hg
    cases hh : g.head with
    | none => rw [hh] at hs; cases hs
    | some head =>
      rw [hh] at g2
      obtain ⟨r, _, g3⟩ := run_bind_done g2
      cases Run.done_inj g3

example (r : Fitted (List Nat) ℚ (List ℚ) Unit) (hr : (exSetup none).fit exPost 9 exCells = Run.done r)
    (hlen : r.model.rules.length + 2 < 2 ^ 32) :=
  calibration_scores_partial (exSetup_ok _) rfl exCells_initial exPost_ok hr hlen

/-- Both rules are replaced. -/
example : ((exSetup none).fit exPost 9 exCells >>= fun r => Run.done (exSummary r)) =
    Run.done ([11, 1, 1], [[[0]], [[0]]], [5, 5], 0) := by decide +kernel

/-- Negation of **C77**: if global pruning is used, probability calibration models are fitted to scores that are not those of the model.
Here, post-pruning removes the last rule, such that the model predicts 3 for the example 0. However, the score that remains after training
is 8, because the prediction of the removed rule is not reverted. -/
theorem calibration_ignores_pruning :
    ((exSetup (some (.post (PostPruning.init 1 1)))).fit ⟨true, none⟩ 9 exCells >>= fun r => Run.done (exSummary r)) =
      Run.done ([8, 3, 1], [[[0, 1]]], [2], 0) ∧
    predictedScores (fun (c : List Nat) e => c.contains e) 1 [⟨[], .complete [1]⟩, ⟨[[0, 1]], .complete [(2 : ℚ)]⟩] 0 = [3] := by
  constructor <;> decide +kernel

end MLRL.Training
