import Verif.Spec.ConfigSlots

/-!
# Invariants of the configuration of a rule learner
-/

namespace MLRL.ConfigSlots

/-- The pointers a learner relies on. -/
def Learner.used : Learner → List Slot
  | .boomerClassifier =>
    [.rng, .assemblage, .defaultRule, .induction, .postProcessor, .featureBinning, .outputSampling,
      .classificationInstanceSampling, .featureSampling, .classificationPartitionSampling, .rulePruning,
      .parallelRefinement, .refinement, .parallelUpdate, .parallelPrediction, .sizeStopping, .timeStopping,
      .globalPruning, .postOptimization, .marginalCalibration, .jointCalibration, .scorePredictor,
      .probabilityPredictor, .binaryPredictor, .unusedRuleRemoval, .head, .classificationStatistics,
      .classificationLoss, .l1, .l2, .labelBinning]
  | .boomerRegressor =>
    [.rng, .assemblage, .defaultRule, .induction, .postProcessor, .featureBinning, .outputSampling,
      .regressionInstanceSampling, .featureSampling, .regressionPartitionSampling, .rulePruning,
      .parallelRefinement, .refinement, .parallelUpdate, .parallelPrediction, .sizeStopping, .timeStopping,
      .globalPruning, .postOptimization, .marginalCalibration, .jointCalibration, .scorePredictor,
      .unusedRuleRemoval, .head, .regressionStatistics, .regressionLoss, .l1, .l2, .labelBinning,
      -- set together with the pointers for regression problems
      .classificationStatistics, .classificationLoss]
  | .secoClassifier =>
    [.rng, .assemblage, .defaultRule, .induction, .postProcessor, .featureBinning, .outputSampling,
      .classificationInstanceSampling, .featureSampling, .classificationPartitionSampling, .rulePruning,
      .parallelRefinement, .refinement, .parallelUpdate, .parallelPrediction, .sizeStopping, .timeStopping,
      .globalPruning, .postOptimization, .marginalCalibration, .jointCalibration, .scorePredictor,
      .probabilityPredictor, .binaryPredictor, .unusedRuleRemoval, .head, .coverageStopping, .heuristic,
      .pruningHeuristic, .lift]

/-- Whether a property is backed by a pointer the learner relies on. -/
def Learner.supports (l : Learner) : Ref → Bool
  | .one s => decide (s ∈ l.used)
  | .either s s' => decide (s ∈ l.used) || decide (s' ∈ l.used)

theorem run_append (cfg : Config) (a b : List Call) : cfg.run (a ++ b) = (cfg.run a).run b := by
  simp [Config.run, List.foldl_append]

/-- A single assignment leaves other pointers untouched. -/
theorem set_other {cfg : Config} {s s' : Slot} {p : Option Part} (h : s' ≠ s) : cfg.set s p s' = cfg s' := by
  simp [Config.set, h]

theorem set_same (cfg : Config) (s : Slot) (p : Option Part) : cfg.set s p s = p := by
  simp [Config.set]

/-- The pointers of a configuration after a sequence of assignments. -/
theorem foldl_set_other (as : List (Slot × Option Part)) (cfg : Config) (s : Slot) (h : ∀ a ∈ as, a.1 ≠ s) :
    (as.foldl (fun cfg a => cfg.set a.1 a.2) cfg) s = cfg s := by
  induction as generalizing cfg with
  | nil => rfl
  | cons a as ih =>
    rw [List.foldl_cons, ih _ fun b hb => h b (List.mem_cons_of_mem _ hb),
      set_other (h a List.mem_cons_self).symm]

theorem apply_other (cfg : Config) (c : Call) (s : Slot) (h : ∀ a ∈ c.assignments, a.1 ≠ s) :
    cfg.apply c s = cfg s :=
  foldl_set_other _ _ _ h

/-- A predicate that holds for the old value and for all assigned values holds for the new value. -/
theorem foldl_set_ind (Q : Slot → Option Part → Prop) (as : List (Slot × Option Part)) (cfg : Config)
    (h0 : ∀ s, Q s (cfg s)) (h : ∀ a ∈ as, Q a.1 a.2) (s : Slot) :
    Q s ((as.foldl (fun cfg a => cfg.set a.1 a.2) cfg) s) := by
  induction as generalizing cfg with
  | nil => exact h0 s
  | cons a as ih =>
    rw [List.foldl_cons]
    refine ih _ (fun s' => ?_) fun b hb => h b (List.mem_cons_of_mem _ hb)
    by_cases hs : s' = a.1
    · subst hs
      rw [set_same]
      exact h a List.mem_cons_self
    · rw [set_other hs]
      exact h0 s'

theorem run_ind (Q : Slot → Option Part → Prop) (calls : List Call) (cfg : Config) (h0 : ∀ s, Q s (cfg s))
    (h : ∀ c ∈ calls, ∀ a ∈ c.assignments, Q a.1 a.2) (s : Slot) : Q s (cfg.run calls s) := by
  induction calls generalizing cfg with
  | nil => exact h0 s
  | cons c calls ih =>
    exact ih (cfg.apply c) (fun s' => foldl_set_ind Q _ _ h0 (h c List.mem_cons_self) s')
      fun d hd => h d (List.mem_cons_of_mem _ hd)

/-- A pointer holds a part that only consults supported properties, or it is a null pointer the learner does not need. -/
def Fine (l : Learner) (s : Slot) : Option Part → Prop
  | some p => ∀ r ∈ p.refs l.task, l.supports r = true
  | none => s ∉ l.used

instance (l : Learner) (s : Slot) : (p : Option Part) → Decidable (Fine l s p)
  | some p => inferInstanceAs (Decidable (∀ r ∈ p.refs l.task, l.supports r = true))
  | none => inferInstanceAs (Decidable (s ∉ l.used))

theorem offered_fine (l : Learner) : ∀ c ∈ l.offered, ∀ a ∈ c.assignments, Fine l a.1 a.2 := by
  cases l <;> decide +kernel

theorem defaults_offered (l : Learner) : ∀ c ∈ l.defaults, c ∈ l.offered := by
  cases l <;> decide +kernel

theorem create_fine (l : Learner) (s : Slot) : Fine l s (l.create s) := by
  cases l <;> cases s <;> decide +kernel

theorem roots_supported (l : Learner) : ∀ r ∈ l.roots, l.supports r = true := by
  cases l <;> decide +kernel

/-- A supported property of a fine configuration refers to a part that only consults supported properties. -/
theorem get_of_supports {l : Learner} {cfg : Config} (h : ∀ s, Fine l s (cfg s)) {r : Ref} (hr : l.supports r = true) :
    ∃ p, cfg.get r = .ok p := by
  cases r with
  | one s =>
    have hs : s ∈ l.used := by simpa [Learner.supports] using hr
    have := h s
    cases hc : cfg s with
    | none => rw [hc] at this; exact absurd hs this
    | some p => exact ⟨p, by simp [Config.get, hc]⟩
  | either s s' =>
    have hs : s ∈ l.used ∨ s' ∈ l.used := by simpa [Learner.supports] using hr
    cases hc : cfg s with
    | some p => exact ⟨p, by simp [Config.get, hc]⟩
    | none =>
      cases hc' : cfg s' with
      | some p => exact ⟨p, by simp [Config.get, hc, hc']⟩
      | none =>
        have h1 := h s
        have h2 := h s'
        rw [hc] at h1
        rw [hc'] at h2
        exact absurd hs (by simp only [not_or]; exact ⟨h1, h2⟩)

theorem refs_supported {l : Learner} {cfg : Config} (h : ∀ s, Fine l s (cfg s)) {r : Ref} {p : Part}
    (hp : cfg.get r = .ok p) : ∀ r' ∈ p.refs l.task, l.supports r' = true := by
  have key : ∀ s q, cfg s = some q → ∀ r' ∈ q.refs l.task, l.supports r' = true := by
    intro s q hq
    have := h s
    rw [hq] at this
    exact this
  cases r with
  | one s =>
    cases hc : cfg s with
    | none => simp [Config.get, hc] at hp
    | some q =>
      simp only [Config.get, hc, Except.ok.injEq] at hp
      exact hp ▸ key s q hc
  | either s s' =>
    cases hc : cfg s with
    | some q =>
      simp only [Config.get, hc, Except.ok.injEq] at hp
      exact hp ▸ key s q hc
    | none =>
      cases hc' : cfg s' with
      | none => simp [Config.get, hc, hc'] at hp
      | some q =>
        simp only [Config.get, hc, hc', Except.ok.injEq] at hp
        exact hp ▸ key s' q hc'

/-! ### The last selection -/

/-- The pointer that is preferred by a property. -/
def Ref.first : Ref → Slot
  | .one s | .either s _ => s

/-- The pointers a property is backed by. -/
def Ref.slots : Ref → List Slot
  | .one s => [s]
  | .either s s' => [s, s']

theorem get_congr {cfg cfg' : Config} {r : Ref} (h : ∀ s ∈ r.slots, cfg s = cfg' s) : cfg.get r = cfg'.get r := by
  cases r with
  | one s => simp [Config.get, h s (by simp [Ref.slots])]
  | either s s' => simp [Config.get, h s (by simp [Ref.slots]), h s' (by simp [Ref.slots])]

theorem get_of_first {cfg : Config} {r : Ref} {p : Part} (h : cfg r.first = some p) : cfg.get r = .ok p := by
  cases r with
  | one s =>
    have h' : cfg s = some p := h
    simp [Config.get, h']
  | either s s' =>
    have h' : cfg s = some p := h
    simp [Config.get, h']

/-- If each pointer is assigned at most once, it holds the assigned value afterwards. -/
theorem foldl_set_mem (as : List (Slot × Option Part)) (cfg : Config) (hn : (as.map Prod.fst).Nodup) (s : Slot)
    (p : Option Part) (h : (s, p) ∈ as) : (as.foldl (fun cfg a => cfg.set a.1 a.2) cfg) s = p := by
  induction as generalizing cfg with
  | nil => simp at h
  | cons a as ih =>
    rw [List.map_cons, List.nodup_cons] at hn
    rw [List.foldl_cons]
    rcases List.mem_cons.1 h with rfl | h
    · rw [foldl_set_other as _ s fun b hb he => hn.1 (List.mem_map.2 ⟨b, hb, he⟩), set_same]
    · exact ih _ hn.2 h

theorem assignments_nodup (c : Call) : (c.assignments.map Prod.fst).Nodup := by
  cases c <;> decide

theorem offered_selects (l : Learner) : ∀ c ∈ l.offered, ∀ r ∈ c.aspect.refs l.task,
    (r.first, some c.selects) ∈ c.assignments := by
  cases l <;> decide +kernel

theorem offered_others (l : Learner) (a : Aspect) : ∀ c ∈ l.offered, c.aspect ≠ a → ∀ r ∈ a.refs l.task,
    ∀ s ∈ r.slots, ∀ x ∈ c.assignments, x.1 ≠ s := by
  cases l <;> cases a <;> decide +kernel

theorem get_apply {l : Learner} {c : Call} (hc : c ∈ l.offered) (cfg : Config) (a : Aspect) {r : Ref}
    (hr : r ∈ a.refs l.task) :
    (cfg.apply c).get r = if c.aspect = a then .ok c.selects else cfg.get r := by
  split
  · rename_i ha
    subst ha
    exact get_of_first (foldl_set_mem _ _ (assignments_nodup c) _ _ (offered_selects l c hc r hr))
  · rename_i ha
    exact get_congr fun s hs => apply_other _ _ _ (offered_others l a c hc ha r hr s hs)

theorem get_run {l : Learner} (calls : List Call) (hc : ∀ c ∈ calls, c ∈ l.offered) (cfg : Config) (a : Aspect) {r : Ref}
    (hr : r ∈ a.refs l.task) :
    (cfg.run calls).get r = match selection a calls with
      | some p => .ok p
      | none => cfg.get r := by
  induction calls generalizing cfg with
  | nil => rfl
  | cons c calls ih =>
    have h1 : cfg.run (c :: calls) = (cfg.apply c).run calls := rfl
    rw [h1, ih (fun d hd => hc d (List.mem_cons_of_mem _ hd)), get_apply (hc c List.mem_cons_self) cfg a hr]
    unfold selection
    by_cases ha : c.aspect = a
    · rw [if_pos ha, List.filter_cons_of_pos (by simpa using ha), List.map_cons, List.getLast?_cons]
      cases ((calls.filter fun c => decide (c.aspect = a)).map Call.selects).getLast? <;> rfl
    · rw [if_neg ha, List.filter_cons_of_neg (by simpa using ha)]

end MLRL.ConfigSlots
