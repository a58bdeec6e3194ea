import Verif.Spec.Body

namespace MLRL

open Body.Spec

/-! ### condition lists -/

/-- The counters agree with the stored conditions. -/
def ConditionList.Consistent (l : ConditionList) : Prop :=
  ∀ k, l.numPerComparator k = l.conditions.countP (fun c => decide (c.comparator = k))

theorem ConditionList.consistent_init : ConditionList.init.Consistent := fun _ => rfl

theorem ConditionList.Consistent.add {l : ConditionList} (h : l.Consistent) (c : Condition) :
    (l.addCondition c).Consistent := by
  intro k
  simp only [addCondition, List.countP_append, List.countP_singleton, ← h k]
  by_cases hk : k = c.comparator
  · simp [hk]
  · have : ¬ c.comparator = k := fun e => hk e.symm
    simp [hk, this]

theorem ConditionList.Consistent.removeLast {l : ConditionList} (h : l.Consistent) (hne : l.conditions ≠ []) :
    ∃ l', l.removeLastCondition = .ok l' ∧ l'.conditions = l.conditions.dropLast ∧ l'.Consistent := by
  have hl : l.conditions.getLast? = some (l.conditions.getLast hne) := List.getLast?_eq_some_getLast hne
  unfold removeLastCondition
  rw [hl]
  refine ⟨_, rfl, rfl, ?_⟩
  intro k
  have hk := h k
  have hsplit := List.dropLast_concat_getLast hne
  rw [← hsplit, List.countP_append, List.countP_singleton] at hk
  simp only
  by_cases hc : k = (l.conditions.getLast hne).comparator
  · simp only [hc, if_true]
    rw [← hc, hk, ← hc]
    simp
  · have : ¬ (l.conditions.getLast hne).comparator = k := fun e => hc e.symm
    simp only [hc, if_false, hk, this, decide_false, Bool.false_eq_true, Nat.add_zero]

theorem ConditionList.applyCalls_spec (calls : List Call) (l : ConditionList) (h : l.Consistent) :
    match stack calls l.conditions with
    | none => applyCalls calls l = .error .outOfBounds
    | some conds => ∃ l', applyCalls calls l = .ok l' ∧ l'.conditions = conds ∧ l'.Consistent := by
  induction calls generalizing l with
  | nil => exact ⟨l, rfl, rfl, h⟩
  | cons call calls ih =>
    cases call with
    | add c => exact ih (l.addCondition c) (h.add c)
    | removeLast =>
      unfold stack
      by_cases hne : l.conditions = []
      · simp only [hne, if_true]
        unfold applyCalls removeLastCondition
        rw [hne]
        rfl
      · obtain ⟨l', h1, h2, h3⟩ := h.removeLast hne
        have := ih l' h3
        simp only [hne, if_false]
        unfold applyCalls
        rw [h1, ok_bind]
        rw [h2] at this
        exact this

theorem checkThreshold_of_wellTyped {c : Condition} (h : WellTyped c) :
    checkThreshold c.comparator c.threshold = .ok c.threshold := by
  obtain ⟨f, k, t⟩ := c
  unfold WellTyped at h
  cases k <;> cases t <;> first | rfl | exact absurd h (fun h => h)

/-- The elements a vector is made of. -/
def entries (conds : List Condition) (k : Comparator) : List (Option (Nat × Threshold)) :=
  (conds.filter (fun c => decide (c.comparator = k))).map (fun c => some (c.featureIndex, c.threshold))

theorem length_entries (conds : List Condition) (k : Comparator) :
    (entries conds k).length = conds.countP (fun c => decide (c.comparator = k)) := by
  simp [entries, List.countP_eq_length_filter]

theorem BodyBuilder.run_spec (N : Comparator → Nat) : ∀ (cs done : List Condition) (b : BodyBuilder),
    (∀ k, N k = (done ++ cs).countP (fun c => decide (c.comparator = k))) →
    (∀ k, b.index k = done.countP (fun c => decide (c.comparator = k))) →
    (∀ k, b.vectors k = entries done k ++ List.replicate (N k - (entries done k).length) none) →
    (∀ c ∈ cs, WellTyped c) →
    ∃ b', BodyBuilder.run cs b = .ok b' ∧ ∀ k, b'.vectors k = entries (done ++ cs) k := by
  intro cs
  induction cs with
  | nil =>
    intro done b hN _ hv _
    refine ⟨b, rfl, ?_⟩
    intro k
    rw [hv k, List.append_nil, length_entries, hN k, List.append_nil, Nat.sub_self]
    simp
  | cons c cs ih =>
    intro done b hN hi hv hw
    have hlt : b.index c.comparator < (b.vectors c.comparator).length := by
      rw [hi, hv, List.length_append, List.length_replicate, length_entries, hN, List.countP_append, List.countP_cons]
      simp
    have hN' : ∀ k, N k = (done ++ [c] ++ cs).countP (fun c => decide (c.comparator = k)) := by
      intro k; rw [hN k]; simp
    have hstep : b.step c = .ok (BodyBuilder.mk
        (fun k => if k = c.comparator then
            (b.vectors c.comparator).set (b.index c.comparator) (some (c.featureIndex, c.threshold)) else b.vectors k)
        (fun k => if k = c.comparator then b.index k + 1 else b.index k)) := by
      unfold BodyBuilder.step
      rw [checkThreshold_of_wellTyped (hw c (by simp)), ok_bind, writeAt_of_lt hlt, ok_bind]
      rfl
    obtain ⟨b', e1, e2⟩ := ih (done ++ [c]) (BodyBuilder.mk
        (fun k => if k = c.comparator then
            (b.vectors c.comparator).set (b.index c.comparator) (some (c.featureIndex, c.threshold)) else b.vectors k)
        (fun k => if k = c.comparator then b.index k + 1 else b.index k)) hN'
      (by
        intro k
        simp only [List.countP_append, List.countP_singleton]
        by_cases hk : k = c.comparator
        · simp [hk, hi]
        · have : ¬ c.comparator = k := fun e => hk e.symm
          simp [hk, this, hi])
      (by
        intro k
        by_cases hk : k = c.comparator
        · subst hk
          have he : entries (done ++ [c]) c.comparator =
              entries done c.comparator ++ [some (c.featureIndex, c.threshold)] := by
            simp [entries, List.filter_append]
          simp only [if_true, he]
          rw [hi, hv, ← length_entries, List.set_append_right _ _ (Nat.le_refl _), Nat.sub_self]
          have hpos : N c.comparator - (entries done c.comparator).length =
              (N c.comparator - ((entries done c.comparator).length + 1)) + 1 := by
            have := hN c.comparator
            rw [List.countP_append, List.countP_cons] at this
            rw [length_entries]
            simp at this
            omega
          rw [hpos, List.replicate_succ, List.set_cons_zero]
          simp
        · have hne : ¬ c.comparator = k := fun e => hk e.symm
          have he : entries (done ++ [c]) k = entries done k := by
            simp [entries, List.filter_append, hne]
          simp only [hk, if_false, he]
          exact hv k)
      (fun d hd => hw d (List.mem_cons_of_mem _ hd))
    refine ⟨b', ?_, ?_⟩
    · unfold BodyBuilder.run
      rw [hstep, ok_bind, e1]
    · intro k; rw [e2 k]; simp

theorem createConjunctiveBody_spec {l : ConditionList} (h : l.Consistent) (hw : ∀ c ∈ l.conditions, WellTyped c) :
    ∃ vs, l.createConjunctiveBody = .ok (.conjunctive vs) ∧ ∀ k, vs k = entries l.conditions k := by
  obtain ⟨b', e1, e2⟩ := BodyBuilder.run_spec l.numPerComparator l.conditions []
    { vectors := fun k => List.replicate (l.numPerComparator k) none, index := fun _ => 0 } (by simpa [ConditionList.Consistent] using h)
    (by simp) (by simp [entries]) hw
  refine ⟨b'.vectors, ?_, by simpa using e2⟩
  unfold ConditionList.createConjunctiveBody
  rw [e1, ok_bind]
  rfl

/-! ### coverage -/

theorem castInt32_some {x : Rat} (h : -2 ^ 31 ≤ truncate x ∧ truncate x < 2 ^ 31) : castInt32 (some x) = .ok (truncate x) := by
  unfold castInt32
  exact if_pos h

theorem compareValue_spec {v : FVal} {c : Condition} (hw : WellTyped c) (ha : Admissible v c) :
    ∃ b, compareValue c.comparator v c.threshold = .ok b ∧ (b = true ↔ holds v c) := by
  obtain ⟨f, k, t⟩ := c
  cases k <;> cases t <;> first | exact absurd hw (fun h => h) | skip
  case numericalLeq.float t =>
    cases v with
    | none => exact ⟨_, rfl, by simp [holds]⟩
    | some x => exact ⟨_, rfl, by simp [holds, satisfied, Rat.not_lt]⟩
  case numericalGr.float t =>
    cases v with
    | none => exact ⟨_, rfl, by simp [holds]⟩
    | some x => exact ⟨_, rfl, by simp [holds, satisfied]⟩
  all_goals
    obtain ⟨x, rfl, hx⟩ := ha (by simp [IsNumerical])
    simp only [compareValue, castInt32_some hx, ok_bind, pure_eq_ok]
    exact ⟨_, rfl, by simp [holds, satisfied]⟩

theorem coversVector_spec (read : Nat → Res FVal) (val : Nat → FVal) (k : Comparator) (conds : List Condition)
    (hk : ∀ c ∈ conds, c.comparator = k) (hw : ∀ c ∈ conds, WellTyped c)
    (hr : ∀ c ∈ conds, read c.featureIndex = .ok (val c.featureIndex))
    (ha : ∀ c ∈ conds, Admissible (val c.featureIndex) c) :
    ∃ b, coversVector read k (conds.map (fun c => some (c.featureIndex, c.threshold))) = .ok b ∧
      (b = true ↔ ∀ c ∈ conds, holds (val c.featureIndex) c) := by
  induction conds with
  | nil => exact ⟨true, rfl, by simp⟩
  | cons c cs ih =>
    obtain ⟨b, h1, h2⟩ := ih (fun c hc => hk c (List.mem_cons_of_mem _ hc)) (fun c hc => hw c (List.mem_cons_of_mem _ hc))
      (fun c hc => hr c (List.mem_cons_of_mem _ hc)) (fun c hc => ha c (List.mem_cons_of_mem _ hc))
    obtain ⟨b', h3, h4⟩ := compareValue_spec (hw c (by simp)) (ha c (by simp))
    rw [hk c (by simp)] at h3
    rw [List.map_cons]
    unfold coversVector
    simp only [useInit, ok_bind]
    rw [hr c (by simp), ok_bind, h3, ok_bind]
    cases b' with
    | true => exact ⟨b, by simp [h1], by simp [h2, h4.1 rfl]⟩
    | false =>
      refine ⟨false, rfl, ?_⟩
      have : ¬ holds (val c.featureIndex) c := fun h => by simpa using h4.2 h
      simp [this]

theorem andThen_spec {a b : Res Bool} {p q : Prop} (ha : ∃ x, a = .ok x ∧ (x = true ↔ p))
    (hb : ∃ x, b = .ok x ∧ (x = true ↔ q)) : ∃ x, andThen a b = .ok x ∧ (x = true ↔ p ∧ q) := by
  obtain ⟨x, rfl, hx⟩ := ha
  obtain ⟨y, rfl, hy⟩ := hb
  cases x with
  | true => exact ⟨y, rfl, by rw [hy]; simp [hx.1 rfl]⟩
  | false => exact ⟨false, rfl, by
      have : ¬ p := fun h => by simpa using hx.2 h
      simp [this]⟩

theorem coversVectors_spec (read : Nat → Res FVal) (val : Nat → FVal) (conds : List Condition)
    (hw : ∀ c ∈ conds, WellTyped c)
    (hr : ∀ c ∈ conds, read c.featureIndex = .ok (val c.featureIndex))
    (ha : ∀ c ∈ conds, Admissible (val c.featureIndex) c) :
    ∃ b, coversVectors read (entries conds) = .ok b ∧ (b = true ↔ ∀ c ∈ conds, holds (val c.featureIndex) c) := by
  have key : ∀ k, ∃ b, coversVector read k (entries conds k) = .ok b ∧
      (b = true ↔ ∀ c ∈ conds, c.comparator = k → holds (val c.featureIndex) c) := by
    intro k
    have hm : ∀ c ∈ conds.filter (fun c => decide (c.comparator = k)), c ∈ conds ∧ c.comparator = k := by
      intro c hc
      obtain ⟨h1, h2⟩ := List.mem_filter.1 hc
      exact ⟨h1, by simpa using h2⟩
    obtain ⟨b, h1, h2⟩ := coversVector_spec read val k (conds.filter (fun c => decide (c.comparator = k)))
      (fun c hc => (hm c hc).2) (fun c hc => hw c (hm c hc).1) (fun c hc => hr c (hm c hc).1)
      (fun c hc => ha c (hm c hc).1)
    refine ⟨b, h1, ?_⟩
    rw [h2]
    constructor
    · intro h c hc hk
      exact h c (List.mem_filter.2 ⟨hc, by simpa using hk⟩)
    · intro h c hc
      exact h c (hm c hc).1 (hm c hc).2
  obtain ⟨b, h1, h2⟩ := andThen_spec (key .numericalLeq) (andThen_spec (key .numericalGr) (andThen_spec (key .ordinalLeq)
    (andThen_spec (key .ordinalGr) (andThen_spec (key .nominalEq) (key .nominalNeq)))))
  refine ⟨b, h1, ?_⟩
  rw [h2]
  constructor
  · rintro ⟨g1, g2, g3, g4, g5, g6⟩ c hc
    cases hk : c.comparator
    · exact g1 c hc hk
    · exact g2 c hc hk
    · exact g3 c hc hk
    · exact g4 c hc hk
    · exact g5 c hc hk
    · exact g6 c hc hk
  · intro h
    exact ⟨fun c hc _ => h c hc, fun c hc _ => h c hc, fun c hc _ => h c hc, fun c hc _ => h c hc, fun c hc _ => h c hc,
      fun c hc _ => h c hc⟩

/-! ### sparse examples -/

/-- After filling the temporary arrays, they contain the elements of the row. -/
theorem TmpArrays.fill_spec (n m : Nat) : ∀ (row : SparseRow) (t : TmpArrays), t.values.length = m → t.stamps.length = m →
    (row.map Prod.fst).Nodup → (∀ p ∈ row, p.1 < m) →
    ∃ t', t.fill n row = .ok t' ∧ t'.values.length = m ∧ t'.stamps.length = m ∧
      ∀ f, match row.find? (fun p => p.1 = f) with
        | some p => t'.stamps[f]? = some n ∧ t'.values[f]? = some (some p.2)
        | none => t'.stamps[f]? = t.stamps[f]? ∧ t'.values[f]? = t.values[f]? := by
  intro row
  induction row with
  | nil => intro t hv hs _ _; exact ⟨t, rfl, hv, hs, fun f => ⟨rfl, rfl⟩⟩
  | cons p row ih =>
    intro t hv hs hnd hlt
    obtain ⟨f, v⟩ := p
    have hf : f < m := hlt (f, v) (by simp)
    rw [List.map_cons, List.nodup_cons] at hnd
    obtain ⟨t', e1, e2, e3, e4⟩ := ih { values := t.values.set f (some v), stamps := t.stamps.set f n } (by simpa using hv)
      (by simpa using hs) hnd.2 (fun p hp => hlt p (List.mem_cons_of_mem _ hp))
    refine ⟨t', ?_, e2, e3, ?_⟩
    · unfold TmpArrays.fill
      rw [writeAt_of_lt (by omega), ok_bind, writeAt_of_lt (by omega), ok_bind, e1]
    · intro g
      by_cases hg : f = g
      · subst hg
        have hnone : row.find? (fun p => p.1 = f) = none := by
          rw [List.find?_eq_none]
          intro p hp
          simp only [decide_eq_true_eq]
          intro e
          exact hnd.1 (List.mem_map.2 ⟨p, hp, e⟩)
        have := e4 f
        rw [hnone] at this
        simp only [List.find?_cons, decide_true]
        refine ⟨?_, ?_⟩
        · rw [this.1]; simp [List.getElem?_set, hs, hf]
        · rw [this.2]; simp [List.getElem?_set, hv, hf]
      · have := e4 g
        simp only [List.find?_cons, hg, decide_false]
        cases hfind : row.find? (fun p => p.1 = g) with
        | some p => rw [hfind] at this; exact this
        | none =>
          rw [hfind] at this
          simp only [List.getElem?_set, hg, if_false] at this
          exact this

theorem TmpArrays.lookup_eq {n m : Nat} {row : SparseRow} {t t' : TmpArrays} {sv : FVal}
    (hv : t'.values.length = m) (hs : t'.stamps.length = m) (hold : ∀ s ∈ t.stamps, s ≠ n)
    (h : ∀ f, match row.find? (fun p => p.1 = f) with
        | some p => t'.stamps[f]? = some n ∧ t'.values[f]? = some (some p.2)
        | none => t'.stamps[f]? = t.stamps[f]? ∧ t'.values[f]? = t.values[f]?) (f : Nat) :
    t'.lookup n sv f = readAt (toDense m row sv) f := by
  unfold TmpArrays.lookup
  by_cases hf : f < m
  · have hd : readAt (toDense m row sv) f = .ok (match row.find? (fun p => p.1 = f) with
        | some p => p.2
        | none => sv) := by
      apply readAt_of_getElem?
      unfold toDense
      rw [List.getElem?_map, List.getElem?_range hf]
      rfl
    rw [hd]
    have hf' := h f
    cases hfind : row.find? (fun p => p.1 = f) with
    | some p =>
      rw [hfind] at hf'
      rw [readAt_of_getElem? hf'.1, ok_bind, if_pos rfl, readAt_of_getElem? hf'.2]
      rfl
    | none =>
      rw [hfind] at hf'
      have hlt : f < t'.stamps.length := by omega
      rw [readAt_of_lt hlt, ok_bind]
      have : t'.stamps[f] ≠ n := by
        apply hold
        apply List.mem_of_getElem? (i := f)
        rw [← hf'.1, List.getElem?_eq_getElem hlt]
      rw [if_neg this]
      rfl
  · have hl : (toDense m row sv).length = m := by simp [toDense]
    rw [readAt_of_le (by omega : t'.stamps.length ≤ f), readAt_of_le (by omega : (toDense m row sv).length ≤ f)]
    rfl

/-- A single sparse test agrees with the dense test, and afterwards each stamp is either old or `n`. -/
theorem coversSparse_eq (n m : Nat) (row : SparseRow) (sv : FVal) (t : TmpArrays) (body : Body)
    (hv : t.values.length = m) (hs : t.stamps.length = m) (hnd : (row.map Prod.fst).Nodup) (hlt : ∀ p ∈ row, p.1 < m)
    (hold : ∀ s ∈ t.stamps, s ≠ n) :
    ∃ t', t'.values.length = m ∧ t'.stamps.length = m ∧ (∀ s ∈ t'.stamps, s ∈ t.stamps ∨ s = n) ∧
      body.coversSparse row sv t n = (body.coversDense (toDense m row sv)).map (fun b => (b, t')) := by
  cases body with
  | empty => exact ⟨t, hv, hs, fun s hs => Or.inl hs, rfl⟩
  | conjunctive vectors =>
    obtain ⟨t', e1, e2, e3, e4⟩ := TmpArrays.fill_spec n m row t hv hs hnd hlt
    refine ⟨t', e2, e3, ?_, ?_⟩
    · intro s hs'
      obtain ⟨f, hf⟩ := List.mem_iff_getElem?.1 hs'
      have := e4 f
      cases hfind : row.find? (fun p => p.1 = f) with
      | some p =>
        rw [hfind] at this
        rw [this.1] at hf
        right; simpa using hf.symm
      | none =>
        rw [hfind] at this
        rw [this.1] at hf
        left; exact List.mem_of_getElem? hf
    · unfold Body.coversSparse Body.coversDense
      simp only
      rw [e1, ok_bind]
      have : (t'.lookup n sv) = (fun f => readAt (toDense m row sv) f) := by
        funext f
        exact TmpArrays.lookup_eq e2 e3 hold e4 f
      rw [this]
      cases coversVectors (fun f => readAt (toDense m row sv) f) vectors <;> rfl

end MLRL
