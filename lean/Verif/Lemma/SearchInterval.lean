import Verif.Lemma.Search

/-!
# The intervals of the candidates that are found by searches

They lie within the feature vector. For numerical and ordinal vectors, they start at its beginning or end at its end.
-/

namespace MLRL.Search
open FeatureSpace

variable {M : Type} [Zero M] [Add M] [Sub M]

/-- An interval within a vector of a certain size. -/
def Within (size : Nat) (i : Interval) : Prop := i.start ≤ i.stop ∧ i.stop ≤ size

/-- An interval that starts at the beginning or ends at the end. -/
def HalfOpen (size : Nat) (i : Interval) : Prop := Within size i ∧ (i.start = 0 ∨ i.stop = size)

theorem mem_propose {cfg : Config M} {i : Interval} {n : Nat} {k : Comparator} {t : Rat} {stats : M} {c : Candidate M}
    (h : c ∈ propose cfg i n k t stats) : c.interval = i := by
  unfold propose at h
  split at h
  · rw [List.mem_singleton] at h; rw [h]
  · cases h

theorem mem_proposeBoth {cfg : Config M} {a b n : Nat} {k k' : Comparator} {t : Rat} {stats total : M} {c : Candidate M}
    (h : c ∈ proposeBoth cfg a b n k k' t stats total) : c.interval.start = a ∧ c.interval.stop = b := by
  unfold proposeBoth at h
  rcases List.mem_append.1 h with h | h <;> rw [mem_propose h] <;> exact ⟨rfl, rfl⟩

/-! ### Numerical vectors -/

theorem findFirst_interval {cfg : Config M} {sv : Rat} : ∀ (l : List (Nat × Rat)) (i : Nat) (s : NumState M),
    (findFirst cfg sv i l s).2.2.candidates = s.candidates ∧
      ((findFirst cfg sv i l s).2.2.numCovered = s.numCovered ∧ (findFirst cfg sv i l s).1 + (findFirst cfg sv i l s).2.1.length = i + l.length ∨
        (findFirst cfg sv i l s).1 + 1 + (findFirst cfg sv i l s).2.1.length = i + l.length) := by
  intro l
  induction l with
  | nil => intro i s; exact ⟨rfl, Or.inl ⟨rfl, rfl⟩⟩
  | cons p rest ih =>
    intro i s
    obtain ⟨e, x⟩ := p
    simp only [findFirst]
    split
    · split
      · exact ⟨rfl, Or.inr (by simp only [List.length_cons]; omega)⟩
      · obtain ⟨h1, h2⟩ := ih (i + 1) s
        refine ⟨h1, ?_⟩
        simp only [List.length_cons]
        rcases h2 with ⟨h2, h3⟩ | h2
        · exact Or.inl ⟨h2, by omega⟩
        · exact Or.inr (by omega)
    · exact ⟨rfl, Or.inl ⟨rfl, rfl⟩⟩

theorem scanForward_interval {cfg : Config M} {sv : Rat} : ∀ (l : List (Nat × Rat)) (i : Nat) (s : NumState M),
    (scanForward cfg sv i l s).1 ≤ i + l.length ∧
    ∀ c ∈ (scanForward cfg sv i l s).2.candidates, c ∈ s.candidates ∨ (c.interval.start = 0 ∧ c.interval.stop ≤ i + l.length) := by
  intro l
  induction l with
  | nil => intro i s; exact ⟨le_refl _, fun c hc => Or.inl hc⟩
  | cons p rest ih =>
    intro i s
    obtain ⟨e, x⟩ := p
    simp only [scanForward]
    split
    · split
      · have h := ih (i + 1) { subset := s.subset.add cfg.stat e, numCovered := s.numCovered + 1, previousValue := x, candidates := s.candidates ++
          (if cfg.isEqual s.previousValue x then [] else
            proposeBoth cfg 0 i s.numCovered .numericalLeq .numericalGr (mean s.previousValue x) s.subset.sum s.subset.total) }
        simp only [List.length_cons]
        refine ⟨by have := h.1; omega, fun c hc => ?_⟩
        rcases h.2 c hc with h' | ⟨h1, h2⟩
        · rcases List.mem_append.1 h' with h' | h'
          · exact Or.inl h'
          · split at h'
            · cases h'
            · obtain ⟨h1, h2⟩ := mem_proposeBoth h'
              exact Or.inr ⟨h1, by omega⟩
        · exact Or.inr ⟨h1, by omega⟩
      · have h := ih (i + 1) { s with previousValue := x }
        simp only [List.length_cons]
        refine ⟨by have := h.1; omega, fun c hc => ?_⟩
        rcases h.2 c hc with h' | ⟨h1, h2⟩
        · exact Or.inl h'
        · exact Or.inr ⟨h1, by omega⟩
    · exact ⟨Nat.le_add_right _ _, fun c hc => Or.inl hc⟩

theorem forwardPhase_interval {cfg : Config M} {entries : List (Nat × Rat)} {sv : Rat} {subset : Subset M} :
    (forwardPhase cfg entries sv subset).1 ≤ entries.length ∧
    ∀ c ∈ (forwardPhase cfg entries sv subset).2.candidates, HalfOpen entries.length c.interval := by
  unfold forwardPhase
  simp only
  have h := findFirst_interval (cfg := cfg) (sv := sv) entries 0 { subset := subset, numCovered := 0, previousValue := sv, candidates := [] }
  generalize findFirst cfg sv 0 entries { subset := subset, numCovered := 0, previousValue := sv, candidates := [] } = r at *
  obtain ⟨h1, h2⟩ := h
  simp only at h1
  split
  · rename_i hpos
    have h3 : r.1 + 1 + r.2.1.length = 0 + entries.length := by
      rcases h2 with ⟨h2, _⟩ | h2
      · simp only at h2; omega
      · exact h2
    obtain ⟨h4, h5⟩ := scanForward_interval (cfg := cfg) (sv := sv) r.2.1 (r.1 + 1) r.2.2
    refine ⟨by simp only; omega, fun c hc => ?_⟩
    rcases h5 c hc with h' | ⟨h6, h7⟩
    · rw [h1] at h'; cases h'
    · exact ⟨⟨by omega, by omega⟩, Or.inl h6⟩
  · refine ⟨?_, fun c hc => ?_⟩
    · rcases h2 with ⟨_, h2⟩ | h2 <;> simp only <;> omega
    · rw [h1] at hc; cases hc

theorem findLast_interval {cfg : Config M} : ∀ (l : List (Nat × Rat)) (k : Nat) (s : NumState M),
    (findLast cfg k l s).1 ≤ k ∧ (findLast cfg k l s).2.2.candidates = s.candidates := by
  intro l
  induction l with
  | nil => intro k s; exact ⟨le_refl _, rfl⟩
  | cons p rest ih =>
    intro k s
    obtain ⟨e, x⟩ := p
    simp only [findLast]
    split
    · exact ⟨le_refl _, rfl⟩
    · exact ⟨le_trans (ih _ _).1 (Nat.sub_le _ _), (ih _ _).2⟩

theorem scanBackward_interval {cfg : Config M} {first num : Nat} : ∀ (l : List (Nat × Rat)) (k : Nat) (s : NumState M),
    ∀ c ∈ (scanBackward cfg first num k l s).candidates, c ∈ s.candidates ∨ (c.interval.start ≤ k ∧ c.interval.stop = num) := by
  intro l
  induction l with
  | nil => intro k s c hc; exact Or.inl hc
  | cons p rest ih =>
    intro k s c hc
    obtain ⟨e, x⟩ := p
    simp only [scanBackward] at hc
    split at hc
    · split at hc
      · rcases ih _ _ c hc with h' | ⟨h1, h2⟩
        · rcases List.mem_append.1 h' with h' | h'
          · exact Or.inl h'
          · split at h'
            · cases h'
            · obtain ⟨h1, h2⟩ := mem_proposeBoth h'
              exact Or.inr ⟨by omega, h2⟩
        · exact Or.inr ⟨by omega, h2⟩
      · rcases ih _ _ c hc with h' | ⟨h1, h2⟩
        · exact Or.inl h'
        · exact Or.inr ⟨by omega, h2⟩
    · exact Or.inl hc

theorem backwardPhase_interval {cfg : Config M} {entries : List (Nat × Rat)} {first : Nat} {s : NumState M} :
    ∀ c ∈ (backwardPhase cfg entries first s).candidates, HalfOpen entries.length c.interval := by
  intro c hc
  unfold backwardPhase at hc
  simp only at hc
  have h := findLast_interval (cfg := cfg) (entries.drop first).reverse entries.length { s with numCovered := 0, candidates := [] }
  generalize findLast cfg entries.length (entries.drop first).reverse { s with numCovered := 0, candidates := [] } = r at *
  obtain ⟨h1, h2⟩ := h
  simp only at h2
  split at hc
  · rcases scanBackward_interval r.2.1 (r.1 - 1) r.2.2 c hc with h' | ⟨h3, h4⟩
    · rw [h2] at h'; cases h'
    · exact ⟨⟨by omega, by omega⟩, Or.inr h4⟩
  · rw [h2] at hc; cases hc

theorem numerical_interval {cfg : Config M} {entries : List (Nat × Rat)} {sv : Rat} {sparse : Bool} {subset : Subset M} {r : NumResult M}
    (h : searchNumerical cfg entries sv sparse subset = .ok r) : ∀ c ∈ r.all, HalfOpen entries.length c.interval := by
  intro c hc
  unfold searchNumerical at h
  split at h
  · cases h
  · simp only at h
    cases hl : accumulatedPhase cfg sparse sv (forwardPhase cfg entries sv subset).1 (forwardPhase cfg entries sv subset).2.numCovered
        (forwardPhase cfg entries sv subset).2.previousValue
        (backwardPhase cfg entries (forwardPhase cfg entries sv subset).1 (forwardPhase cfg entries sv subset).2) with
    | error e => rw [hl] at h; cases h
    | ok last =>
      rw [hl, ok_bind] at h
      cases h
      have hf := forwardPhase_interval (cfg := cfg) (entries := entries) (sv := sv) (subset := subset)
      simp only [NumResult.all, List.mem_append] at hc
      rcases hc with ((hc | hc) | hc) | hc
      · exact hf.2 c hc
      · exact backwardPhase_interval c hc
      · split at hc
        · obtain ⟨h1, h2⟩ := mem_proposeBoth hc
          exact ⟨⟨by omega, by omega⟩, Or.inr h2⟩
        · cases hc
      · unfold accumulatedPhase at hl
        split at hl
        · cases ha : useInit (backwardPhase cfg entries (forwardPhase cfg entries sv subset).1 (forwardPhase cfg entries sv subset).2).subset.acc with
          | error e => rw [ha] at hl; cases hl
          | ok a =>
            rw [ha, ok_bind] at hl
            simp only [pure_eq_ok] at hl
            injection hl with hl
            rw [← hl] at hc
            obtain ⟨h1, h2⟩ := mem_proposeBoth hc
            exact ⟨⟨by omega, by omega⟩, Or.inl h1⟩
        · simp only [pure_eq_ok] at hl
          injection hl with hl
          rw [← hl] at hc
          cases hc

/-! ### Nominal and binary vectors -/

theorem nominalLoop_interval {cfg : Config M} : ∀ (l : List (Int × List Nat)) (i : Nat) (s : Subset M),
    ∀ c ∈ (nominalLoop cfg i l s).2.2, Within (i + l.length) c.interval := by
  intro l
  induction l with
  | nil => intro i s c hc; cases hc
  | cons p rest ih =>
    intro i s c hc
    obtain ⟨x, indices⟩ := p
    simp only [nominalLoop] at hc
    rcases List.mem_append.1 hc with hc | hc
    · obtain ⟨h1, h2⟩ := mem_proposeBoth hc
      exact ⟨by omega, by simp only [List.length_cons]; omega⟩
    · obtain ⟨h1, h2⟩ := ih _ _ c hc
      exact ⟨h1, by simp only [List.length_cons]; omega⟩

theorem nominal_interval {cfg : Config M} {bins : List (Int × List Nat)} {mv : Int} {subset : Subset M} {r : List (Candidate M)}
    (h : searchNominal cfg bins mv subset = .ok r) : ∀ c ∈ r, Within bins.length c.interval := by
  intro c hc
  unfold searchNominal at h
  simp only at h
  have hloop := nominalLoop_interval (cfg := cfg) bins 0 subset
  generalize nominalLoop cfg 0 bins subset = s at *
  have hprop : ∀ (b : Bool) n k t stats, c ∈ propose cfg ⟨0, bins.length, b⟩ n k t stats → Within bins.length c.interval := by
    intro b n k t stats hc
    rw [mem_propose hc]
    exact ⟨Nat.zero_le _, le_refl _⟩
  cases ha : useInit s.2.1.acc with
  | error e =>
    rw [ha] at h
    split at h
    · cases h
    · simp only [pure_eq_ok, ok_bind] at h
      split at h
      · cases h
      · cases h
        simp only [List.append_nil] at hc
        simpa using hloop c hc
  | ok a =>
    rw [ha] at h
    simp only [pure_eq_ok, ok_bind] at h
    split at h <;> split at h <;> cases h <;> simp only [List.append_nil, List.mem_append] at hc
    · rcases hc with (hc | hc) | hc
      · simpa using hloop c hc
      · exact hprop _ _ _ _ _ hc
      · exact hprop _ _ _ _ _ hc
    · rcases hc with hc | hc
      · simpa using hloop c hc
      · exact hprop _ _ _ _ _ hc
    · rcases hc with hc | hc
      · simpa using hloop c hc
      · exact hprop _ _ _ _ _ hc
    · simpa using hloop c hc

theorem binary_interval {cfg : Config M} {bins : List (Int × List Nat)} {mv : Int} {subset : Subset M} {r : List (Candidate M)}
    (h : searchBinary cfg bins mv subset = .ok r) : ∀ c ∈ r, Within bins.length c.interval := by
  intro c hc
  unfold searchBinary at h
  cases bins with
  | nil => cases h
  | cons b rest =>
    simp only [readAt, List.getElem?_cons_zero, ok_bind, pure_eq_ok] at h
    injection h with h
    rw [← h] at hc
    rcases List.mem_append.1 hc with hc | hc <;> rw [mem_propose hc] <;> exact ⟨Nat.zero_le _, by simp⟩

/-! ### Ordinal vectors -/

theorem ordForward_interval {cfg : Config M} {mv : Int} : ∀ (l : List (Int × List Nat)) (i : Nat) (s : OrdState M),
    (ordForward cfg mv i l s).1 ≤ i + l.length ∧
    ∀ c ∈ (ordForward cfg mv i l s).2.candidates, c ∈ s.candidates ∨ (c.interval.start = 0 ∧ c.interval.stop ≤ i + l.length) := by
  intro l
  induction l with
  | nil => intro i s; exact ⟨le_refl _, fun c hc => Or.inl hc⟩
  | cons p rest ih =>
    intro i s
    obtain ⟨x, indices⟩ := p
    simp only [ordForward]
    split
    · exact ⟨Nat.le_add_right _ _, fun c hc => Or.inl hc⟩
    · have h := ih (i + 1) (OrdState.mk (addAll cfg indices s.subset).2 (s.numCovered + (addAll cfg indices s.subset).1) x
        (s.candidates ++ proposeBoth cfg 0 i s.numCovered .ordinalLeq .ordinalGr s.previousValue s.subset.sum s.subset.total))
      simp only [List.length_cons]
      refine ⟨by have := h.1; omega, fun c hc => ?_⟩
      rcases h.2 c hc with h' | ⟨h1, h2⟩
      · rcases List.mem_append.1 h' with h' | h'
        · exact Or.inl h'
        · obtain ⟨h1, h2⟩ := mem_proposeBoth h'
          exact Or.inr ⟨h1, by omega⟩
      · exact Or.inr ⟨h1, by omega⟩

theorem ordBackward_interval {cfg : Config M} {num : Nat} : ∀ (l : List (Int × List Nat)) (k : Nat) (s : OrdState M),
    ∀ c ∈ (ordBackward cfg num k l s).candidates, c ∈ s.candidates ∨ (c.interval.start ≤ k ∧ c.interval.stop = num) := by
  intro l
  induction l with
  | nil => intro k s c hc; exact Or.inl hc
  | cons p rest ih =>
    intro k s c hc
    obtain ⟨x, indices⟩ := p
    simp only [ordBackward] at hc
    rcases ih _ _ c hc with h' | ⟨h1, h2⟩
    · rcases List.mem_append.1 h' with h' | h'
      · exact Or.inl h'
      · obtain ⟨h1, h2⟩ := mem_proposeBoth h'
        exact Or.inr ⟨by omega, h2⟩
    · exact Or.inr ⟨by omega, h2⟩

theorem ordForwardPhase_interval {cfg : Config M} {b : Int × List Nat} {bins : List (Int × List Nat)} {mv : Int} {subset : Subset M} :
    (ordForwardPhase cfg b bins mv subset).1 ≤ bins.length + 1 ∧
    ∀ c ∈ (ordForwardPhase cfg b bins mv subset).2.candidates, HalfOpen (bins.length + 1) c.interval := by
  unfold ordForwardPhase
  simp only
  generalize (if b.1 < mv then addAll cfg b.2 subset else (0, subset)) = a
  split
  · obtain ⟨h1, h2⟩ := ordForward_interval (cfg := cfg) (mv := mv) bins 1
      { subset := a.2, numCovered := a.1, previousValue := b.1, candidates := [] }
    refine ⟨by simp only; omega, fun c hc => ?_⟩
    rcases h2 c hc with h' | ⟨h3, h4⟩
    · cases h'
    · exact ⟨⟨by omega, by omega⟩, Or.inl h3⟩
  · exact ⟨Nat.zero_le _, fun c hc => by cases hc⟩

theorem ordinal_interval {cfg : Config M} {bins : List (Int × List Nat)} {mv : Int} {subset : Subset M} {r : OrdResult M}
    (h : searchOrdinal cfg bins mv subset = .ok r) : ∀ c ∈ r.all, HalfOpen bins.length c.interval := by
  intro c hc
  cases bins with
  | nil => cases h
  | cons b rest =>
    simp only [searchOrdinal] at h
    have hf := ordForwardPhase_interval (cfg := cfg) (b := b) (bins := rest) (mv := mv) (subset := subset)
    generalize ordForwardPhase cfg b rest mv subset = f at *
    cases hb : ordBackwardPhase cfg (b :: rest) f.1 mv f.2 with
    | error e => rw [hb] at h; cases h
    | ok s =>
      rw [hb, ok_bind] at h
      cases hl : ordAccumulatedPhase cfg f.1 f.2.numCovered f.2.previousValue s with
      | error e => rw [hl] at h; cases h
      | ok last =>
        rw [hl, ok_bind] at h
        cases h
        simp only [OrdResult.all, List.mem_append] at hc
        simp only [List.length_cons]
        rcases hc with ((hc | hc) | hc) | hc
        · exact hf.2 c hc
        · unfold ordBackwardPhase at hb
          cases hlast : readAt (b :: rest) ((b :: rest).length - 1) with
          | error e => rw [hlast] at hb; cases hb
          | ok l =>
            rw [hlast, ok_bind] at hb
            simp only at hb
            generalize (if l.1 > mv then addAll cfg l.2 f.2.subset else (0, f.2.subset)) = a at hb
            split at hb
            · cases hb
              rcases ordBackward_interval _ _ _ c hc with h' | ⟨h1, h2⟩
              · cases h'
              · simp only [List.length_cons] at h1 h2
                exact ⟨⟨by omega, by omega⟩, Or.inr h2⟩
            · cases hb; cases hc
        · obtain ⟨h1, h2⟩ := mem_proposeBoth hc
          exact ⟨⟨by omega, by omega⟩, Or.inr h2⟩
        · unfold ordAccumulatedPhase at hl
          split at hl
          · cases ha : useInit s.subset.acc with
            | error e => rw [ha] at hl; cases hl
            | ok a =>
              rw [ha, ok_bind] at hl
              cases hl
              obtain ⟨h1, h2⟩ := mem_proposeBoth hc
              exact ⟨⟨by omega, by omega⟩, Or.inl h1⟩
          · cases hl; cases hc

end MLRL.Search
