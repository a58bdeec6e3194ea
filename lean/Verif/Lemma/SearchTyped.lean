import Verif.Lemma.SearchInterval

/-!
# The comparators and thresholds of the candidates that are found by searches
-/

namespace MLRL.Search
open FeatureSpace

variable {M : Type} [Zero M] [Add M] [Sub M]

/-- The candidates of searches by numerical features. -/
def Candidate.Numerical (c : Candidate M) : Prop := c.comparator = .numericalLeq ∨ c.comparator = .numericalGr

/-- The candidates of searches by other features: their thresholds are integers. -/
def Candidate.Integral (c : Candidate M) : Prop :=
  ¬(c.comparator = .numericalLeq ∨ c.comparator = .numericalGr) ∧ ∃ z : Int, c.threshold = (z : Rat)

omit [Zero M] [Add M] [Sub M] in
theorem propose_comparator {cfg : Config M} {i : Interval} {n : Nat} {k : Comparator} {t : Rat} {stats : M} {c : Candidate M}
    (h : c ∈ propose cfg i n k t stats) : c.comparator = k ∧ c.threshold = t := by
  unfold propose at h
  split at h
  · rw [List.mem_singleton] at h; rw [h]; exact ⟨rfl, rfl⟩
  · cases h

omit [Zero M] [Add M] in
theorem proposeBoth_comparator {cfg : Config M} {a b n : Nat} {k k' : Comparator} {t : Rat} {stats total : M} {c : Candidate M}
    (h : c ∈ proposeBoth cfg a b n k k' t stats total) : (c.comparator = k ∨ c.comparator = k') ∧ c.threshold = t := by
  unfold proposeBoth at h
  rcases List.mem_append.1 h with h | h
  · exact ⟨Or.inl (propose_comparator h).1, (propose_comparator h).2⟩
  · exact ⟨Or.inr (propose_comparator h).1, (propose_comparator h).2⟩

omit [Zero M] [Add M] in
theorem proposeBoth_numerical {cfg : Config M} {a b n : Nat} {t : Rat} {stats total : M} {c : Candidate M}
    (h : c ∈ proposeBoth cfg a b n .numericalLeq .numericalGr t stats total ∨ c ∈ proposeBoth cfg a b n .numericalGr .numericalLeq t stats total) :
    c.Numerical := by
  rcases h with h | h
  · exact (proposeBoth_comparator h).1
  · exact (proposeBoth_comparator h).1.symm

omit [Zero M] [Add M] in
theorem proposeBoth_integral {cfg : Config M} {a b n : Nat} {k k' : Comparator} {z : Int} {stats total : M} {c : Candidate M}
    (hk : ¬(k = .numericalLeq ∨ k = .numericalGr)) (hk' : ¬(k' = .numericalLeq ∨ k' = .numericalGr))
    (h : c ∈ proposeBoth cfg a b n k k' (z : Rat) stats total) : c.Integral := by
  obtain ⟨h1, h2⟩ := proposeBoth_comparator h
  refine ⟨?_, z, h2⟩
  rcases h1 with h1 | h1 <;> rw [h1] <;> assumption

/-! ### Numerical vectors -/

theorem scanForward_numerical {cfg : Config M} {sv : Rat} : ∀ (l : List (Nat × Rat)) (i : Nat) (s : NumState M),
    (∀ c ∈ s.candidates, c.Numerical) → ∀ c ∈ (scanForward cfg sv i l s).2.candidates, c.Numerical := by
  intro l
  induction l with
  | nil => intro i s h c hc; exact h c hc
  | cons p rest ih =>
    intro i s h c hc
    obtain ⟨e, x⟩ := p
    simp only [scanForward] at hc
    split at hc
    · split at hc
      · refine ih _ _ ?_ c hc
        intro c hc
        rcases List.mem_append.1 hc with hc | hc
        · exact h c hc
        · split at hc
          · cases hc
          · exact proposeBoth_numerical (Or.inl hc)
      · refine ih _ _ ?_ c hc
        exact h
    · exact h c hc

theorem forwardPhase_numerical {cfg : Config M} {entries : List (Nat × Rat)} {sv : Rat} {subset : Subset M} :
    ∀ c ∈ (forwardPhase cfg entries sv subset).2.candidates, c.Numerical := by
  unfold forwardPhase
  simp only
  have h := (findFirst_interval (cfg := cfg) (sv := sv) entries 0
    { subset := subset, numCovered := 0, previousValue := sv, candidates := [] }).1
  generalize findFirst cfg sv 0 entries { subset := subset, numCovered := 0, previousValue := sv, candidates := [] } = r at *
  simp only at h
  split
  · exact scanForward_numerical _ _ _ (by rw [h]; intro c hc; cases hc)
  · intro c hc
    rw [h] at hc; cases hc

theorem scanBackward_numerical {cfg : Config M} {first num : Nat} : ∀ (l : List (Nat × Rat)) (k : Nat) (s : NumState M),
    (∀ c ∈ s.candidates, c.Numerical) → ∀ c ∈ (scanBackward cfg first num k l s).candidates, c.Numerical := by
  intro l
  induction l with
  | nil => intro k s h c hc; exact h c hc
  | cons p rest ih =>
    intro k s h c hc
    obtain ⟨e, x⟩ := p
    simp only [scanBackward] at hc
    split at hc
    · split at hc
      · refine ih _ _ ?_ c hc
        intro c hc
        rcases List.mem_append.1 hc with hc | hc
        · exact h c hc
        · split at hc
          · cases hc
          · exact proposeBoth_numerical (Or.inr hc)
      · refine ih _ _ ?_ c hc
        exact h
    · exact h c hc

theorem backwardPhase_numerical {cfg : Config M} {entries : List (Nat × Rat)} {first : Nat} {s : NumState M} :
    ∀ c ∈ (backwardPhase cfg entries first s).candidates, c.Numerical := by
  unfold backwardPhase
  simp only
  have h := (findLast_interval (cfg := cfg) (entries.drop first).reverse entries.length { s with numCovered := 0, candidates := [] }).2
  generalize findLast cfg entries.length (entries.drop first).reverse { s with numCovered := 0, candidates := [] } = r at *
  simp only at h
  split
  · exact scanBackward_numerical _ _ _ (by rw [h]; intro c hc; cases hc)
  · intro c hc
    rw [h] at hc; cases hc

theorem numerical_typed {cfg : Config M} {entries : List (Nat × Rat)} {sv : Rat} {sparse : Bool} {subset : Subset M} {r : NumResult M}
    (h : searchNumerical cfg entries sv sparse subset = .ok r) : ∀ c ∈ r.all, c.Numerical := by
  intro c hc
  unfold searchNumerical at h
  split at h
  · cases h
  · simp only at h
    cases hl : accumulatedPhase cfg sparse sv (forwardPhase cfg entries sv subset).1 (forwardPhase cfg entries sv subset).2.numCovered
        (forwardPhase cfg entries sv subset).2.previousValue
        (backwardPhase cfg entries (forwardPhase cfg entries sv subset).1 (forwardPhase cfg entries sv subset).2) with
    | error e => rw [hl] at h; cases h
    | ok last =>
      rw [hl, ok_bind] at h
      cases h
      simp only [NumResult.all, List.mem_append] at hc
      rcases hc with ((hc | hc) | hc) | hc
      · exact forwardPhase_numerical c hc
      · exact backwardPhase_numerical c hc
      · split at hc
        · exact proposeBoth_numerical (Or.inr hc)
        · cases hc
      · unfold accumulatedPhase at hl
        split at hl
        · cases ha : useInit (backwardPhase cfg entries (forwardPhase cfg entries sv subset).1 (forwardPhase cfg entries sv subset).2).subset.acc with
          | error e => rw [ha] at hl; cases hl
          | ok a =>
            rw [ha, ok_bind] at hl
            simp only [pure_eq_ok] at hl
            injection hl with hl
            rw [← hl] at hc
            exact proposeBoth_numerical (Or.inl hc)
        · simp only [pure_eq_ok] at hl
          injection hl with hl
          rw [← hl] at hc
          cases hc

/-! ### Nominal and binary vectors -/

theorem nominalLoop_integral {cfg : Config M} : ∀ (l : List (Int × List Nat)) (i : Nat) (s : Subset M),
    ∀ c ∈ (nominalLoop cfg i l s).2.2, c.Integral := by
  intro l
  induction l with
  | nil => intro i s c hc; cases hc
  | cons p rest ih =>
    intro i s c hc
    obtain ⟨x, indices⟩ := p
    simp only [nominalLoop] at hc
    rcases List.mem_append.1 hc with hc | hc
    · exact proposeBoth_integral (by simp) (by simp) hc
    · exact ih _ _ c hc

omit [Zero M] [Add M] [Sub M] in
theorem propose_integral {cfg : Config M} {i : Interval} {n : Nat} {k : Comparator} {z : Int} {stats : M} {c : Candidate M}
    (hk : ¬(k = .numericalLeq ∨ k = .numericalGr)) (h : c ∈ propose cfg i n k (z : Rat) stats) : c.Integral := by
  obtain ⟨h1, h2⟩ := propose_comparator h
  exact ⟨by rw [h1]; exact hk, z, h2⟩

theorem nominal_typed {cfg : Config M} {bins : List (Int × List Nat)} {mv : Int} {subset : Subset M} {r : List (Candidate M)}
    (h : searchNominal cfg bins mv subset = .ok r) : ∀ c ∈ r, c.Integral := by
  intro c hc
  unfold searchNominal at h
  simp only at h
  have hloop := nominalLoop_integral (cfg := cfg) bins 0 subset c
  generalize nominalLoop cfg 0 bins subset = s at *
  cases ha : useInit s.2.1.acc with
  | error e =>
    rw [ha] at h
    split at h
    · cases h
    · simp only [pure_eq_ok, ok_bind] at h
      split at h
      · cases h
      · cases h
        simp only [List.append_nil] at hc
        exact hloop hc
  | ok a =>
    rw [ha] at h
    simp only [pure_eq_ok, ok_bind] at h
    split at h <;> split at h <;> cases h <;> simp only [List.append_nil, List.mem_append] at hc
    · rcases hc with (hc | hc) | hc
      · exact hloop hc
      · exact propose_integral (by simp) hc
      · exact propose_integral (by simp) hc
    · rcases hc with hc | hc
      · exact hloop hc
      · exact propose_integral (by simp) hc
    · rcases hc with hc | hc
      · exact hloop hc
      · exact propose_integral (by simp) hc
    · exact hloop hc

theorem binary_typed {cfg : Config M} {bins : List (Int × List Nat)} {mv : Int} {subset : Subset M} {r : List (Candidate M)}
    (h : searchBinary cfg bins mv subset = .ok r) : ∀ c ∈ r, c.Integral := by
  intro c hc
  unfold searchBinary at h
  cases bins with
  | nil => cases h
  | cons b rest =>
    simp only [readAt, List.getElem?_cons_zero, ok_bind, pure_eq_ok] at h
    injection h with h
    rw [← h] at hc
    rcases List.mem_append.1 hc with hc | hc <;> exact propose_integral (by simp) hc

/-! ### Ordinal vectors -/

theorem ordForward_integral {cfg : Config M} {mv : Int} : ∀ (l : List (Int × List Nat)) (i : Nat) (s : OrdState M),
    (∀ c ∈ s.candidates, c.Integral) → ∀ c ∈ (ordForward cfg mv i l s).2.candidates, c.Integral := by
  intro l
  induction l with
  | nil => intro i s h c hc; exact h c hc
  | cons p rest ih =>
    intro i s h c hc
    obtain ⟨x, indices⟩ := p
    simp only [ordForward] at hc
    split at hc
    · exact h c hc
    · refine ih _ _ ?_ c hc
      intro c hc
      rcases List.mem_append.1 hc with hc | hc
      · exact h c hc
      · exact proposeBoth_integral (by simp) (by simp) hc

theorem ordBackward_integral {cfg : Config M} {num : Nat} : ∀ (l : List (Int × List Nat)) (k : Nat) (s : OrdState M),
    (∀ c ∈ s.candidates, c.Integral) → ∀ c ∈ (ordBackward cfg num k l s).candidates, c.Integral := by
  intro l
  induction l with
  | nil => intro k s h c hc; exact h c hc
  | cons p rest ih =>
    intro k s h c hc
    obtain ⟨x, indices⟩ := p
    simp only [ordBackward] at hc
    refine ih _ _ ?_ c hc
    intro c hc
    rcases List.mem_append.1 hc with hc | hc
    · exact h c hc
    · exact proposeBoth_integral (by simp) (by simp) hc

theorem ordForwardPhase_integral {cfg : Config M} {b : Int × List Nat} {bins : List (Int × List Nat)} {mv : Int} {subset : Subset M} :
    ∀ c ∈ (ordForwardPhase cfg b bins mv subset).2.candidates, c.Integral := by
  unfold ordForwardPhase
  simp only
  generalize (if b.1 < mv then addAll cfg b.2 subset else (0, subset)) = a
  split
  · exact ordForward_integral _ _ _ (by intro c hc; cases hc)
  · intro c hc; cases hc

theorem ordinal_typed {cfg : Config M} {bins : List (Int × List Nat)} {mv : Int} {subset : Subset M} {r : OrdResult M}
    (h : searchOrdinal cfg bins mv subset = .ok r) : ∀ c ∈ r.all, c.Integral := by
  intro c hc
  cases bins with
  | nil => cases h
  | cons b rest =>
    simp only [searchOrdinal] at h
    have hf := ordForwardPhase_integral (cfg := cfg) (b := b) (bins := rest) (mv := mv) (subset := subset)
    generalize ordForwardPhase cfg b rest mv subset = f at *
    cases hb : ordBackwardPhase cfg (b :: rest) f.1 mv f.2 with
    | error e => rw [hb] at h; cases h
    | ok s =>
      rw [hb, ok_bind] at h
      cases hl : ordAccumulatedPhase cfg f.1 f.2.numCovered f.2.previousValue s with
      | error e => rw [hl] at h; cases h
      | ok last =>
        rw [hl, ok_bind] at h
        cases h
        simp only [OrdResult.all, List.mem_append] at hc
        rcases hc with ((hc | hc) | hc) | hc
        · exact hf c hc
        · unfold ordBackwardPhase at hb
          cases hlast : readAt (b :: rest) ((b :: rest).length - 1) with
          | error e => rw [hlast] at hb; cases hb
          | ok l =>
            rw [hlast, ok_bind] at hb
            simp only at hb
            generalize (if l.1 > mv then addAll cfg l.2 f.2.subset else (0, f.2.subset)) = a at hb
            split at hb
            · cases hb
              exact ordBackward_integral _ _ _ (by intro c hc; cases hc) c hc
            · cases hb; cases hc
        · exact proposeBoth_integral (by simp) (by simp) hc
        · unfold ordAccumulatedPhase at hl
          split at hl
          · cases ha : useInit s.subset.acc with
            | error e => rw [ha] at hl; cases hl
            | ok a =>
              rw [ha, ok_bind] at hl
              cases hl
              exact proposeBoth_integral (by simp) (by simp) hc
          · cases hl; cases hc

end MLRL.Search
