import Verif.Lemma.Search

/-!
# C27, C28, C29: the search for refinements reports what its conditions cover
-/

namespace MLRL.Search
open FeatureSpace

section
variable {M : Type} [AddCommGroup M]

/-! ### Numerical features -/

/-- **C27** (absence of undefined behaviour): the search succeeds iff the vector has an element. -/
theorem numerical_succeeds_iff {cfg : Config M} {sv : Rat} {sparse : Bool} {remaining : List Nat} {entries : List (Nat × Rat)}
    {subset : Subset M} (hU : Start cfg (numericalExamples entries sv remaining) subset) (hsort : SortedEntries entries)
    (hEq : ∀ a, cfg.isEqual a a = true) :
    (∃ r, searchNumerical cfg entries sv sparse subset = .ok r) ↔ entries ≠ [] := by
  unfold searchNumerical
  by_cases h : entries = []
  · rw [if_pos h]; simp [h]
  · rw [if_neg h]
    obtain ⟨A, B, h1, h2⟩ := forwardPhase_spec hU hsort hEq
    have h3 := backwardPhase_spec hU hsort hEq h2
    obtain ⟨l, h4⟩ := accumulated_ok (sparse := sparse) h2 h3
    simp only [h1, h4, ok_bind, pure_eq_ok]
    simp [h]

/-- **C27** (partial: the candidates at the borders between the smallest value that is not less than the sparse value and the values
less than it are missing, see the negations below). All candidates of the forward and of the backward scan, and, if the vector is
sparse, the ones that separate the values less than the sparse value from the rest, report and are evaluated on exactly the examples
that satisfy their conditions, for arbitrary values, weights and statistics. -/
theorem numerical_sound_partial {cfg : Config M} {sv : Rat} {sparse : Bool} {remaining : List Nat} {entries : List (Nat × Rat)}
    {subset : Subset M} {r : NumResult M} (hU : Start cfg (numericalExamples entries sv remaining) subset)
    (hsort : SortedEntries entries) (hEq : ∀ a, cfg.isEqual a a = true)
    (hr : searchNumerical cfg entries sv sparse subset = .ok r) :
    (∀ c ∈ r.forward ++ r.backward, Sound cfg (numericalExamples entries sv remaining) (entrySlice entries) c) ∧
      (sparse = true → ∀ c ∈ r.accumulated, Sound cfg (numericalExamples entries sv remaining) (entrySlice entries) c) := by
  unfold searchNumerical at hr
  by_cases h : entries = []
  · rw [if_pos h] at hr; cases hr
  · rw [if_neg h] at hr
    obtain ⟨A, B, h1, h2⟩ := forwardPhase_spec hU hsort hEq
    have h3 := backwardPhase_spec hU hsort hEq h2
    obtain ⟨l, h4⟩ := accumulated_ok (sparse := sparse) h2 h3
    simp only [h1, h4, ok_bind, pure_eq_ok, Except.ok.injEq] at hr
    subst hr
    refine ⟨fun c hc => ?_, fun hsp => ?_⟩
    · rcases List.mem_append.1 hc with hc | hc
      · exact h2.candidates c hc
      · exact h3.candidates c hc
    · subst hsp
      obtain ⟨l', h5, h6⟩ := accumulated_sound (sparse := true) hU hsort h2 h3 (by
        intro hlt
        simp only [if_true]
        obtain ⟨hm1, hm2⟩ := mean_lt hlt
        refine ⟨fun x hx => ?_, hm1⟩
        rcases List.mem_append.1 hx with hx | hx
        · exact lt_of_lt_of_le hm2 (h2.geq x hx)
        · obtain ⟨z, _, hz⟩ := List.mem_map.1 hx
          subst hz; exact hm2)
      rw [h4] at h5
      injection h5 with h5
      subst h5
      exact h6

/-- **C27** (partial: restricted to vectors in which only one of the values that are not less than the sparse value matters). If,
among the entries with values not less than the sparse value, the first one is the only one with non-zero weight, and its value is
greater than the sparse value or the vector is dense, then all candidates are sound. -/
theorem numerical_all_sound_partial {cfg : Config M} {sv : Rat} {sparse : Bool} {remaining : List Nat} {entries rest : List (Nat × Rat)}
    {e : Nat} {x : Rat} {subset : Subset M} {r : NumResult M} (hU : Start cfg (numericalExamples entries sv remaining) subset)
    (hsort : SortedEntries entries) (hEq : ∀ a, cfg.isEqual a a = true) (hdense : sparse = false → remaining = [])
    (hgeq : entries.filter (fun x => decide (sv ≤ x.2)) = (e, x) :: rest) (hw : cfg.nonZero e = true)
    (hrest : weighted cfg.nonZero rest = []) (hx : sparse = true → sv < x)
    (hr : searchNumerical cfg entries sv sparse subset = .ok r) :
    ∀ c ∈ r.all, Sound cfg (numericalExamples entries sv remaining) (entrySlice entries) c := by
  have hpart := numerical_sound_partial hU hsort hEq hr
  unfold searchNumerical at hr
  by_cases h : entries = []
  · rw [if_pos h] at hr; cases hr
  · rw [if_neg h] at hr
    obtain ⟨A, B, h1, h2⟩ := forwardPhase_spec hU hsort hEq
    have h3 := backwardPhase_spec hU hsort hEq h2
    obtain ⟨l, h4⟩ := accumulated_ok (sparse := sparse) h2 h3
    simp only [h1, h4, ok_bind, pure_eq_ok, Except.ok.injEq] at hr
    have hBeq : B = (e, x) :: rest := by rw [← hgeq]; exact (filter_geq_eq h2.split h2.less h2.geq).symm
    -- the state after the backward scan
    have hadd : (backwardPhase cfg entries A.length (forwardPhase cfg entries sv subset).2).previousValue = x ∧
        Scanned cfg B (backwardPhase cfg entries A.length (forwardPhase cfg entries sv subset).2) := by
      rcases h3.added with ⟨h5, _⟩ | ⟨B1, e', B2, h5, h6, h7, h8⟩
      · rw [hBeq] at h5
        simp [weighted, hw] at h5
      · rcases h8 with ⟨_, _, h8⟩ | h8
        · subst h8
          rw [List.nil_append] at h5
          rw [hBeq] at h5
          injection h5 with h5 h9
          injection h5 with h5 h10
          refine ⟨h10.symm, ?_⟩
          rw [hBeq, h5, h9]
          rw [h10]
          exact h7
        · rw [hBeq] at h8
          exact absurd hrest h8.1
    have hBge : ∀ y ∈ B, x ≤ y.2 := by
      intro y hy
      have hs := hsort
      rw [h2.split, hBeq] at hs
      rw [hBeq] at hy
      rcases List.mem_cons.1 hy with hy | hy
      · subst hy; exact le_refl _
      · exact (List.pairwise_cons.1 (List.pairwise_append.1 hs).2.1).1 y hy
    have hxge : sv ≤ x := h2.geq (e, x) (by rw [hBeq]; simp)
    intro c hc
    unfold NumResult.all at hc
    rcases List.mem_append.1 hc with hc | hc
    · rcases List.mem_append.1 hc with hc | hc
      · exact hpart.1 c hc
      · subst hr
        simp only at hc
        cases hsp : sparse with
        | false => rw [hsp] at hc; simp at hc
        | true =>
          rw [hsp] at hc
          simp only [if_true] at hc
          obtain ⟨hm1, hm2⟩ := mean_lt (hx hsp)
          have hCle : ∀ y ∈ A ++ remaining.map (fun e => (e, sv)), y.2 ≤ sv := by
            intro y hy
            rcases List.mem_append.1 hy with hy | hy
            · exact le_of_lt (h2.less y hy)
            · obtain ⟨z, _, hz⟩ := List.mem_map.1 hy
              subst hz; exact le_refl _
          rw [hadd.1] at hc
          refine proposeBoth_sound (subset := subset) hU (S := B) (C := A ++ remaining.map (fun e => (e, sv))) ?_ ?_ ?_ ?_ ?_ ?_
            hadd.2.numCovered hadd.2.sum h3.total c hc
          · unfold numericalExamples
            nth_rewrite 1 [h2.split]
            rw [← List.append_assoc]
            exact List.perm_append_comm.append_right _
          · nth_rewrite 2 [h2.split]
            nth_rewrite 1 [h2.split]
            exact entrySlice_suffix _ _
          · intro y hy
            simp only [Comparator.holds, decide_eq_true_eq]
            exact lt_of_lt_of_le hm2 (hBge y hy)
          · intro y hy
            simp only [Comparator.holds, decide_eq_false_iff_not, not_lt]
            exact le_trans (hCle y hy) hm1
          · intro y hy
            simp only [Comparator.holds, decide_eq_false_iff_not, not_le]
            exact lt_of_lt_of_le hm2 (hBge y hy)
          · intro y hy
            simp only [Comparator.holds, decide_eq_true_eq]
            exact le_trans (hCle y hy) hm1
    · cases hsp : sparse with
      | true => exact hpart.2 hsp c hc
      | false =>
        have hrem := hdense hsp
        rw [hsp] at h4
        obtain ⟨l', h5, h6⟩ := accumulated_sound (sparse := false) hU hsort h2 h3 (by
          intro hlt
          simp only [hadd.1]
          obtain ⟨hm1, hm2⟩ := mean_lt (lt_of_lt_of_le hlt hxge)
          refine ⟨fun y hy => ?_, hm1⟩
          rw [hrem] at hy
          simp only [List.map_nil, List.append_nil] at hy
          exact lt_of_lt_of_le hm2 (hBge y hy))
        rw [h4] at h5
        injection h5 with h5
        subst h5
        subst hr
        exact h6 c hc

/-- **C27**, negation: if at least two entries with non-zero weight have values not less than the sparse value, the first one of these entries being
one of them, the candidates that separate these values from the sparse value are never sound. They are considered whenever enough examples
are covered. -/
theorem numerical_sparse_border_unsound {cfg : Config M} {sv : Rat} {remaining : List Nat} {entries rest : List (Nat × Rat)}
    {e : Nat} {x : Rat} {subset : Subset M} {r : NumResult M} (hU : Start cfg (numericalExamples entries sv remaining) subset)
    (hsort : SortedEntries entries) (hEq : ∀ a, cfg.isEqual a a = true)
    (hgeq : entries.filter (fun x => decide (sv ≤ x.2)) = (e, x) :: rest) (hw : cfg.nonZero e = true)
    (hrest : weighted cfg.nonZero rest ≠ []) (hr : searchNumerical cfg entries sv true subset = .ok r) :
    (cfg.minCoverage ≤ (weighted cfg.nonZero rest).length → r.sparse ≠ []) ∧
      ∀ c ∈ r.sparse, ¬ Sound cfg (numericalExamples entries sv remaining) (entrySlice entries) c := by
  unfold searchNumerical at hr
  by_cases h : entries = []
  · rw [if_pos h] at hr; cases hr
  · rw [if_neg h] at hr
    obtain ⟨A, B, h1, h2⟩ := forwardPhase_spec hU hsort hEq
    have h3 := backwardPhase_spec hU hsort hEq h2
    obtain ⟨l, h4⟩ := accumulated_ok (sparse := true) h2 h3
    simp only [h1, h4, ok_bind, pure_eq_ok, Except.ok.injEq] at hr
    have hBeq : B = (e, x) :: rest := by rw [← hgeq]; exact (filter_geq_eq h2.split h2.less h2.geq).symm
    have hnum : (backwardPhase cfg entries A.length (forwardPhase cfg entries sv subset).2).numCovered = (weighted cfg.nonZero rest).length := by
      rcases h3.added with ⟨h5, _⟩ | ⟨B1, e', B2, h5, h6, h7, h8⟩
      · rw [hBeq] at h5
        simp [weighted, hw] at h5
      · rcases h8 with ⟨_, h8, h9⟩ | ⟨_, h8⟩
        · subst h9
          rw [List.nil_append, hBeq] at h5
          injection h5 with _ h5
          exact absurd (h5 ▸ h8) hrest
        · obtain ⟨b, rfl⟩ := List.length_eq_one_iff.1 h8
          rw [hBeq] at h5
          injection h5 with _ h5
          rw [h7.numCovered, h5]
          rfl
    have hperm : (numericalExamples entries sv remaining).Perm (B ++ (A ++ remaining.map (fun e => (e, sv)))) := by
      unfold numericalExamples
      nth_rewrite 1 [h2.split]
      rw [← List.append_assoc]
      exact List.perm_append_comm.append_right _
    have hslice : entrySlice entries A.length entries.length = B.map Prod.fst := by
      nth_rewrite 2 [h2.split]
      nth_rewrite 1 [h2.split]
      exact entrySlice_suffix _ _
    obtain ⟨hin, hout⟩ := mem_of_split hperm hU.nodup
    have hB : (weighted cfg.nonZero B).length = (weighted cfg.nonZero rest).length + 1 := by
      rw [hBeq]
      simp [weighted, hw]
    have htotal : cfg.numExamples = (weighted cfg.nonZero B).length + (weighted cfg.nonZero (A ++ remaining.map (fun e => (e, sv)))).length := by
      rw [hU.numExamples, (weighted_perm hperm).length_eq, weighted_append, List.length_append]
    subst hr
    refine ⟨fun hmin => ?_, fun c hc hs => ?_⟩
    · simp only [if_true, proposeBoth, propose, hnum]
      rw [if_pos hmin]
      simp
    · simp only [if_true, proposeBoth, propose, hnum] at hc
      rcases List.mem_append.1 hc with hc | hc
      · split at hc
        · rw [List.mem_singleton] at hc
          subst hc
          have hcount := hs.count
          have hcov := hs.covers
          simp only [hslice, Bool.false_eq_true, if_false] at hcov hcount
          rw [(weighted_perm (filter_split hperm (fun y hy => (hcov y (hperm.symm.subset (List.mem_append_left _ hy))).2 (hin y hy))
            (fun y hy => by
              have := hcov y (hperm.symm.subset (List.mem_append_right _ hy))
              rw [← Bool.not_eq_true, this]
              exact hout y hy))).length_eq] at hcount
          omega
        · cases hc
      · split at hc
        · rw [List.mem_singleton] at hc
          subst hc
          have hcount := hs.count
          have hcov := hs.covers
          simp only [hslice, if_true] at hcov hcount
          rw [(weighted_perm (filter_split (hperm.trans List.perm_append_comm) (fun y hy => (hcov y (hperm.symm.subset (List.mem_append_right _ hy))).2
            (hout y hy)) (fun y hy => by
              have := hcov y (hperm.symm.subset (List.mem_append_left _ hy))
              rw [← Bool.not_eq_true, this]
              exact not_not_intro (hin y hy)))).length_eq, RuleList.sub32_of_le (by omega) hU.size] at hcount
          omega
        · cases hc

/-- **C27**, negation: if no entry has a value not less than the sparse value, at least one of them has non-zero weight, and there are examples with
the sparse value, the candidates that separate these examples from the entries with greater values, which do not exist, are never sound. -/
theorem numerical_sparse_negative_border_unsound {cfg : Config M} {sv : Rat} {remaining : List Nat} {entries : List (Nat × Rat)}
    {subset : Subset M} {r : NumResult M} (hU : Start cfg (numericalExamples entries sv remaining) subset)
    (hsort : SortedEntries entries) (hEq : ∀ a, cfg.isEqual a a = true) (hless : ∀ x ∈ entries, x.2 < sv)
    (hw : weighted cfg.nonZero entries ≠ []) (hrem : remaining ≠ []) (hr : searchNumerical cfg entries sv true subset = .ok r) :
    (cfg.minCoverage ≤ cfg.numExamples → r.sparse ≠ []) ∧
      ∀ c ∈ r.sparse, ¬ Sound cfg (numericalExamples entries sv remaining) (entrySlice entries) c := by
  unfold searchNumerical at hr
  by_cases h : entries = []
  · rw [if_pos h] at hr; cases hr
  · rw [if_neg h] at hr
    obtain ⟨A, B, h1, h2⟩ := forwardPhase_spec hU hsort hEq
    have h3 := backwardPhase_spec hU hsort hEq h2
    obtain ⟨l, h4⟩ := accumulated_ok (sparse := true) h2 h3
    simp only [h1, h4, ok_bind, pure_eq_ok, Except.ok.injEq] at hr
    have hB : B = [] := by
      cases hB : B with
      | nil => rfl
      | cons b B' =>
        have hb : b ∈ B := by rw [hB]; simp
        exact absurd (h2.geq b hb) (not_le.2 (hless b (by rw [h2.split]; exact List.mem_append_right _ hb)))
    subst hB
    have hA : entries = A := by rw [h2.split, List.append_nil]
    obtain ⟨hn, hp⟩ : (backwardPhase cfg entries A.length (forwardPhase cfg entries sv subset).2).numCovered = 0 ∧
        (backwardPhase cfg entries A.length (forwardPhase cfg entries sv subset).2).previousValue < sv := by
      rcases h3.added with ⟨_, h5, h6⟩ | ⟨B1, e', B2, h5, _⟩
      · refine ⟨by rw [h5.numCovered]; rfl, ?_⟩
        rw [h6]
        obtain ⟨_, Q, e', h7⟩ := h2.some (by
          rw [h2.numCovered, ← hA]
          exact List.length_pos_iff.2 hw)
        exact h2.less _ (by rw [h7]; exact List.mem_append_right _ (List.mem_singleton.2 rfl))
      · simp at h5
    obtain ⟨hm1, hm2⟩ := mean_lt hp
    obtain ⟨z, hz⟩ := List.exists_mem_of_ne_nil _ hrem
    have hmem : (z, sv) ∈ numericalExamples entries sv remaining := List.mem_append_right _ (List.mem_map.2 ⟨z, hz, rfl⟩)
    have hslice : entrySlice entries A.length entries.length = [] := by
      rw [hA]
      simp [entrySlice]
    have hmean : mean sv (backwardPhase cfg entries A.length (forwardPhase cfg entries sv subset).2).previousValue < sv := by
      unfold mean
      linarith
    subst hr
    refine ⟨fun hmin => ?_, fun c hc hs => ?_⟩
    · simp only [if_true, proposeBoth, propose, hn]
      rw [RuleList.sub32_of_le (by omega) hU.size, Nat.sub_zero, if_pos hmin (c := cfg.numExamples ≥ cfg.minCoverage)]
      simp
    · have hcov := hs.covers _ hmem
      simp only [if_true, proposeBoth, propose] at hc
      rcases List.mem_append.1 hc with hc | hc
      · split at hc
        · rw [List.mem_singleton] at hc
          subst hc
          simp [hslice, Comparator.holds] at hcov
          exact absurd hmean (not_lt.2 hcov)
        · cases hc
      · split at hc
        · rw [List.mem_singleton] at hc
          subst hc
          simp [hslice, Comparator.holds] at hcov
          exact absurd hmean (not_lt.2 hcov)
        · cases hc

/-! ### Nominal and binary features -/

/-- **C28**, nominal features: if there is at least one bin, the search succeeds and all candidates report and are evaluated on
exactly the examples that satisfy their conditions. -/
theorem nominal_sound {cfg : Config M} {mv : Int} {remaining : List Nat} {bins : List (Int × List Nat)} {subset : Subset M}
    (hU : Start cfg (nominalExamples bins mv remaining) subset) (hvals : (mv :: bins.map Prod.fst).Nodup) (hne : bins ≠ []) :
    ∃ r, searchNominal cfg bins mv subset = .ok r ∧
      ∀ c ∈ r, Sound cfg (nominalExamples bins mv remaining) (binSlice bins) c := by
  obtain ⟨h1, h2, h3, h4⟩ := nominalLoop_spec hU hvals bins [] subset rfl hU.sum rfl (Or.inl ⟨rfl, hU.acc⟩)
  simp only [List.length_nil] at h1 h2 h3 h4
  have hacc : (nominalLoop cfg 0 bins subset).2.1.acc = some (weightedSum cfg.nonZero cfg.stat (pairs bins)) := by
    rcases h3 with ⟨h, _⟩ | ⟨_, h⟩
    · exact absurd h hne
    · exact h
  have hslice : binSlice bins 0 bins.length = (pairs bins).map Prod.fst := by
    have := binSlice_prefix bins []
    rwa [List.append_nil] at this
  have hne' : ∀ y ∈ pairs bins, y.2 ≠ (mv : Rat) := by
    intro y hy
    obtain ⟨b, hb, _, h⟩ := mem_pairs.1 hy
    rw [h]
    intro heq
    have : b.1 = mv := by exact_mod_cast heq
    exact (List.nodup_cons.1 hvals).1 (this ▸ List.mem_map_of_mem hb)
  have heq' : ∀ y ∈ remaining.map (fun e => (e, (mv : Rat))), y.2 = (mv : Rat) := by
    intro y hy
    obtain ⟨z, _, hz⟩ := List.mem_map.1 hy
    subst hz; rfl
  have hboth := proposeBoth_sound (subset := subset) (slice := binSlice bins) hU (S := pairs bins)
    (C := remaining.map (fun e => (e, (mv : Rat)))) (start := 0) (stop := bins.length) (c := .nominalNeq) (c' := .nominalEq)
    (t := (mv : Rat)) (List.Perm.refl _) hslice (fun y hy => by simp [Comparator.holds, hne' y hy])
    (fun y hy => by simp [Comparator.holds, heq' y hy]) (fun y hy => by simp [Comparator.holds, hne' y hy])
    (fun y hy => by simp [Comparator.holds, heq' y hy]) h1 rfl h2
  unfold proposeBoth at hboth
  unfold searchNominal
  simp only [hacc, useInit, ok_bind]
  by_cases hc1 : (nominalLoop cfg 0 bins subset).1 ≥ cfg.minCoverage <;>
    by_cases hc2 : sub32 cfg.numExamples (nominalLoop cfg 0 bins subset).1 ≥ cfg.minCoverage
  · simp only [if_pos hc1, if_pos hc2, pure_eq_ok, ok_bind]
    refine ⟨_, rfl, fun c hc => ?_⟩
    rw [List.append_assoc] at hc
    rcases List.mem_append.1 hc with hc | hc
    · exact h4 c hc
    · exact hboth c hc
  · simp only [if_pos hc1, if_neg hc2, pure_eq_ok, ok_bind]
    refine ⟨_, rfl, fun c hc => ?_⟩
    rw [List.append_nil] at hc
    rcases List.mem_append.1 hc with hc | hc
    · exact h4 c hc
    · exact hboth c (List.mem_append_left _ hc)
  · simp only [if_neg hc1, if_pos hc2, pure_eq_ok, ok_bind]
    refine ⟨_, rfl, fun c hc => ?_⟩
    rw [List.append_nil] at hc
    rcases List.mem_append.1 hc with hc | hc
    · exact h4 c hc
    · exact hboth c (List.mem_append_right _ hc)
  · simp only [if_neg hc1, if_neg hc2, pure_eq_ok, ok_bind]
    refine ⟨_, rfl, fun c hc => ?_⟩
    rw [List.append_nil, List.append_nil] at hc
    exact h4 c hc

/-- **C28**, binary features: if there is exactly one bin, the search succeeds and both candidates report and are evaluated on exactly
the examples that satisfy their conditions. -/
theorem binary_sound {cfg : Config M} {mv v : Int} {remaining indices : List Nat} {subset : Subset M}
    (hU : Start cfg (nominalExamples [(v, indices)] mv remaining) subset) (hvals : v ≠ mv) :
    ∃ r, searchBinary cfg [(v, indices)] mv subset = .ok r ∧
      ∀ c ∈ r, Sound cfg (nominalExamples [(v, indices)] mv remaining) (binSlice [(v, indices)]) c := by
  refine ⟨_, rfl, ?_⟩
  have hS : ∀ y ∈ pairs [(v, indices)], y.2 = (v : Rat) := by
    intro y hy
    obtain ⟨b, hb, _, h⟩ := mem_pairs.1 hy
    rw [List.mem_singleton] at hb
    subst hb; exact h
  have hC : ∀ y ∈ remaining.map (fun e => (e, (mv : Rat))), y.2 = (mv : Rat) := by
    intro y hy
    obtain ⟨z, _, hz⟩ := List.mem_map.1 hy
    subst hz; rfl
  have hvm : (v : Rat) ≠ (mv : Rat) := by exact_mod_cast hvals
  have hslice : binSlice [(v, indices)] 0 1 = (pairs [(v, indices)]).map Prod.fst := binSlice_prefix [(v, indices)] []
  have hpair : pairs [(v, indices)] = indices.map (fun e => (e, (v : Rat))) := by simp [pairs]
  have hcount : (addAll cfg indices subset).1 = (weighted cfg.nonZero (pairs [(v, indices)])).length := by
    rw [addAll_eq, hpair]; exact congrArg List.length (weighted_bin cfg.nonZero (v, indices)).symm
  have hsum : (addAll cfg indices subset).2.sum = weightedSum cfg.nonZero cfg.stat (pairs [(v, indices)]) := by
    rw [addAll_eq, hpair]
    simp only
    rw [hU.sum, zero_add]
    exact (weightedSum_bin cfg.nonZero cfg.stat (v, indices)).symm
  have htot : (addAll cfg indices subset).2.total = subset.total := by rw [addAll_eq]
  have h1 := proposeBoth_sound (subset := subset) (slice := binSlice [(v, indices)]) hU (S := pairs [(v, indices)])
    (C := remaining.map (fun e => (e, (mv : Rat)))) (start := 0) (stop := 1) (c := .nominalEq) (c' := .nominalNeq) (t := (v : Rat))
    (List.Perm.refl _) hslice (fun y hy => by simp [Comparator.holds, hS y hy])
    (fun y hy => by simp [Comparator.holds, hC y hy, hvm.symm]) (fun y hy => by simp [Comparator.holds, hS y hy])
    (fun y hy => by simp [Comparator.holds, hC y hy, hvm.symm]) hcount hsum htot
  have h2 := proposeBoth_sound (subset := subset) (slice := binSlice [(v, indices)]) hU (S := pairs [(v, indices)])
    (C := remaining.map (fun e => (e, (mv : Rat)))) (start := 0) (stop := 1) (c := .nominalNeq) (c' := .nominalEq) (t := (mv : Rat))
    (List.Perm.refl _) hslice (fun y hy => by simp [Comparator.holds, hS y hy, hvm])
    (fun y hy => by simp [Comparator.holds, hC y hy]) (fun y hy => by simp [Comparator.holds, hS y hy, hvm])
    (fun y hy => by simp [Comparator.holds, hC y hy]) hcount hsum htot
  intro c hc
  rcases List.mem_append.1 hc with hc | hc
  · exact h1 c (List.mem_append_left _ hc)
  · exact h2 c (List.mem_append_right _ hc)

/-! ### Ordinal features -/

/-- **C29** (partial: the smallest and the largest value must not only belong to examples with zero weight, unless they are on the
other side of the majority value; the negations below show that this is needed). All candidates of the search report and are
evaluated on exactly the examples that satisfy their conditions. -/
theorem ordinal_sound_partial {cfg : Config M} {mv : Int} {remaining : List Nat} {bins : List (Int × List Nat)} {subset : Subset M}
    (hU : Start cfg (nominalExamples bins mv remaining) subset) (hsort : SortedBins bins mv) (hne : bins ≠ [])
    (hfirst : ∀ b, bins.head? = some b → b.1 < mv → b.2.filter cfg.nonZero ≠ [])
    (hlast : ∀ b, bins.getLast? = some b → mv < b.1 → b.2.filter cfg.nonZero ≠ []) :
    ∃ r, searchOrdinal cfg bins mv subset = .ok r ∧
      ∀ c ∈ r.all, Sound cfg (nominalExamples bins mv remaining) (binSlice bins) c := by
  obtain ⟨b, rest, rfl⟩ : ∃ b rest, bins = b :: rest := by
    cases bins with
    | nil => exact absurd rfl hne
    | cons b rest => exact ⟨b, rest, rfl⟩
  unfold searchOrdinal
  simp only
  -- the forward phase
  obtain ⟨A, B, hsplit, hfst, hA, hB, hnum, hsum, htot, hcand, hacc⟩ : ∃ A B, b :: rest = A ++ B ∧
      (ordForwardPhase cfg b rest mv subset).1 = A.length ∧ (∀ x ∈ A, x.1 < mv) ∧ (∀ x ∈ B, mv < x.1) ∧
      (ordForwardPhase cfg b rest mv subset).2.numCovered = (weighted cfg.nonZero (pairs A)).length ∧
      (ordForwardPhase cfg b rest mv subset).2.subset.sum = 0 ∧
      (ordForwardPhase cfg b rest mv subset).2.subset.total = subset.total ∧
      (∀ c ∈ (ordForwardPhase cfg b rest mv subset).2.candidates,
        Sound cfg (nominalExamples (b :: rest) mv remaining) (binSlice (b :: rest)) c) ∧
      (0 < (ordForwardPhase cfg b rest mv subset).2.numCovered →
        (ordForwardPhase cfg b rest mv subset).2.subset.acc = some (weightedSum cfg.nonZero cfg.stat (pairs A)) ∧
        ∃ A' is, A = A' ++ [((ordForwardPhase cfg b rest mv subset).2.previousValue, is)]) := by
    unfold ordForwardPhase
    simp only
    by_cases hlt : b.1 < mv
    · have hw := hfirst b rfl hlt
      have hpos : 0 < (addAll cfg b.2 subset).1 := by
        rw [addAll_eq]; exact List.length_pos_iff.2 hw
      simp only [if_pos hlt]
      rw [if_pos hpos]
      have hsc : OrdScanned cfg ([] ++ [(b.1, b.2)])
          { subset := (addAll cfg b.2 subset).2, numCovered := (addAll cfg b.2 subset).1, previousValue := b.1, candidates := [] } := by
        have h0 : OrdScanned cfg [] { subset := subset, numCovered := 0, previousValue := b.1, candidates := [] } :=
          ⟨by simp [pairs, weighted], by simp [pairs, weightedSum, weighted, hU.sum]⟩
        have := h0.add (b := b) (List.Perm.refl _) b.1 []
        simpa using this
      have hspec := ordForward_spec hU hsort rest [] b.2
        { subset := (addAll cfg b.2 subset).2, numCovered := (addAll cfg b.2 subset).1, previousValue := b.1, candidates := [] }
        rfl hsc hlt (by rw [addAll_eq]) (by simp)
      simp only [List.length_nil, Nat.zero_add] at hspec
      obtain ⟨h1, h2, h3, Q, is', l', h4, h5, h6, h7, h8, h9⟩ := hspec
      refine ⟨Q ++ [(_, is')], l', by rw [h4]; simp, by rw [h5]; simp, ?_, h8, h7.numCovered, rfl, h1, h3, fun _ => ⟨?_, Q, is', rfl⟩⟩
      · intro x hx
        have hpw := hsort.1
        rw [h4] at hpw
        rcases List.mem_append.1 hx with hx | hx
        · have := (List.pairwise_append.1 hpw).2.2 x hx _ (List.mem_cons_self)
          simp only at this; omega
        · rw [List.mem_singleton] at hx; subst hx; exact h6
      · simp only [Subset.reset, h2]
        have : (addAll cfg b.2 subset).2.acc = none := by rw [addAll_eq]; exact hU.acc
        rw [this]
        simp only
        rw [h7.sum]
    · simp only [if_neg hlt]
      rw [if_neg (by omega)]
      refine ⟨[], b :: rest, rfl, rfl, by simp, ?_, by simp [pairs, weighted], hU.sum, rfl, by simp, by simp⟩
      have hbne := hsort.2 b (by simp)
      intro x hx
      rcases List.mem_cons.1 hx with hx | hx
      · subst hx; omega
      · have := (List.pairwise_cons.1 hsort.1).1 x hx
        omega
  generalize ordForwardPhase cfg b rest mv subset = f at *
  obtain ⟨first, s⟩ := f
  simp only at hfst hnum hsum htot hcand hacc ⊢
  subst hfst
  generalize hbins : b :: rest = bins at *
  have hlen : rest.length + 1 = bins.length := by rw [← hbins]; rfl
  -- the backward phase
  obtain ⟨s', hs', ht', hacc', hcand', hsc'⟩ : ∃ s', ordBackwardPhase cfg bins A.length mv s = .ok s' ∧
      s'.subset.total = subset.total ∧ s'.subset.acc = s.subset.acc ∧
      (∀ c ∈ s'.candidates, Sound cfg (nominalExamples bins mv remaining) (binSlice bins) c) ∧ OrdScanned cfg B s' := by
    unfold ordBackwardPhase
    have hpos : 0 < bins.length := by omega
    rw [readAt_of_lt (by omega : bins.length - 1 < bins.length), ok_bind]
    have hlastb : bins.getLast? = some bins[bins.length - 1] := by
      rw [List.getLast?_eq_getElem?, List.getElem?_eq_getElem (by omega)]
    have hdrop : bins.drop A.length = B := by rw [hsplit]; simp
    rw [hdrop]
    by_cases hgt : bins[bins.length - 1].1 > mv
    · simp only [if_pos hgt]
      have hw := hlast _ hlastb hgt
      have hpos : 0 < (addAll cfg bins[bins.length - 1].2 s.subset).1 := by
        rw [addAll_eq]; exact List.length_pos_iff.2 hw
      rw [if_pos hpos]
      have hBne : B ≠ [] := by
        intro hnil
        rw [hnil, List.append_nil] at hsplit
        have := hA bins[bins.length - 1] (by rw [← hsplit]; exact List.getElem_mem _)
        omega
      have hBlast : B.getLast? = some bins[bins.length - 1] := by
        rw [← hlastb, hsplit, List.getLast?_append_of_ne_nil _ hBne]
      obtain ⟨B', hB'⟩ : ∃ B', B = B' ++ [bins[bins.length - 1]] := by
        rw [List.getLast?_eq_some_iff] at hBlast
        exact hBlast
      generalize bins[bins.length - 1] = lb at *
      have hrev : B.reverse.drop 1 = B'.reverse := by rw [hB']; simp
      rw [hrev]
      have h0 : OrdScanned cfg [] { s with numCovered := 0, candidates := [] } :=
        ⟨by simp [pairs, weighted], by simp [pairs, weightedSum, weighted, hsum]⟩
      have hsc : OrdScanned cfg [lb]
          { subset := (addAll cfg lb.2 s.subset).2, numCovered := (addAll cfg lb.2 s.subset).1,
            previousValue := s.previousValue, candidates := [] } := by
        have := h0.add (b := lb) (Q := [lb]) (List.Perm.refl _) s.previousValue []
        simpa using this
      have hspec := ordBackward_spec (A := A) hU hsort hA B'.reverse [lb] _
        (by rw [List.reverse_reverse, hsplit, hB', List.append_assoc]) hsc
        (fun x hx => hB x (by rw [hB']; simp at hx; simp [hx])) (by rw [addAll_eq]; exact htot) (by simp)
      have hk : A.length + B'.reverse.length = bins.length - 1 := by rw [hsplit, hB']; simp
      rw [hk] at hspec
      obtain ⟨h1, h2, h3, h4⟩ := hspec
      refine ⟨_, rfl, h1, ?_, h3, ?_⟩
      · rw [h2, addAll_eq]
      · rw [List.reverse_reverse] at h4
        rw [hB']
        exact h4
    · simp only [if_neg hgt]
      rw [if_neg (by omega)]
      have hBnil : B = [] := by
        by_contra hBne
        have hBlast : B.getLast? = some bins[bins.length - 1] := by
          rw [← hlastb, hsplit, List.getLast?_append_of_ne_nil _ hBne]
        have := hB _ (List.mem_of_getLast? hBlast)
        omega
      refine ⟨_, rfl, htot, rfl, by simp, ?_, ?_⟩
      · simp [hBnil, pairs, weighted]
      · simp [hBnil, pairs, weighted, weightedSum, hsum]
  rw [hs', ok_bind]
  -- the two sides of the majority value
  have hAle : ∀ y ∈ pairs A, y.2 < (mv : Rat) := by
    intro y hy
    obtain ⟨b, hb, _, h⟩ := mem_pairs.1 hy
    rw [h]; exact_mod_cast hA b hb
  have hBgt : ∀ y ∈ pairs B, (mv : Rat) < y.2 := by
    intro y hy
    obtain ⟨b, hb, _, h⟩ := mem_pairs.1 hy
    rw [h]; exact_mod_cast hB b hb
  have hR : ∀ y ∈ remaining.map (fun e => (e, (mv : Rat))), y.2 = (mv : Rat) := by
    intro y hy
    obtain ⟨z, _, hz⟩ := List.mem_map.1 hy
    subst hz; rfl
  have hborder : ∀ c ∈ proposeBoth cfg A.length (rest.length + 1) s'.numCovered .ordinalGr .ordinalLeq mv s'.subset.sum
      s'.subset.total, Sound cfg (nominalExamples bins mv remaining) (binSlice bins) c := by
    refine proposeBoth_sound (subset := subset) hU (S := pairs B) (C := pairs A ++ remaining.map (fun e => (e, (mv : Rat))))
      ?_ ?_ ?_ ?_ ?_ ?_ hsc'.numCovered hsc'.sum ht'
    · rw [nominalExamples_eq]
      nth_rewrite 1 [hsplit]
      rw [pairs_append, ← List.append_assoc]
      exact List.perm_append_comm.append_right _
    · rw [hlen]
      nth_rewrite 2 [hsplit]
      nth_rewrite 1 [hsplit]
      exact binSlice_suffix _ _
    · intro y hy
      simp only [Comparator.holds, decide_eq_true_eq]; exact hBgt y hy
    · intro y hy
      simp only [Comparator.holds, decide_eq_false_iff_not, not_lt]
      rcases List.mem_append.1 hy with hy | hy
      · exact le_of_lt (hAle y hy)
      · exact le_of_eq (hR y hy)
    · intro y hy
      simp only [Comparator.holds, decide_eq_false_iff_not, not_le]; exact hBgt y hy
    · intro y hy
      simp only [Comparator.holds, decide_eq_true_eq]
      rcases List.mem_append.1 hy with hy | hy
      · exact le_of_lt (hAle y hy)
      · exact le_of_eq (hR y hy)
  obtain ⟨l, hl, hls⟩ : ∃ l, ordAccumulatedPhase cfg A.length s.numCovered s.previousValue s' = .ok l ∧
      ∀ c ∈ l, Sound cfg (nominalExamples bins mv remaining) (binSlice bins) c := by
    unfold ordAccumulatedPhase
    by_cases h : s.numCovered > 0 ∧ s.numCovered < cfg.numExamples
    · rw [if_pos h]
      obtain ⟨h1, A', is, hA'⟩ := hacc h.1
      rw [hacc', h1]
      refine ⟨_, rfl, ?_⟩
      have hlt : s.previousValue < mv := hA (s.previousValue, is) (by rw [hA']; simp)
      have hle : ∀ y ∈ pairs A, y.2 ≤ (s.previousValue : Rat) := by
        intro y hy
        obtain ⟨b, hb, _, h⟩ := mem_pairs.1 hy
        rw [h]
        have hpw := hsort.1
        rw [hsplit, hA'] at hpw
        rw [hA'] at hb
        rcases List.mem_append.1 hb with hb | hb
        · have := (List.pairwise_append.1 (List.pairwise_append.1 hpw).1).2.2 b hb _ (List.mem_singleton.2 rfl)
          exact_mod_cast le_of_lt this
        · rw [List.mem_singleton] at hb; subst hb; exact le_refl _
      have hgt : ∀ y ∈ pairs B ++ remaining.map (fun e => (e, (mv : Rat))), (s.previousValue : Rat) < y.2 := by
        have hlt' : (s.previousValue : Rat) < (mv : Rat) := by exact_mod_cast hlt
        intro y hy
        rcases List.mem_append.1 hy with hy | hy
        · exact lt_trans hlt' (hBgt y hy)
        · rw [hR y hy]; exact hlt'
      refine proposeBoth_sound (subset := subset) hU (S := pairs A) (C := pairs B ++ remaining.map (fun e => (e, (mv : Rat))))
        ?_ ?_ ?_ ?_ ?_ ?_ hnum rfl ht'
      · rw [nominalExamples_eq]
        nth_rewrite 1 [hsplit]
        rw [pairs_append, List.append_assoc]
      · rw [hsplit]; exact binSlice_prefix _ _
      · intro y hy
        simp only [Comparator.holds, decide_eq_true_eq]; exact hle y hy
      · intro y hy
        simp only [Comparator.holds, decide_eq_false_iff_not, not_le]; exact hgt y hy
      · intro y hy
        simp only [Comparator.holds, decide_eq_false_iff_not, not_lt]; exact hle y hy
      · intro y hy
        simp only [Comparator.holds, decide_eq_true_eq]; exact hgt y hy
    · rw [if_neg h]
      exact ⟨[], rfl, by simp⟩
  rw [hl, ok_bind]
  refine ⟨_, rfl, fun c hc => ?_⟩
  unfold OrdResult.all at hc
  simp only [List.mem_append] at hc
  rcases hc with ((hc | hc) | hc) | hc
  · exact hcand c hc
  · exact hcand' c hc
  · exact hborder c hc
  · exact hls c hc

/-! ### From candidates to coverage -/

/-- **C27, C28, C29** (connection to C21): the interval of a sound candidate describes its condition in the sense that is required for
adding the condition to a feature subspace. `examples` are the examples that are covered by the rule to be refined and have no
missing value. -/
theorem sound_describes {cfg : Config M} {n : Nat} {covered : Nat → Bool} {v : FeatureVector} {examples : List (Nat × Rat)}
    {c : Candidate M} (hwf : v.WellFormed n) (hnd : (examples.map Prod.fst).Nodup)
    (hex : ∀ e, e < n → covered e = true → (e ∈ examples.map Prod.fst ↔ e ∉ v.missing))
    (hslice : ∀ a b, ∀ e ∈ v.slice a b, e ∈ v.examples) (hc : Sound cfg examples (fun a b => v.slice a b) c) :
    v.Describes n covered c.interval
      (fun e => examples.any (fun x => x.1 == e && c.comparator.holds c.threshold x.2)) := by
  intro e he hcov
  have hsat : (examples.any (fun x => x.1 == e && c.comparator.holds c.threshold x.2)) = true ↔
      ∃ x ∈ examples, x.1 = e ∧ c.comparator.holds c.threshold x.2 = true := by
    rw [List.any_eq_true]
    constructor
    · rintro ⟨x, hx, h⟩
      rw [Bool.and_eq_true, beq_iff_eq] at h
      exact ⟨x, hx, h.1, h.2⟩
    · rintro ⟨x, hx, h1, h2⟩
      exact ⟨x, hx, by rw [Bool.and_eq_true, beq_iff_eq]; exact ⟨h1, h2⟩⟩
  rw [hsat]
  by_cases hm : e ∈ v.missing
  · have hno : ¬ ∃ x ∈ examples, x.1 = e ∧ c.comparator.holds c.threshold x.2 = true := by
      rintro ⟨x, hx, h1, _⟩
      exact (hex e he hcov).1 (h1 ▸ List.mem_map_of_mem hx) hm
    have hns : e ∉ v.slice c.interval.start c.interval.stop := by
      intro h
      have h1 := hwf.nodup
      rw [List.nodup_append] at h1
      exact h1.2.2 e (hslice _ _ e h) e hm rfl
    simp only [hno, false_iff]
    split
    · exact fun h => h.2 hm
    · exact hns
  · obtain ⟨x, hx, rfl⟩ := List.mem_map.1 ((hex e he hcov).2 hm)
    have hiff : (∃ y ∈ examples, y.1 = x.1 ∧ c.comparator.holds c.threshold y.2 = true) ↔
        c.comparator.holds c.threshold x.2 = true := by
      constructor
      · rintro ⟨y, hy, h1, h2⟩
        have : y = x := by
          have := List.inj_on_of_nodup_map hnd hy hx h1
          exact this
        rwa [this] at h2
      · exact fun h => ⟨x, hx, rfl, h⟩
    rw [hiff, hc.covers x hx]
    split
    · exact ⟨fun h => ⟨h, hm⟩, fun h => h.1⟩
    · exact Iff.rfl

end

/-! ### Concrete cases -/

/-- A configuration in which all examples but number 7 have non-zero weight. -/
def exConfig (n : Nat) : Config Int :=
  { nonZero := fun e => e != 7, stat := fun e => 10 ^ e, isEqual := fun a b => a == b, numExamples := n, minCoverage := 1 }

/-- A new subset. -/
def exSubset (total : Int) : Subset Int := { sum := 0, acc := none, total := total }

theorem exConfig_isEqual (n : Nat) : ∀ a, (exConfig n).isEqual a a = true := by intro a; simp [exConfig]

/-- A dense vector with negative and positive values. -/
example : Start (exConfig 5) (numericalExamples [(0, -4), (1, -2), (7, -1), (2, 3), (3, 5), (4, 9)] 0 []) (exSubset 11111) ∧
    SortedEntries [(0, -4), (1, -2), (7, -1), (2, 3), (3, 5), (4, 9)] ∧
    (searchNumerical (exConfig 5) [(0, -4), (1, -2), (7, -1), (2, 3), (3, 5), (4, 9)] 0 false (exSubset 11111)).map
        (fun r => (r.forward.map (fun c => (c.numCovered, c.threshold, c.stats)),
          r.backward.map (fun c => (c.numCovered, c.threshold, c.stats)))) =
      .ok ([(1, -3, 1), (4, -3, 11110)], [(1, 7, 10000), (4, 7, 1111)]) :=
  ⟨⟨by decide +kernel, by decide +kernel, by decide +kernel, rfl, rfl, by decide +kernel⟩,
    by unfold SortedEntries; decide +kernel, by decide +kernel⟩

/-- The hypotheses of `numerical_all_sound_partial` can be met by a sparse vector. -/
example : Start (exConfig 4) (numericalExamples [(0, -4), (1, -2), (2, 3)] 0 [5]) (exSubset 100111) ∧
    [((0 : Nat), (-4 : Rat)), (1, -2), (2, 3)].filter (fun x => decide ((0 : Rat) ≤ x.2)) = (2, 3) :: [] ∧
    (exConfig 4).nonZero 2 = true ∧
    (searchNumerical (exConfig 4) [(0, -4), (1, -2), (2, 3)] 0 true (exSubset 100111)).map
        (fun r => r.all.map (fun c => (c.numCovered, c.threshold, c.stats))) =
      .ok [(1, -3, 1), (3, -3, 100110), (1, 3 / 2, 100), (3, 3 / 2, 100011), (2, -1, 11), (2, -1, 100100)] :=
  ⟨⟨by decide +kernel, by decide +kernel, by decide +kernel, rfl, rfl, by decide +kernel⟩, by decide +kernel, by decide +kernel,
    by decide +kernel⟩

/-- **C27**, negation, completeness: for a dense vector with the values 1 and 2 no candidate is considered at all, although there are
two examples that are separated by the conditions `<= 1.5` and `> 1.5`. -/
theorem numerical_dense_border_omitted :
    Start (exConfig 2) (numericalExamples [(0, 1), (1, 2)] 0 []) (exSubset 11) ∧
      (searchNumerical (exConfig 2) [(0, 1), (1, 2)] 0 false (exSubset 11)).map NumResult.all = .ok [] :=
  ⟨⟨by decide +kernel, by decide +kernel, by decide +kernel, rfl, rfl, by decide +kernel⟩, by decide +kernel⟩

/-- **C27**, negation: for a dense vector with the values -4, 1 and 9 the candidate `<= 2.5` is considered, which is satisfied by two
examples, but it is reported to cover only one. -/
theorem numerical_dense_unsound :
    Start (exConfig 3) (numericalExamples [(0, -4), (1, 1), (2, 9)] 0 []) (exSubset 111) ∧
      ∃ r c, searchNumerical (exConfig 3) [(0, -4), (1, 1), (2, 9)] 0 false (exSubset 111) = .ok r ∧ c ∈ r.all ∧
        ¬ Sound (exConfig 3) (numericalExamples [(0, -4), (1, 1), (2, 9)] 0 []) (entrySlice [(0, -4), (1, 1), (2, 9)]) c :=
  ⟨⟨by decide +kernel, by decide +kernel, by decide +kernel, rfl, rfl, by decide +kernel⟩, _,
    ⟨⟨0, 1, false⟩, 1, .numericalLeq, 5 / 2, 1⟩, rfl, by decide +kernel, fun h => absurd h.count (by decide +kernel)⟩

/-- **C27**, negation: for a sparse vector with the values 2, 5 and 0 the candidate `> 2.5` with an interval that contains the value 2
is considered. -/
theorem numerical_sparse_unsound :
    Start (exConfig 3) (numericalExamples [(0, 2), (1, 5)] 0 [2]) (exSubset 111) ∧
      ∃ r c, searchNumerical (exConfig 3) [(0, 2), (1, 5)] 0 true (exSubset 111) = .ok r ∧ c ∈ r.all ∧
        ¬ ∀ x ∈ numericalExamples [(0, 2), (1, 5)] 0 [2], c.comparator.holds c.threshold x.2 = true ↔
          (if c.interval.inverse then x.1 ∉ entrySlice [(0, 2), (1, 5)] c.interval.start c.interval.stop
            else x.1 ∈ entrySlice [(0, 2), (1, 5)] c.interval.start c.interval.stop) :=
  ⟨⟨by decide +kernel, by decide +kernel, by decide +kernel, rfl, rfl, by decide +kernel⟩, _,
    ⟨⟨0, 2, false⟩, 1, .numericalGr, 5 / 2, 10⟩, rfl, by decide +kernel, by decide +kernel⟩

/-- **C27**, negation: for a sparse vector without positive values the candidate `<= -1` is considered and reported to cover all
examples, although it is not satisfied by the examples with the sparse value. -/
theorem numerical_sparse_negative_unsound :
    Start (exConfig 2) (numericalExamples [(0, -2)] 0 [1]) (exSubset 11) ∧
      ∃ r c, searchNumerical (exConfig 2) [(0, -2)] 0 true (exSubset 11) = .ok r ∧ c ∈ r.all ∧
        ¬ Sound (exConfig 2) (numericalExamples [(0, -2)] 0 [1]) (entrySlice [(0, -2)]) c :=
  ⟨⟨by decide +kernel, by decide +kernel, by decide +kernel, rfl, rfl, by decide +kernel⟩, _,
    ⟨⟨1, 1, true⟩, 2, .numericalLeq, -1, 11⟩, rfl, by decide +kernel, fun h => absurd h.count (by decide +kernel)⟩

/-- The hypotheses of `numerical_sparse_border_unsound` and `numerical_sparse_negative_border_unsound` are met. In both cases, candidates are
considered. -/
example : Start (exConfig 3) (numericalExamples [(0, 2), (1, 5)] 0 [2]) (exSubset 111) ∧
    ([(0, 2), (1, 5)] : List (Nat × Rat)).filter (fun x => decide (0 ≤ x.2)) = [(0, 2), (1, 5)] ∧ (exConfig 3).nonZero 0 = true ∧
    weighted (exConfig 3).nonZero ([(1, 5)] : List (Nat × Rat)) ≠ [] ∧
    (searchNumerical (exConfig 3) [(0, 2), (1, 5)] 0 true (exSubset 111)).map (fun r => r.sparse.map (fun c => (c.numCovered, c.threshold))) =
      .ok [(1, (5 / 2 : Rat)), (2, (5 / 2 : Rat))] :=
  ⟨⟨by decide, by decide, by decide, by decide, by decide, by decide⟩, by decide +kernel, by decide, by decide, by decide +kernel⟩

example : Start (exConfig 2) (numericalExamples [(0, -2)] 0 [1]) (exSubset 11) ∧ (∀ x ∈ ([(0, -2)] : List (Nat × Rat)), x.2 < 0) ∧
    weighted (exConfig 2).nonZero ([(0, -2)] : List (Nat × Rat)) ≠ [] ∧
    (searchNumerical (exConfig 2) [(0, -2)] 0 true (exSubset 11)).map (fun r => r.sparse.map (fun c => (c.numCovered, c.threshold))) =
      .ok [(2, (-1 : Rat))] :=
  ⟨⟨by decide, by decide, by decide, by decide, by decide, by decide⟩, by decide +kernel, by decide, by decide +kernel⟩

/-- **C27, C28, C29**, negation: the number of examples in a subspace includes those with missing values. As a consequence, the number
of covered examples that is reported for the complement of a condition is too large (here, example 2 has a missing value, it is
neither among the examples with values nor contained in the total, but counted). -/
theorem missing_values_overcounted :
    ∃ c, searchNominal (exConfig 3) [(1, [0])] 0 (exSubset 11) = .ok c ∧
      (⟨⟨0, 1, true⟩, 2, .nominalNeq, 1, 10⟩ : Candidate Int) ∈ c ∧
      (weighted (exConfig 3).nonZero ((nominalExamples [(1, [0])] 0 [1]).filter
        (fun x => Comparator.nominalNeq.holds 1 x.2))).length = 1 :=
  ⟨_, rfl, by decide +kernel, by decide +kernel⟩

/-- A nominal vector. -/
example : Start (exConfig 5) (nominalExamples [(3, [0, 7]), (1, [1, 2])] 2 [3, 4]) (exSubset 11111) ∧
    ((2 : Int) :: [((3 : Int), [0, 7]), (1, [1, 2])].map Prod.fst).Nodup ∧
    (searchNominal (exConfig 5) [(3, [0, 7]), (1, [1, 2])] 2 (exSubset 11111)).map
        (fun r => r.map (fun c => (c.numCovered, c.comparator, c.threshold, c.stats))) =
      .ok [(1, .nominalEq, 3, 1), (4, .nominalNeq, 3, 11110), (2, .nominalEq, 1, 110), (3, .nominalNeq, 1, 11001),
        (3, .nominalNeq, 2, 111), (2, .nominalEq, 2, 11000)] :=
  ⟨⟨by decide +kernel, by decide +kernel, by decide +kernel, rfl, rfl, by decide +kernel⟩, by decide +kernel, by decide +kernel⟩

/-- A binary vector. -/
example : Start (exConfig 3) (nominalExamples [(1, [0, 7])] 0 [3, 4]) (exSubset 11001) ∧
    (searchBinary (exConfig 3) [(1, [0, 7])] 0 (exSubset 11001)).map
        (fun r => r.map (fun c => (c.numCovered, c.comparator, c.threshold, c.stats))) =
      .ok [(1, .nominalEq, 1, 1), (2, .nominalEq, 0, 11000)] :=
  ⟨⟨by decide +kernel, by decide +kernel, by decide +kernel, rfl, rfl, by decide +kernel⟩, by decide +kernel⟩

/-- An ordinal vector. -/
example : Start (exConfig 6) (nominalExamples [(0, [0, 7]), (1, [1]), (3, [2]), (4, [3])] 2 [4, 5]) (exSubset 111111) ∧
    SortedBins [(0, [0, 7]), (1, [1]), (3, [2]), (4, [3])] 2 ∧
    (searchOrdinal (exConfig 6) [(0, [0, 7]), (1, [1]), (3, [2]), (4, [3])] 2 (exSubset 111111)).map
        (fun r => r.all.map (fun c => (c.numCovered, c.comparator, c.threshold, c.stats))) =
      .ok [(1, .ordinalLeq, 0, 1), (5, .ordinalGr, 0, 111110), (1, .ordinalGr, 3, 1000), (5, .ordinalLeq, 3, 110111),
        (2, .ordinalGr, 2, 1100), (4, .ordinalLeq, 2, 110011), (2, .ordinalLeq, 1, 11), (4, .ordinalGr, 1, 111100)] :=
  ⟨⟨by decide +kernel, by decide +kernel, by decide +kernel, rfl, rfl, by decide +kernel⟩,
    ⟨by decide +kernel, by decide +kernel⟩, by decide +kernel⟩

/-- **C29**, negation: if all examples with the smallest value (here 0, less than the majority value 2) have zero weight, the bin is
assumed to contain values greater than the majority value: the candidate `> 2` is reported to cover the example with value 1. -/
theorem ordinal_first_unsound :
    Start (exConfig 3) (nominalExamples [(0, [7]), (1, [0]), (3, [1])] 2 [2]) (exSubset 111) ∧
      SortedBins [(0, [7]), (1, [0]), (3, [1])] 2 ∧
      ∃ r c, searchOrdinal (exConfig 3) [(0, [7]), (1, [0]), (3, [1])] 2 (exSubset 111) = .ok r ∧ c ∈ r.all ∧
        ¬ Sound (exConfig 3) (nominalExamples [(0, [7]), (1, [0]), (3, [1])] 2 [2]) (binSlice [(0, [7]), (1, [0]), (3, [1])]) c :=
  ⟨⟨by decide +kernel, by decide +kernel, by decide +kernel, rfl, rfl, by decide +kernel⟩,
    ⟨by decide +kernel, by decide +kernel⟩, _, ⟨⟨0, 3, false⟩, 2, .ordinalGr, 2, 11⟩, rfl, by decide +kernel,
    fun h => absurd h.count (by decide +kernel)⟩

/-- **C29**, negation: if all examples with the largest value have zero weight, the other values greater than the majority value are
ignored: the candidate `<= 2` is reported to cover the example with value 3. -/
theorem ordinal_last_unsound :
    Start (exConfig 2) (nominalExamples [(3, [0]), (4, [7])] 2 [1]) (exSubset 11) ∧ SortedBins [(3, [0]), (4, [7])] 2 ∧
      ∃ r c, searchOrdinal (exConfig 2) [(3, [0]), (4, [7])] 2 (exSubset 11) = .ok r ∧ c ∈ r.all ∧
        ¬ Sound (exConfig 2) (nominalExamples [(3, [0]), (4, [7])] 2 [1]) (binSlice [(3, [0]), (4, [7])]) c :=
  ⟨⟨by decide +kernel, by decide +kernel, by decide +kernel, rfl, rfl, by decide +kernel⟩,
    ⟨by decide +kernel, by decide +kernel⟩, _, ⟨⟨0, 2, true⟩, 2, .ordinalLeq, 2, 11⟩, rfl, by decide +kernel,
    fun h => absurd h.count (by decide +kernel)⟩

/-- **C28**, the precondition of `nominal_sound` is needed: a nominal vector without any bins would lead to an access to an
accumulated sum that does not exist. (Such a vector is replaced by an `EqualFeatureVector` before it is searched, see C60.) -/
theorem nominal_no_bins_faults :
    Start (exConfig 2) (nominalExamples [] 0 [0, 1]) (exSubset 11) ∧
      searchNominal (exConfig 2) [] 0 (exSubset 11) = .error .uninitialised :=
  ⟨⟨by decide +kernel, by decide +kernel, by decide +kernel, rfl, rfl, by decide +kernel⟩, by decide +kernel⟩

end MLRL.Search
