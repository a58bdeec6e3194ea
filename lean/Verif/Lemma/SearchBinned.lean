import Verif.Spec.SearchBinned
import Verif.Lemma.Search

/-! # Lemmas about the search for refinements by a feature whose values have been assigned to bins -/

namespace MLRL.Search
open FeatureSpace

set_option linter.unusedSectionVars false

variable {M : Type} [AddCommGroup M]

variable {bins : List (List Nat)} {thresholds : List Rat} {sb : Nat} {members : List (List (Nat × Rat))}

theorem Binned.split (h : Binned bins thresholds sb members) {A B : List (List (Nat × Rat))} (hm : members = A ++ B) {t : Rat} {k : Nat}
    (hk : A.length = k + 1) (ht : thresholds[k]? = some t) : (∀ x ∈ A.flatten, x.2 ≤ t) ∧ ∀ x ∈ B.flatten, t < x.2 := by
  constructor
  · intro x hx
    obtain ⟨l, hl, hxl⟩ := List.mem_flatten.1 hx
    obtain ⟨b, hb⟩ := List.mem_iff_getElem?.1 hl
    have hbl := (List.getElem?_eq_some_iff.1 hb).1
    exact (h.separated b k t l ht (by rw [hm, List.getElem?_append_left hbl, hb]) x hxl).2 (by omega)
  · intro x hx
    obtain ⟨l, hl, hxl⟩ := List.mem_flatten.1 hx
    obtain ⟨b, hb⟩ := List.mem_iff_getElem?.1 hl
    have := (h.separated (A.length + b) k t l ht (by rw [hm, List.getElem?_append_right (by omega), Nat.add_sub_cancel_left, hb]) x hxl).not
    rw [not_le] at this
    exact this.2 (by omega)

theorem Binned.threshold (h : Binned bins thresholds sb members) {k : Nat} (hk : k + 1 < members.length) : ∃ t, thresholds[k]? = some t := by
  have := h.numBins
  have := h.numThresholds
  exact ⟨_, List.getElem?_eq_getElem (by omega)⟩

theorem Binned.take (h : Binned bins thresholds sb members) {A B : List (List (Nat × Rat))} (hm : members = A ++ B) (hA : A.length ≤ sb) :
    bins.take A.length = A.map (List.map Prod.fst) := by
  apply List.ext_getElem?
  intro b
  by_cases hb : b < A.length
  · rw [List.getElem?_take_of_lt hb, List.getElem?_map, List.getElem?_eq_getElem hb]
    exact h.stored b (by omega) _ (by rw [hm, List.getElem?_append_left hb, List.getElem?_eq_getElem hb])
  · rw [List.getElem?_eq_none_iff.2 (by rw [List.length_take]; omega), List.getElem?_eq_none_iff.2 (by rw [List.length_map]; omega)]

theorem Binned.drop (h : Binned bins thresholds sb members) {A B : List (List (Nat × Rat))} (hm : members = A ++ B) (hA : sb < A.length) :
    bins.drop A.length = B.map (List.map Prod.fst) := by
  have hl : A.length + B.length = bins.length := by rw [← h.numBins, hm, List.length_append]
  apply List.ext_getElem?
  intro b
  rw [List.getElem?_drop]
  by_cases hb : b < B.length
  · rw [List.getElem?_map, List.getElem?_eq_getElem hb]
    exact h.stored (A.length + b) (by omega) _ (by rw [hm, List.getElem?_append_right (by omega), Nat.add_sub_cancel_left, List.getElem?_eq_getElem hb])
  · rw [List.getElem?_eq_none_iff.2 (by omega), List.getElem?_eq_none_iff.2 (by rw [List.length_map]; omega)]

theorem flatten_map_fst (A : List (List (Nat × Rat))) : (A.map (List.map Prod.fst)).flatten = A.flatten.map Prod.fst := by
  rw [List.map_flatten]

theorem mem_proposeBin {cfg : Config M} {i : Interval} {n : Nat} {c : Comparator} {p : Nat} {m : M} {x : BinnedCandidate M}
    (h : x ∈ proposeBin cfg i n c p m) (t : Rat) : x.position = p ∧ x.toCandidate t ∈ propose cfg i n c t m := by
  unfold proposeBin at h
  unfold propose
  split at h
  · rename_i hge
    rw [List.mem_singleton] at h
    subst h
    rw [if_pos hge]
    exact ⟨rfl, List.mem_singleton.2 rfl⟩
  · simp at h

theorem mem_proposeBothBins {cfg : Config M} {start stop n : Nat} {c c' : Comparator} {p : Nat} {m total : M} {x : BinnedCandidate M}
    (h : x ∈ proposeBothBins cfg start stop n c c' p m total) (t : Rat) : x.position = p ∧ x.toCandidate t ∈ proposeBoth cfg start stop n c c' t m total := by
  unfold proposeBothBins at h
  unfold proposeBoth
  rcases List.mem_append.1 h with h | h
  · exact ⟨(mem_proposeBin h t).1, List.mem_append_left _ (mem_proposeBin h t).2⟩
  · exact ⟨(mem_proposeBin h t).1, List.mem_append_right _ (mem_proposeBin h t).2⟩

theorem push_ok {c : BinnedCandidate M} {t : Rat} (h : thresholds[c.position]? = some t) : c.push thresholds = .ok (c.toCandidate t) := by
  unfold BinnedCandidate.push
  rw [readAt_of_getElem? h]
  rfl

/-- Candidates for the first bins are sound. -/
theorem lower_sound {cfg : Config M} {subset : Subset M} (h : Binned bins thresholds sb members) (hU : Start cfg members.flatten subset)
    {A B : List (List (Nat × Rat))} (hm : members = A ++ B) (h0 : 0 < A.length) (hA : A.length ≤ sb) {n : Nat} {m total : M}
    (hn : n = (weighted cfg.nonZero A.flatten).length) (hs : m = weightedSum cfg.nonZero cfg.stat A.flatten) (ht : total = subset.total) :
    ∀ c ∈ proposeBothBins cfg 0 A.length n .numericalLeq .numericalGr (A.length - 1) m total, SoundBin cfg members.flatten bins thresholds c := by
  intro c hc
  have hlen := congrArg List.length hm
  rw [List.length_append] at hlen
  have := h.numBins
  have := h.sparseBin
  obtain ⟨t, htk⟩ := h.threshold (k := A.length - 1) (by omega)
  obtain ⟨hle, hgt⟩ := h.split hm (k := A.length - 1) (by omega) htk
  obtain ⟨hp, hc'⟩ := mem_proposeBothBins hc t
  refine ⟨t, push_ok (by rw [hp, htk]), ?_⟩
  refine proposeBoth_sound hU (S := A.flatten) (C := B.flatten) ?_ ?_ ?_ ?_ ?_ ?_ hn hs ht _ hc'
  · rw [hm, List.flatten_append]
  · unfold storedSlice
    rw [List.drop_zero, Nat.sub_zero, h.take hm hA, flatten_map_fst]
  · intro x hx
    simpa [Comparator.holds] using hle x hx
  · intro x hx
    simpa [Comparator.holds] using hgt x hx
  · intro x hx
    simpa [Comparator.holds] using hle x hx
  · intro x hx
    simpa [Comparator.holds] using hgt x hx

/-- Candidates for the last bins are sound. -/
theorem upper_sound {cfg : Config M} {subset : Subset M} (h : Binned bins thresholds sb members) (hU : Start cfg members.flatten subset)
    {A B : List (List (Nat × Rat))} (hm : members = A ++ B) (hB : B ≠ []) (hA : sb < A.length) {n : Nat} {m total : M}
    (hn : n = (weighted cfg.nonZero B.flatten).length) (hs : m = weightedSum cfg.nonZero cfg.stat B.flatten) (ht : total = subset.total) :
    ∀ c ∈ proposeBothBins cfg A.length bins.length n .numericalGr .numericalLeq (A.length - 1) m total,
      SoundBin cfg members.flatten bins thresholds c := by
  intro c hc
  have hlen := congrArg List.length hm
  rw [List.length_append] at hlen
  have := h.numBins
  have := List.length_pos_of_ne_nil hB
  obtain ⟨t, htk⟩ := h.threshold (k := A.length - 1) (by omega)
  obtain ⟨hle, hgt⟩ := h.split hm (k := A.length - 1) (by omega) htk
  obtain ⟨hp, hc'⟩ := mem_proposeBothBins hc t
  refine ⟨t, push_ok (by rw [hp, htk]), ?_⟩
  refine proposeBoth_sound hU (S := B.flatten) (C := A.flatten) ?_ ?_ ?_ ?_ ?_ ?_ hn hs ht _ hc'
  · rw [hm, List.flatten_append]
    exact List.perm_append_comm
  · unfold storedSlice
    rw [h.drop hm hA, List.take_of_length_le (by rw [List.length_map]; omega), flatten_map_fst]
  · intro x hx
    simpa [Comparator.holds] using hgt x hx
  · intro x hx
    simpa [Comparator.holds] using hle x hx
  · intro x hx
    simpa [Comparator.holds] using hgt x hx
  · intro x hx
    simpa [Comparator.holds] using hle x hx

/-- The state of the search after the examples `P` have been added. -/
structure BinScanned (cfg : Config M) (P : List (Nat × Rat)) (numCovered : Nat) (subset : Subset M) : Prop where
  numCovered : numCovered = (weighted cfg.nonZero P).length
  sum : subset.sum = weightedSum cfg.nonZero cfg.stat P

theorem BinScanned.add {cfg : Config M} {P Q l : List (Nat × Rat)} {n : Nat} {s : Subset M} (h : BinScanned cfg P n s) (hQ : Q.Perm (P ++ l)) :
    BinScanned cfg Q (n + (addAll cfg (l.map Prod.fst) s).1) (addAll cfg (l.map Prod.fst) s).2 := by
  constructor
  · rw [(weighted_perm hQ).length_eq, weighted_append, List.length_append, addAll_eq, h.numCovered]
    rfl
  · rw [weightedSum_perm hQ, weightedSum_append, addAll_eq]
    show s.sum + _ = _
    rw [h.sum]
    rfl

theorem addAll_fields (cfg : Config M) (l : List Nat) (s : Subset M) : (addAll cfg l s).2.total = s.total ∧ (addAll cfg l s).2.acc = s.acc := by
  rw [addAll_eq]
  exact ⟨rfl, rfl⟩

theorem binForward_spec {cfg : Config M} {subset : Subset M} (h : Binned bins thresholds sb members) (hU : Start cfg members.flatten subset)
    (l : List (List (Nat × Rat))) :
    ∀ (A B : List (List (Nat × Rat))) (s : BinState M), members = A ++ l ++ B → 0 < A.length → A.length + l.length ≤ sb →
      BinScanned cfg A.flatten s.numCovered s.subset → s.subset.total = subset.total →
      (∀ c ∈ s.candidates, SoundBin cfg members.flatten bins thresholds c) →
      BinScanned cfg (A ++ l).flatten (binForward cfg A.length (l.map (List.map Prod.fst)) s).numCovered (binForward cfg A.length (l.map (List.map Prod.fst)) s).subset ∧
        (binForward cfg A.length (l.map (List.map Prod.fst)) s).subset.total = subset.total ∧
        (binForward cfg A.length (l.map (List.map Prod.fst)) s).subset.acc = s.subset.acc ∧
        (∀ c ∈ (binForward cfg A.length (l.map (List.map Prod.fst)) s).candidates, SoundBin cfg members.flatten bins thresholds c) ∧
        s.numCovered ≤ (binForward cfg A.length (l.map (List.map Prod.fst)) s).numCovered := by
  induction l with
  | nil =>
    intro A B s hm h0 hA hs ht hc
    simp only [List.map_nil, binForward, List.append_nil]
    exact ⟨hs, ht, trivial, hc, le_refl _⟩
  | cons b l ih =>
    intro A B s hm h0 hA hs ht hc
    simp only [List.map_cons, binForward]
    rw [List.length_cons] at hA
    have hlen : A.length + 1 = (A ++ [b]).length := by simp
    rw [hlen]
    obtain ⟨h1, h2, h3, h4, h5⟩ := ih (A ++ [b]) B
      { subset := (addAll cfg (b.map Prod.fst) s.subset).2, numCovered := s.numCovered + (addAll cfg (b.map Prod.fst) s.subset).1,
        candidates := s.candidates ++ proposeBothBins cfg 0 A.length s.numCovered .numericalLeq .numericalGr (A.length - 1) s.subset.sum s.subset.total }
      (by rw [hm]; simp) (by simp) (by rw [← hlen]; omega) (hs.add (by simp)) ((addAll_fields _ _ _).1.trans ht)
      (by
        intro c hc'
        rcases List.mem_append.1 hc' with hc' | hc'
        · exact hc c hc'
        · exact lower_sound h hU (A := A) (B := (b :: l) ++ B) (by rw [hm]; simp) h0 (by omega) hs.numCovered hs.sum ht c hc')
    refine ⟨by simpa using h1, h2, h3.trans (addAll_fields _ _ _).2, h4, le_trans ?_ h5⟩
    simp

theorem binBackward_spec {cfg : Config M} {subset : Subset M} (h : Binned bins thresholds sb members) (hU : Start cfg members.flatten subset)
    (l : List (List (Nat × Rat))) :
    ∀ (A B : List (List (Nat × Rat))) (s : BinState M), members = A ++ l.reverse ++ B → B ≠ [] → sb < A.length →
      BinScanned cfg B.flatten s.numCovered s.subset → s.subset.total = subset.total →
      (∀ c ∈ s.candidates, SoundBin cfg members.flatten bins thresholds c) →
      BinScanned cfg (l.reverse ++ B).flatten (binBackward cfg bins.length (A.length + l.length) (l.map (List.map Prod.fst)) s).numCovered
          (binBackward cfg bins.length (A.length + l.length) (l.map (List.map Prod.fst)) s).subset ∧
        (binBackward cfg bins.length (A.length + l.length) (l.map (List.map Prod.fst)) s).subset.total = subset.total ∧
        (binBackward cfg bins.length (A.length + l.length) (l.map (List.map Prod.fst)) s).subset.acc = s.subset.acc ∧
        (∀ c ∈ (binBackward cfg bins.length (A.length + l.length) (l.map (List.map Prod.fst)) s).candidates, SoundBin cfg members.flatten bins thresholds c) := by
  induction l with
  | nil =>
    intro A B s hm hB hA hs ht hc
    simp only [List.map_nil, binBackward, List.reverse_nil, List.nil_append]
    exact ⟨hs, ht, trivial, hc⟩
  | cons b l ih =>
    intro A B s hm hB hA hs ht hc
    have hk : A.length + (b :: l).length - 1 = A.length + l.length := by simp only [List.length_cons]; omega
    simp only [List.map_cons, binBackward, hk]
    have hlen : A.length + (b :: l).length = (A ++ (b :: l).reverse).length := by simp
    obtain ⟨h1, h2, h3, h4⟩ := ih A (b :: B)
      { subset := (addAll cfg (b.map Prod.fst) s.subset).2, numCovered := s.numCovered + (addAll cfg (b.map Prod.fst) s.subset).1,
        candidates := s.candidates ++ proposeBothBins cfg (A.length + (b :: l).length) bins.length s.numCovered .numericalGr .numericalLeq (A.length + l.length)
          s.subset.sum s.subset.total }
      (by rw [hm]; simp) (by simp) hA (hs.add (by
        rw [List.flatten_cons]
        exact List.perm_append_comm)) ((addAll_fields _ _ _).1.trans ht)
      (by
        intro c hc'
        rcases List.mem_append.1 hc' with hc' | hc'
        · exact hc c hc'
        · rw [← hk, hlen] at hc'
          refine upper_sound h hU (A := A ++ (b :: l).reverse) (B := B) hm hB (by rw [← hlen]; omega) hs.numCovered hs.sum ht c hc')
    refine ⟨by simpa using h1, h2, h3.trans (addAll_fields _ _ _).2, h4⟩

/-- The result of the first part. -/
theorem binForwardPhase_spec {cfg : Config M} {subset : Subset M} (h : Binned bins thresholds sb members) (hU : Start cfg members.flatten subset)
    {L B : List (List (Nat × Rat))} (hm : members = L ++ B) (hL : L.length ≤ sb) :
    (∀ c ∈ (binForwardPhase cfg (L.map (List.map Prod.fst)) subset).candidates, SoundBin cfg members.flatten bins thresholds c) ∧
      (binForwardPhase cfg (L.map (List.map Prod.fst)) subset).subset.sum = 0 ∧
      (binForwardPhase cfg (L.map (List.map Prod.fst)) subset).subset.total = subset.total ∧
      ((binForwardPhase cfg (L.map (List.map Prod.fst)) subset).numCovered > 0 →
        L ≠ [] ∧ (binForwardPhase cfg (L.map (List.map Prod.fst)) subset).numCovered = (weighted cfg.nonZero L.flatten).length ∧
          (binForwardPhase cfg (L.map (List.map Prod.fst)) subset).subset.acc = some (weightedSum cfg.nonZero cfg.stat L.flatten)) ∧
      ((∃ b, L.head? = some b ∧ weighted cfg.nonZero b ≠ []) → (binForwardPhase cfg (L.map (List.map Prod.fst)) subset).numCovered > 0) := by
  cases L with
  | nil =>
    simp only [List.map_nil, binForwardPhase]
    exact ⟨by simp, hU.sum, trivial, by simp, by simp⟩
  | cons b l =>
    have hempty : BinScanned cfg ([] : List (Nat × Rat)) 0 subset := ⟨rfl, hU.sum⟩
    have hfirst := hempty.add (Q := b) (l := b) (by simp)
    rw [Nat.zero_add] at hfirst
    simp only [List.map_cons, binForwardPhase]
    by_cases hpos : (addAll cfg (b.map Prod.fst) subset).1 > 0
    · rw [if_pos hpos]
      obtain ⟨h1, h2, h3, h4, h5⟩ := binForward_spec h hU l [b] B
        { subset := (addAll cfg (b.map Prod.fst) subset).2, numCovered := (addAll cfg (b.map Prod.fst) subset).1, candidates := [] }
        (by rw [hm]; simp) (by simp) (by rw [List.length_cons] at hL; simp; omega) (by simpa using hfirst) (addAll_fields _ _ _).1 (by simp)
      rw [show [b].length = 1 from rfl] at h1 h2 h3 h4 h5
      refine ⟨h4, rfl, h2, fun _ => ⟨by simp, by simpa using h1.numCovered, ?_⟩, fun _ => lt_of_lt_of_le hpos h5⟩
      simp only [Subset.reset]
      rw [h3, (addAll_fields _ _ _).2, hU.acc]
      simpa using h1.sum
    · rw [if_neg hpos]
      refine ⟨by simp, ?_, (addAll_fields _ _ _).1, by simp, ?_⟩
      · have := hfirst.numCovered
        rw [Nat.eq_zero_of_not_pos hpos] at this
        show (addAll cfg (b.map Prod.fst) subset).2.sum = 0
        rw [hfirst.sum]
        unfold weightedSum
        rw [List.eq_nil_of_length_eq_zero this.symm]
        rfl
      · rintro ⟨b', hb', hne⟩
        cases hb'
        have := hfirst.numCovered
        have := List.length_pos_of_ne_nil hne
        omega

/-- The result of the second part. -/
theorem binBackwardPhase_spec {cfg : Config M} {subset s : Subset M} (h : Binned bins thresholds sb members) (hU : Start cfg members.flatten subset)
    {A R : List (List (Nat × Rat))} (hm : members = A ++ R) (hA : sb < A.length) (hsum : s.sum = 0) (ht : s.total = subset.total) :
    (∀ c ∈ (binBackwardPhase cfg bins.length (R.map (List.map Prod.fst)).reverse s).candidates, SoundBin cfg members.flatten bins thresholds c) ∧
      (binBackwardPhase cfg bins.length (R.map (List.map Prod.fst)).reverse s).subset.total = subset.total ∧
      (binBackwardPhase cfg bins.length (R.map (List.map Prod.fst)).reverse s).subset.acc = s.acc ∧
      (BinScanned cfg R.flatten (binBackwardPhase cfg bins.length (R.map (List.map Prod.fst)).reverse s).numCovered
          (binBackwardPhase cfg bins.length (R.map (List.map Prod.fst)).reverse s).subset ∨
        (binBackwardPhase cfg bins.length (R.map (List.map Prod.fst)).reverse s).numCovered = 0 ∧
          (binBackwardPhase cfg bins.length (R.map (List.map Prod.fst)).reverse s).subset.sum = 0 ∧ ∃ b, R.getLast? = some b ∧ weighted cfg.nonZero b = []) := by
  have hempty : BinScanned cfg ([] : List (Nat × Rat)) 0 s := ⟨rfl, hsum⟩
  rw [← List.map_reverse]
  cases hR : R.reverse with
  | nil =>
    rw [List.reverse_eq_nil_iff] at hR
    subst hR
    simp only [List.map_nil, binBackwardPhase]
    exact ⟨by simp, ht, trivial, Or.inl hempty⟩
  | cons b l =>
    have hR' : R = l.reverse ++ [b] := by rw [← List.reverse_reverse R, hR]; simp
    have hfirst := hempty.add (Q := b) (l := b) (by simp)
    rw [Nat.zero_add] at hfirst
    simp only [List.map_cons, binBackwardPhase]
    have hlen : bins.length - 1 = A.length + l.length := by rw [← h.numBins, hm, hR']; simp
    by_cases hpos : (addAll cfg (b.map Prod.fst) s).1 > 0
    · rw [if_pos hpos, hlen]
      obtain ⟨h1, h2, h3, h4⟩ := binBackward_spec h hU l A [b]
        { subset := (addAll cfg (b.map Prod.fst) s).2, numCovered := (addAll cfg (b.map Prod.fst) s).1, candidates := [] }
        (by rw [hm, hR']; simp) (by simp) hA (by simpa using hfirst) ((addAll_fields _ _ _).1.trans ht) (by simp)
      refine ⟨h4, h2, h3.trans (addAll_fields _ _ _).2, Or.inl ?_⟩
      rw [hR']
      exact h1
    · rw [if_neg hpos]
      have hz := hfirst.numCovered
      rw [Nat.eq_zero_of_not_pos hpos] at hz
      have hw := List.eq_nil_of_length_eq_zero hz.symm
      refine ⟨by simp, (addAll_fields _ _ _).1.trans ht, (addAll_fields _ _ _).2, Or.inr ⟨rfl, ?_, b, by rw [hR']; simp, hw⟩⟩
      show (addAll cfg (b.map Prod.fst) s).2.sum = 0
      rw [hfirst.sum]
      unfold weightedSum
      rw [hw]
      rfl

end MLRL.Search
