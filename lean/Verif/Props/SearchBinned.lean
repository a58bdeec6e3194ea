import Verif.Lemma.SearchBinned
import Verif.Spec.BinnedFilter
import Verif.Props.FeatureBinning
import Verif.Props.Search

/-!
# C65: the search for refinements by a feature whose values have been assigned to bins
-/

namespace MLRL.Search
open FeatureSpace

section
variable {M : Type} [AddCommGroup M]
variable {bins : List (List Nat)} {thresholds : List Rat} {sb : Nat} {members : List (List (Nat × Rat))}

/-- What the search results in. -/
theorem searchBinned_general {cfg : Config M} {subset : Subset M} (h : Binned bins thresholds sb members) (hU : Start cfg members.flatten subset)
    (hmin : 1 ≤ cfg.minCoverage) :
    ∃ r, searchBinned cfg bins sb subset = .ok r ∧ (∀ c ∈ r.forward ++ r.backward ++ r.greater ++ r.accumulated, SoundBin cfg members.flatten bins thresholds c) ∧
      ((∀ b, (members.drop (sb + 1)).getLast? = some b → weighted cfg.nonZero b ≠ []) →
        ∀ c ∈ r.lessOrEqual, c = ⟨⟨sb + 1, bins.length, true⟩, sub32 cfg.numExamples (weighted cfg.nonZero (members.drop (sb + 1)).flatten).length, .numericalLeq, sb,
          weightedSum cfg.nonZero cfg.stat (members.drop (sb + 1)).flatten⟩ ∧ cfg.minCoverage ≤ c.numCovered) ∧
      (∀ c ∈ r.lessOrEqual, c.position = sb) ∧
      ((∃ b, (members.take sb).head? = some b ∧ weighted cfg.nonZero b = []) → r.forward = [] ∧ r.accumulated = []) ∧
      (members.drop (sb + 1) = [] → r.lessOrEqual = proposeBin cfg ⟨sb + 1, bins.length, true⟩ cfg.numExamples .numericalLeq sb 0) := by
  have hlm := h.numBins
  have hsb := h.sparseBin
  have hm : members = members.take sb ++ members.drop sb := (List.take_append_drop _ _).symm
  have hm' : members = members.take (sb + 1) ++ members.drop (sb + 1) := (List.take_append_drop _ _).symm
  have hL : (members.take sb).length = sb := by rw [List.length_take]; omega
  have hL' : (members.take (sb + 1)).length = sb + 1 := by rw [List.length_take]; omega
  have hlow := h.take hm (by omega)
  rw [hL] at hlow
  have hup := h.drop hm' (by omega)
  rw [hL'] at hup
  generalize hLe : members.take sb = L at *
  generalize hRe : members.drop (sb + 1) = R at *
  obtain ⟨f1, f2, f3, f4, f5⟩ := binForwardPhase_spec h hU hm (by omega)
  obtain ⟨b1, b2, b3, b4⟩ := binBackwardPhase_spec h hU hm' (by omega) f2 f3
  have hnone : (∃ b, L.head? = some b ∧ weighted cfg.nonZero b = []) → (binForwardPhase cfg (L.map (List.map Prod.fst)) subset).candidates = [] ∧
      (binForwardPhase cfg (L.map (List.map Prod.fst)) subset).numCovered = 0 := by
    rintro ⟨b, hb, hw⟩
    cases L with
    | nil => cases hb
    | cons b' l =>
      cases hb
      have : (addAll cfg (b.map Prod.fst) subset).1 = 0 := by
        rw [addAll_eq]
        show (weighted cfg.nonZero b).length = 0
        rw [hw]
        rfl
      simp only [List.map_cons, binForwardPhase]
      rw [if_neg (by omega)]
      exact ⟨rfl, rfl⟩
  have hback : R = [] → (binBackwardPhase cfg bins.length (R.map (List.map Prod.fst)).reverse (binForwardPhase cfg (L.map (List.map Prod.fst)) subset).subset).numCovered = 0 ∧
      (binBackwardPhase cfg bins.length (R.map (List.map Prod.fst)).reverse (binForwardPhase cfg (L.map (List.map Prod.fst)) subset).subset).subset.sum = 0 := by
    intro hR
    rw [hR]
    simp only [List.map_nil, List.reverse_nil, binBackwardPhase]
    exact ⟨trivial, f2⟩
  unfold searchBinned
  rw [if_pos hsb, hlow, hup]
  simp only
  generalize binForwardPhase cfg (L.map (List.map Prod.fst)) subset = f at *
  generalize binBackwardPhase cfg bins.length (R.map (List.map Prod.fst)).reverse f.subset = s at *
  have hacc : ∃ a, binAccumulatedPhase cfg sb f.numCovered s.subset = .ok a ∧ (∀ c ∈ a, SoundBin cfg members.flatten bins thresholds c) ∧
      (f.numCovered = 0 → a = []) := by
    unfold binAccumulatedPhase
    split
    · rename_i hpos
      obtain ⟨g1, g2, g3⟩ := f4 hpos.1
      have hinit : useInit s.subset.acc = .ok (weightedSum cfg.nonZero cfg.stat L.flatten) := by rw [b3, g3]; rfl
      rw [hinit, ok_bind]
      refine ⟨_, rfl, ?_, by omega⟩
      have := lower_sound h hU hm (List.length_pos_of_ne_nil g1) (by omega) g2 (m := weightedSum cfg.nonZero cfg.stat L.flatten) rfl b2
      rw [hL] at this
      exact this
    · exact ⟨[], rfl, by simp, fun _ => rfl⟩
  obtain ⟨a, ha1, ha2, ha3⟩ := hacc
  rw [ha1, ok_bind]
  refine ⟨_, rfl, ?_, ?_, ?_, ?_, ?_⟩
  · intro c hc
    simp only [List.mem_append] at hc
    rcases hc with ((hc | hc) | hc) | hc
    · exact f1 c hc
    · exact b1 c hc
    · rcases b4 with b4 | ⟨hz, _⟩
      · by_cases hR : R = []
        · subst hR
          have := b4.numCovered
          unfold proposeBin at hc
          rw [if_neg (by rw [this]; simp [weighted]; omega)] at hc
          simp at hc
        · have := upper_sound h hU hm' hR (by omega) b4.numCovered b4.sum b2 c (by
            unfold proposeBothBins
            rw [hL']
            exact List.mem_append_left _ hc)
          exact this
      · unfold proposeBin at hc
        rw [if_neg (by omega)] at hc
        simp at hc
    · exact ha2 c hc
  · intro hlast c hc
    rcases b4 with b4 | ⟨_, _, b, hb, hw⟩
    · have hc2 : c ∈ proposeBin cfg ⟨sb + 1, bins.length, true⟩ (sub32 cfg.numExamples s.numCovered) .numericalLeq sb s.subset.sum := hc
      unfold proposeBin at hc2
      split at hc2
      · rename_i hge
        rw [List.mem_singleton] at hc2
        subst hc2
        exact ⟨by rw [b4.numCovered, b4.sum], hge⟩
      · simp at hc2
    · exact absurd hw (hlast b hb)
  · intro c hc
    exact (mem_proposeBin (show c ∈ proposeBin cfg ⟨sb + 1, bins.length, true⟩ (sub32 cfg.numExamples s.numCovered) .numericalLeq sb s.subset.sum from hc) 0).1
  · intro hw
    obtain ⟨h1, h2⟩ := hnone hw
    exact ⟨h1, ha3 h2⟩
  · intro hR
    obtain ⟨h1, h2⟩ := hback hR
    show proposeBin cfg _ (sub32 cfg.numExamples s.numCovered) _ _ s.subset.sum = _
    rw [h1, h2, RuleList.sub32_of_le (Nat.zero_le _) hU.size, Nat.sub_zero]

/-- **C65 (partial).** All candidates of the search, but the one in lines 147-163, report and are evaluated on exactly the examples that satisfy their conditions, and
their thresholds exist. -/
theorem binned_sound_partial {cfg : Config M} {subset : Subset M} (h : Binned bins thresholds sb members) (hU : Start cfg members.flatten subset)
    (hmin : 1 ≤ cfg.minCoverage) :
    ∃ r, searchBinned cfg bins sb subset = .ok r ∧
      ∀ c ∈ r.forward ++ r.backward ++ r.greater ++ r.accumulated, SoundBin cfg members.flatten bins thresholds c := by
  obtain ⟨r, h1, h2, _⟩ := searchBinned_general h hU hmin
  exact ⟨r, h1, h2⟩

/-- **C65 (negation).** If there are bins after the sparse bin, and the last one does not only contain examples with zero weight, the candidate in lines 147-163 is
evaluated on the statistics of exactly those examples that do not satisfy its condition, though it reports the number of those that do. -/
theorem binned_wrong_statistics {cfg : Config M} {subset : Subset M} (h : Binned bins thresholds sb members) (hU : Start cfg members.flatten subset)
    (hmin : 1 ≤ cfg.minCoverage) (hlast : ∀ b, (members.drop (sb + 1)).getLast? = some b → weighted cfg.nonZero b ≠ []) (hupper : sb + 1 < bins.length) :
    ∃ r, searchBinned cfg bins sb subset = .ok r ∧ ∀ c ∈ r.lessOrEqual, ∃ t, c.push thresholds = .ok (c.toCandidate t) ∧
      Sound cfg members.flatten (storedSlice bins) { c.toCandidate t with stats := subset.total - c.stats } ∧
      c.stats = weightedSum cfg.nonZero cfg.stat (members.flatten.filter (fun x => !(c.comparator.holds t x.2))) := by
  obtain ⟨r, h1, _, h3, _⟩ := searchBinned_general h hU hmin
  refine ⟨r, h1, ?_⟩
  intro c hc
  obtain ⟨hc', hge⟩ := h3 hlast c hc
  have hlm := h.numBins
  have hm' : members = members.take (sb + 1) ++ members.drop (sb + 1) := (List.take_append_drop _ _).symm
  have hL' : (members.take (sb + 1)).length = sb + 1 := by rw [List.length_take]; omega
  have hne : members.drop (sb + 1) ≠ [] := by
    intro h0
    have := congrArg List.length h0
    rw [List.length_drop] at this
    simp at this
    omega
  obtain ⟨t, htk⟩ := h.threshold (k := sb) (by omega)
  obtain ⟨hle, hgt⟩ := h.split hm' (k := sb) hL' htk
  refine ⟨t, push_ok (by rw [hc']; exact htk), ?_, ?_⟩
  · have hmem : (⟨⟨sb + 1, bins.length, true⟩, sub32 cfg.numExamples (weighted cfg.nonZero (members.drop (sb + 1)).flatten).length, .numericalLeq, sb,
        subset.total - weightedSum cfg.nonZero cfg.stat (members.drop (sb + 1)).flatten⟩ : BinnedCandidate M) ∈
        proposeBothBins cfg (members.take (sb + 1)).length bins.length (weighted cfg.nonZero (members.drop (sb + 1)).flatten).length .numericalGr .numericalLeq
          ((members.take (sb + 1)).length - 1) (weightedSum cfg.nonZero cfg.stat (members.drop (sb + 1)).flatten) subset.total := by
      unfold proposeBothBins
      apply List.mem_append_right
      unfold proposeBin
      rw [hL', Nat.add_sub_cancel, if_pos (by rw [hc'] at hge; exact hge)]
      exact List.mem_singleton.2 rfl
    obtain ⟨t', ht', hs⟩ := upper_sound h hU hm' hne (by omega) rfl rfl rfl _ hmem
    have : t' = t := by
      rw [push_ok (c := ⟨_, _, _, sb, _⟩) htk] at ht'
      exact (congrArg Candidate.threshold (Except.ok.inj ht')).symm
    subst this
    rw [hc']
    exact hs
  · rw [hc']
    refine (weightedSum_perm ?_).symm
    have hperm : members.flatten.Perm ((members.drop (sb + 1)).flatten ++ (members.take (sb + 1)).flatten) := by
      conv_lhs => rw [hm']
      rw [List.flatten_append]
      exact List.perm_append_comm
    refine filter_split (p := fun x => !(Comparator.numericalLeq.holds t x)) hperm ?_ ?_
    · intro x hx
      simpa [Comparator.holds] using hgt x hx
    · intro x hx
      simpa [Comparator.holds] using hle x hx

/-- **C65 (negation).** If the sparse bin is the last one and there are enough examples, the search considers a candidate, evaluated on no examples at all, whose
threshold does not exist: if it is an improvement, an element beyond the end of an array is read. -/
theorem binned_threshold_fault {cfg : Config M} {subset : Subset M} (h : Binned bins thresholds sb members) (hU : Start cfg members.flatten subset)
    (hmin : 1 ≤ cfg.minCoverage) (hn : cfg.minCoverage ≤ cfg.numExamples) (hlast : sb + 1 = bins.length) :
    ∃ r c, searchBinned cfg bins sb subset = .ok r ∧ r.lessOrEqual = [c] ∧ c.stats = 0 ∧ c.push thresholds = .error .outOfBounds := by
  obtain ⟨r, h1, _, _, _, _, h6⟩ := searchBinned_general h hU hmin
  have hlm := h.numBins
  have hnt := h.numThresholds
  have h7 := h6 (List.drop_eq_nil_of_le (by omega))
  unfold proposeBin at h7
  rw [if_pos hn] at h7
  refine ⟨r, _, h1, h7, rfl, ?_⟩
  unfold BinnedCandidate.push
  rw [readAt_of_le (by show _ ≤ sb; omega)]
  rfl

/-- **C65 (negation, completeness).** If all examples in the first bin have zero weight, none of the bins before the sparse bin is considered. -/
theorem binned_first_skipped {cfg : Config M} {subset : Subset M} (h : Binned bins thresholds sb members) (hU : Start cfg members.flatten subset)
    (hmin : 1 ≤ cfg.minCoverage) {b : List (Nat × Rat)} (hb : members.head? = some b) (h0 : 0 < sb) (hw : weighted cfg.nonZero b = []) :
    ∃ r, searchBinned cfg bins sb subset = .ok r ∧ r.forward = [] ∧ r.accumulated = [] := by
  obtain ⟨r, h1, _, _, _, h5, _⟩ := searchBinned_general h hU hmin
  refine ⟨r, h1, h5 ⟨b, ?_, hw⟩⟩
  cases members with
  | nil => cases hb
  | cons a l =>
    cases sb with
    | zero => omega
    | succ sb => simpa using hb

end

/-! ### Feature vectors that result from feature binning -/

theorem exists_perm_of_perm_map {α β : Type} (f : α → β) : ∀ (m : List α) (l : List β), l.Perm (m.map f) → ∃ m' : List α, m'.Perm m ∧ l = m'.map f
  | [], l, h => ⟨[], List.Perm.refl _, List.perm_nil.1 h⟩
  | a :: m, l, h => by
    have hmem : f a ∈ l := h.mem_iff.2 (List.mem_cons_self ..)
    obtain ⟨s, t, rfl⟩ := List.append_of_mem hmem
    have h' : (s ++ t).Perm (m.map f) := (List.perm_cons (f a)).1 (List.perm_middle.symm.trans h)
    obtain ⟨m', hp, he⟩ := exists_perm_of_perm_map f m _ h'
    obtain ⟨m1, m2, rfl, rfl, rfl⟩ := List.append_eq_map_iff.1 he
    exact ⟨m1 ++ a :: m2, List.perm_middle.trans (hp.cons a), by simp⟩

theorem perm_flatMap_filter {α : Type} (f : α → Nat) (l : List α) : ∀ n : Nat,
    ((List.range n).flatMap (fun b => l.filter (fun x => decide (f x = b)))).Perm (l.filter (fun x => decide (f x < n)))
  | 0 => by simp
  | n + 1 => by
    rw [List.range_succ, List.flatMap_append]
    refine ((perm_flatMap_filter f l n).append_right _).trans ?_
    simp only [List.flatMap_cons, List.flatMap_nil, List.append_nil]
    induction l with
    | nil => simp
    | cons a l ih =>
      by_cases h1 : f a < n
      · have h2 : f a ≠ n := by omega
        have h3 : f a < n + 1 := by omega
        simpa [List.filter_cons, h1, h2, h3] using ih
      · by_cases h2 : f a = n
        · have h3 : f a < n + 1 := by omega
          simp only [List.filter_cons, h1, h2, decide_false, decide_true, if_true, if_false, Bool.false_eq_true]
          rw [if_neg (by simp), if_pos (by simp)]
          exact List.perm_middle.trans (ih.cons a)
        · have h3 : ¬f a < n + 1 := by omega
          simpa [List.filter_cons, h1, h2, h3] using ih

theorem getElem?_map_range {α : Type} {g : Nat → α} {n b : Nat} {l : α} (h : ((List.range n).map g)[b]? = some l) : b < n ∧ g b = l := by
  have hb := (List.getElem?_eq_some_iff.1 h).1
  rw [List.length_map, List.length_range] at hb
  rw [List.getElem?_map, List.getElem?_range hb] at h
  exact ⟨hb, Option.some.inj h⟩

/-- Feature vectors, whose bins and thresholds describe the same partition, meet the requirements of the search. -/
theorem separates_binned {entries : List FeatureBinning.Entry} {sparse : Bool} {sparseValue : ℚ} {v : FeatureBinning.BinnedVector}
    (h : FeatureBinning.Spec.Separates entries sparse sparseValue v) (remaining : List Nat) (hr : remaining ≠ [] → sparse = true) :
    ∃ bins thresholds members, Decoded v bins thresholds ∧ Binned bins thresholds v.sparseBinIndex members ∧
      members.flatten.Perm (numericalExamples (entries.map (fun e => (e.index, e.value))) sparseValue remaining) := by
  classical
  obtain ⟨ths, hths⟩ : ∃ ths : List ℚ, v.thresholds = ths.map some := by
    refine ⟨v.thresholds.filterMap id, ?_⟩
    have hall : ∀ o ∈ v.thresholds, ∃ t, o = some t := by
      intro o ho
      obtain ⟨k, hk, rfl⟩ := List.getElem_of_mem ho
      obtain ⟨t, ht⟩ := h.initialised k (by have := h.lengths; omega)
      rw [List.getElem?_eq_getElem hk] at ht
      exact ⟨t, Option.some.inj ht⟩
    generalize v.thresholds = L at hall
    induction L with
    | nil => rfl
    | cons o L ih =>
      obtain ⟨t, rfl⟩ := hall o (List.mem_cons_self ..)
      simpa using ih (fun o ho => hall o (List.mem_cons_of_mem _ ho))
  have hf : ∃ f : ℚ → Nat, ∀ x b, FeatureBinning.Spec.InBin v x b → f x = b := by
    refine ⟨fun x => if hx : ∃ b, FeatureBinning.Spec.InBin v x b then hx.choose else 0, ?_⟩
    intro x b hx
    simp only
    rw [dif_pos ⟨b, hx⟩]
    exact FeatureBinning.Spec.inBin_unique h.initialised (Exists.choose_spec (⟨b, hx⟩ : ∃ b, FeatureBinning.Spec.InBin v x b)) hx
  obtain ⟨f, hf⟩ := hf
  generalize hall : numericalExamples (entries.map (fun e => (e.index, e.value))) sparseValue remaining = all
  have hin : ∀ x ∈ all, FeatureBinning.Spec.InBin v x.2 (f x.2) := by
    intro x hx
    rw [← hall, numericalExamples, List.mem_append, List.mem_map, List.mem_map] at hx
    rcases hx with ⟨e, he, rfl⟩ | ⟨e, he, rfl⟩
    · obtain ⟨b, hb⟩ := h.belong e he
      simp only
      rw [hf _ _ hb]
      exact hb
    · have hb := h.sparseValues (hr (List.ne_nil_of_mem he))
      simp only
      rw [hf _ _ hb]
      exact hb
  have hex : ∀ b : Nat, ∃ p : List (Nat × Rat) × List Nat, b < v.numBins → p.1.Perm (all.filter (fun x => decide (f x.2 = b))) ∧
      FeatureBinning.Spec.Stored v b p.2 ∧ (b ≠ v.sparseBinIndex → p.2 = p.1.map Prod.fst) := by
    intro b
    by_cases hb : b < v.numBins
    swap
    · exact ⟨([], []), fun hlt => absurd hlt hb⟩
    by_cases hs : b = v.sparseBinIndex
    · obtain ⟨l, hl, _⟩ := h.sparseStored
      exact ⟨(_, l), fun _ => ⟨List.Perm.refl _, hs ▸ hl, fun hne => absurd hs hne⟩⟩
    · obtain ⟨l, hl, hp⟩ := h.stored b hb hs
      have hp' := hp (fun e => decide (f e.value = b)) (by
        intro e he
        obtain ⟨c, hc⟩ := h.belong e he
        rw [decide_eq_true_iff, hf _ _ hc]
        constructor
        · rintro rfl; exact hc
        · intro hb'; exact FeatureBinning.Spec.inBin_unique h.initialised hc hb')
      have he : all.filter (fun x => decide (f x.2 = b)) = (entries.filter (fun e => decide (f e.value = b))).map (fun e => (e.index, e.value)) := by
        rw [← hall, numericalExamples, List.filter_append, List.filter_map]
        have : (remaining.map (fun e => (e, sparseValue))).filter (fun x => decide (f x.2 = b)) = [] := by
          rw [List.filter_eq_nil_iff]
          intro x hx
          rw [List.mem_map] at hx
          obtain ⟨e, he, rfl⟩ := hx
          have := h.sparseValues (hr (List.ne_nil_of_mem he))
          rw [decide_eq_true_iff]
          simp only
          rw [hf _ _ this]
          exact fun h => hs h.symm
        rw [this, List.append_nil]
        rfl
      have hp2 : l.Perm ((all.filter (fun x => decide (f x.2 = b))).map Prod.fst) := by
        rw [he, List.map_map]
        exact hp'
      obtain ⟨m', hm, hl'⟩ := exists_perm_of_perm_map _ _ _ hp2
      exact ⟨(m', l), fun _ => ⟨hm, hl, fun _ => hl'⟩⟩
  choose p hp using hex
  refine ⟨(List.range v.numBins).map (fun b => (p b).2), ths, (List.range v.numBins).map (fun b => (p b).1), ?_, ?_, ?_⟩
  · have hlen := h.lengths
    rw [hths, List.length_map] at hlen
    refine ⟨by simp, by simpa using hlen, by rw [hths, List.take_of_length_le (by simp)], ?_⟩
    intro b l hl
    obtain ⟨hb, rfl⟩ := getElem?_map_range hl
    exact (hp b hb).2.1
  · have hlen := h.lengths
    rw [hths, List.length_map] at hlen
    refine ⟨by simp, by simpa using hlen, by simpa using h.sparseBin, ?_, ?_⟩
    · intro b hb l hl
      obtain ⟨hlt, rfl⟩ := getElem?_map_range hl
      rw [List.getElem?_map, List.getElem?_range hlt]
      simp only [Option.map_some]
      rw [(hp b hlt).2.2 hb]
    · intro b k t l ht hl x hx
      obtain ⟨hlt, rfl⟩ := getElem?_map_range hl
      have hx' := (hp b hlt).1.mem_iff.1 hx
      rw [List.mem_filter, decide_eq_true_iff] at hx'
      have := hin x hx'.1
      rw [hx'.2] at this
      exact this.2 k t (by rw [hths, List.getElem?_map, ht]; rfl)
  · rw [← List.flatMap_def]
    have h1 : ((List.range v.numBins).flatMap (fun b => (p b).1)).Perm ((List.range v.numBins).flatMap (fun b => all.filter (fun x => decide (f x.2 = b)))) :=
      List.Perm.flatMap_left _ (fun b hb => (hp b (List.mem_range.1 hb)).1)
    refine h1.trans ((perm_flatMap_filter (fun x : Nat × Rat => f x.2) all v.numBins).trans ?_)
    rw [List.filter_eq_self.2 (fun x hx => by simpa using (hin x hx).1)]

theorem Start.perm {M : Type} [AddCommGroup M] {cfg : Config M} {l l' : List (Nat × Rat)} {subset : Subset M} (hp : l.Perm l') (h : Start cfg l subset) :
    Start cfg l' subset :=
  ⟨(hp.map Prod.fst).nodup_iff.1 h.nodup, h.numExamples.trans (weighted_perm hp).length_eq, h.size, h.sum, h.acc, h.total.trans (weightedSum_perm hp)⟩

theorem SoundBin.perm {M : Type} [AddCommGroup M] {cfg : Config M} {l l' : List (Nat × Rat)} {bins : List (List Nat)} {thresholds : List Rat}
    {c : BinnedCandidate M} (hp : l.Perm l') (h : SoundBin cfg l bins thresholds c) : SoundBin cfg l' bins thresholds c := by
  obtain ⟨t, h1, h2⟩ := h
  exact ⟨t, h1, h2.minCoverage, h2.count.trans (weighted_perm (hp.filter _)).length_eq, h2.stats.trans (weightedSum_perm (hp.filter _)),
    fun x hx => h2.covers x (hp.mem_iff.2 hx)⟩

/-- **C65 (partial).** If the bins and thresholds of a feature vector describe the same partition of the examples (C55), all candidates of the search, but the one in
lines 147-163, report and are evaluated on exactly the examples whose values satisfy their conditions. -/
theorem separates_sound_partial {M : Type} [AddCommGroup M] {cfg : Config M} {subset : Subset M} {entries : List FeatureBinning.Entry} {sparse : Bool}
    {sparseValue : ℚ} {v : FeatureBinning.BinnedVector} (h : FeatureBinning.Spec.Separates entries sparse sparseValue v) {remaining : List Nat}
    (hr : remaining ≠ [] → sparse = true) (hU : Start cfg (numericalExamples (entries.map (fun e => (e.index, e.value))) sparseValue remaining) subset)
    (hmin : 1 ≤ cfg.minCoverage) :
    ∃ bins thresholds r, Decoded v bins thresholds ∧ searchBinned cfg bins v.sparseBinIndex subset = .ok r ∧
      ∀ c ∈ r.forward ++ r.backward ++ r.greater ++ r.accumulated,
        SoundBin cfg (numericalExamples (entries.map (fun e => (e.index, e.value))) sparseValue remaining) bins thresholds c := by
  obtain ⟨bins, thresholds, members, h1, h2, h3⟩ := separates_binned h remaining hr
  obtain ⟨r, h4, h5⟩ := binned_sound_partial h2 (hU.perm h3.symm) hmin
  exact ⟨bins, thresholds, r, h1, h4, fun c hc => (h5 c hc).perm h3⟩

/-- **C55, C65 (partial).** Equal-frequency binning followed by the search. -/
theorem equalFrequency_sound_partial {M : Type} [AddCommGroup M] {cfg : Config M} {subset : Subset M} {isEqual : ℚ → ℚ → Bool}
    {entries : List FeatureBinning.Entry} (hexact : FeatureBinning.Spec.Exact isEqual 0 entries) (hs : FeatureBinning.Spec.Sorted entries) (hne : entries ≠ [])
    (numBins numRows : Nat) (hU : Start cfg (entries.map (fun e => (e.index, e.value))) subset) (hmin : 1 ≤ cfg.minCoverage) :
    ∃ o, FeatureBinning.equalFrequency isEqual numBins numRows false 0 entries = .ok o ∧ ∀ v, o = some v →
      ∃ bins thresholds r, Decoded v bins thresholds ∧ searchBinned cfg bins v.sparseBinIndex subset = .ok r ∧
        ∀ c ∈ r.forward ++ r.backward ++ r.greater ++ r.accumulated, SoundBin cfg (entries.map (fun e => (e.index, e.value))) bins thresholds c := by
  obtain ⟨o, h1, h2⟩ := FeatureBinning.equalFrequency_dense hexact hs hne numBins numRows
  refine ⟨o, h1, fun v hv => ?_⟩
  have := separates_sound_partial (cfg := cfg) (subset := subset) (h2 v hv) (remaining := []) (by simp) (by simpa [numericalExamples] using hU) hmin
  simpa [numericalExamples] using this

example : Start (exConfig 3) (([⟨0, -4⟩, ⟨1, -1⟩, ⟨2, 2⟩, ⟨7, 2⟩] : List FeatureBinning.Entry).map (fun e => (e.index, e.value))) (exSubset 111) :=
  ⟨by decide +kernel, by decide +kernel, by decide +kernel, rfl, rfl, by decide +kernel⟩

/-! ### Concrete cases -/

/-- Five bins, the third one of which is the sparse bin. -/
def exBins : List (List Nat) := [[0, 7], [1], [], [2, 3], [4]]

def exMembers : List (List (Nat × Rat)) := [[(0, -9), (7, -8)], [(1, -4)], [(5, 0), (6, 0)], [(2, 3), (3, 4)], [(4, 8)]]

theorem exBinned : Binned exBins [-6, -2, 2, 6] 2 exMembers := by
  refine ⟨rfl, rfl, by decide, ?_, ?_⟩
  · intro b hb l hl
    match b with
    | 0 => cases hl; rfl
    | 1 => cases hl; rfl
    | 2 => exact absurd rfl hb
    | 3 => cases hl; rfl
    | 4 => cases hl; rfl
    | n + 5 => simp [exMembers] at hl
  · intro b k t l ht hl x hx
    have hk := (List.getElem?_eq_some_iff.1 ht).1
    have hb := (List.getElem?_eq_some_iff.1 hl).1
    have hall : ∀ k < 4, ∀ b < 5, ∀ t ∈ ([-6, -2, 2, 6] : List Rat)[k]?, ∀ l ∈ exMembers[b]?, ∀ x ∈ l, x.2 ≤ t ↔ b ≤ k := by decide +kernel
    exact hall k hk b hb t ht l hl x hx

theorem exBinned_start : Start (exConfig 7) exMembers.flatten (exSubset 1111111) :=
  ⟨by decide +kernel, by decide +kernel, by decide +kernel, rfl, rfl, by decide +kernel⟩

/-- The candidates of the example. -/
example : (searchBinned (exConfig 7) exBins 2 (exSubset 1111111)).map (fun r => r.all.map (fun c => (c.numCovered, c.comparator, c.position, c.stats))) =
    .ok [(1, .numericalLeq, 0, 1), (6, .numericalGr, 0, 1111110), (1, .numericalGr, 3, 10000), (6, .numericalLeq, 3, 1101111), (3, .numericalGr, 2, 11100),
      (4, .numericalLeq, 2, 11100), (2, .numericalLeq, 1, 11), (5, .numericalGr, 1, 1111100)] := by decide +kernel

/-- **C65 (negation).** The candidate `<= 2` covers four examples, but is evaluated on the statistics of the three other ones. -/
theorem binned_unsound : ∃ r c, searchBinned (exConfig 7) exBins 2 (exSubset 1111111) = .ok r ∧ c ∈ r.all ∧
    ¬SoundBin (exConfig 7) exMembers.flatten exBins [-6, -2, 2, 6] c := by
  refine ⟨_, ⟨⟨3, 5, true⟩, 4, .numericalLeq, 2, 11100⟩, rfl, by decide +kernel, ?_⟩
  rintro ⟨t, h1, h2⟩
  have h3 := congrArg Candidate.threshold (Except.ok.inj h1)
  have : t = 2 := h3.symm
  subst this
  exact absurd h2.stats (by decide +kernel)

/-- **C65 (negation).** If all examples in the last bin have zero weight, the other bins after the sparse bin are ignored, such that the candidate `<= 2` is reported to
cover all examples. -/
theorem binned_last_unsound : ∃ r c, Start (exConfig 3) [[((0 : Nat), (-1 : Rat))], [(1, 0)], [(2, 3)], [(7, 5)]].flatten (exSubset 111) ∧
    searchBinned (exConfig 3) [[0], [], [2], [7]] 1 (exSubset 111) = .ok r ∧ c ∈ r.lessOrEqual ∧ c.numCovered = 3 ∧
    ¬Sound (exConfig 3) [[((0 : Nat), (-1 : Rat))], [(1, 0)], [(2, 3)], [(7, 5)]].flatten (storedSlice [[0], [], [2], [7]]) (c.toCandidate 2) :=
  ⟨_, ⟨⟨2, 4, true⟩, 3, .numericalLeq, 1, 0⟩, ⟨by decide +kernel, by decide +kernel, by decide +kernel, rfl, rfl, by decide +kernel⟩, rfl, by decide +kernel, rfl,
    fun h => absurd h.count (by decide +kernel)⟩

end MLRL.Search
