import Verif.Lemma.BinnedFilter
import Verif.Props.SearchBinned

/-!
# C66: filtered binned feature vectors
-/

namespace MLRL.BinnedFilter
open FeatureSpace FeatureBinning Search Spec

/-! ### Filtering by intervals -/

/-- A part of a list. -/
def slice {α : Type} (l : List α) (start stop : Nat) : List α := (l.drop start).take (stop - start)

theorem getElem?_slice {α : Type} (l : List α) (start stop b : Nat) : (slice l start stop)[b]? = if b < stop - start then l[start + b]? else none := by
  unfold slice
  rw [List.getElem?_take, List.getElem?_drop]

/-- **C66.** If a feature vector is filtered by an interval, the bins of the result are consistent with its thresholds, and contain the same examples as the bins in
the interval. -/
theorem filterInterval_spec {v : BinnedVector} {bins : List (List Nat)} {thresholds : List Rat} {members : List (List (Nat × Rat))}
    (hd : Decoded v bins thresholds) (hb : Binned bins thresholds v.sparseBinIndex members) {i : Interval} {start stop : Nat}
    (hi : i.open v.numBins = (start, stop)) (hlt : start < stop) (hle : stop ≤ v.numBins) (hsize : v.numBins < 2 ^ 32) :
    ∃ v', filterInterval v i = some v' ∧ v'.numBins = stop - start ∧
      Decoded v' (slice bins start stop) (slice thresholds start (stop - 1)) ∧
      Binned (slice bins start stop) (slice thresholds start (stop - 1)) v'.sparseBinIndex (slice members start stop) := by
  have h32 : sub32 stop start = stop - start := RuleList.sub32_of_le (by omega) (by omega)
  have hn := hd.numBins
  have hnt := hd.numThresholds
  have hnm := hb.numBins
  have hlb : (slice bins start stop).length = stop - start := by unfold slice; rw [List.length_take, List.length_drop]; omega
  have hlm : (slice members start stop).length = stop - start := by unfold slice; rw [List.length_take, List.length_drop]; omega
  have hlt' : (slice thresholds start (stop - 1)).length = stop - 1 - start := by unfold slice; rw [List.length_take, List.length_drop]; omega
  unfold filterInterval
  rw [hi]
  simp only
  rw [h32, if_pos (by omega)]
  have hsp := hb.sparseBin
  have hq : (if (if v.sparseBinIndex ≥ start then v.sparseBinIndex - start else 0) ≥ stop - start then stop - start - 1
      else (if v.sparseBinIndex ≥ start then v.sparseBinIndex - start else 0)) < stop - start ∧ (∀ b, b < stop - start → start + b = v.sparseBinIndex →
      b = (if (if v.sparseBinIndex ≥ start then v.sparseBinIndex - start else 0) ≥ stop - start then stop - start - 1
        else (if v.sparseBinIndex ≥ start then v.sparseBinIndex - start else 0))) := by
    constructor
    · split_ifs <;> omega
    · intro b hb1 hb2
      split_ifs <;> omega
  generalize (if (if v.sparseBinIndex ≥ start then v.sparseBinIndex - start else 0) ≥ stop - start then stop - start - 1
      else (if v.sparseBinIndex ≥ start then v.sparseBinIndex - start else 0)) = q at *
  refine ⟨_, rfl, rfl, ⟨?_, ?_, ?_, ?_⟩, ⟨?_, ?_, ?_, ?_, ?_⟩⟩
  · exact hlb
  · omega
  · rw [hlt']
    apply List.ext_getElem?
    intro k
    rw [List.getElem?_map, getElem?_slice]
    by_cases hk : k < stop - 1 - start
    · rw [List.getElem?_take_of_lt hk, if_pos hk]
      show (v.thresholds.drop start)[k]? = _
      rw [List.getElem?_drop]
      have h5 := congrArg (fun m => m[start + k]?) hd.thresholds
      simp only [List.getElem?_map] at h5
      rw [List.getElem?_take_of_lt (by omega)] at h5
      exact h5
    · rw [if_neg hk, List.getElem?_eq_none (by rw [List.length_take]; omega)]
      rfl
  · intro b l hl
    rw [getElem?_slice] at hl
    split at hl
    · obtain ⟨first, last, h1, h2, h3, h4⟩ := hd.stored _ _ hl
      refine ⟨first, last, ?_, ?_, h3, h4⟩
      · show (v.indptr.drop start)[b]? = _
        rw [List.getElem?_drop]; exact h1
      · show (v.indptr.drop start)[b + 1]? = _
        rw [List.getElem?_drop]; exact h2
    · cases hl
  · omega
  · omega
  · simp only
    rw [hlb]
    exact hq.1
  · intro b hne l hl
    simp only at hne
    rw [getElem?_slice] at hl ⊢
    split at hl
    · rename_i hbl
      rw [if_pos hbl]
      refine hb.stored (start + b) ?_ l hl
      intro hsb
      exact hne (hq.2 b hbl hsb)
    · cases hl
  · intro b k t l ht hl x hx
    rw [getElem?_slice] at ht hl
    split at ht
    · split at hl
      · rw [hb.separated _ _ t l ht hl x hx]
        omega
      · cases hl
    · cases ht

/-- The intervals the search associates with the condition `<= t`, or `> t`, where `t` is the `k`-th of the thresholds between `n` bins. -/
def IsCondition (n k : Nat) (atMost : Bool) (i : Interval) : Prop :=
  i = ⟨0, k + 1, !atMost⟩ ∨ i = ⟨k + 1, n, atMost⟩

/-- **C66.** If a feature vector is filtered by the interval of a condition, the bins of the result contain the examples that satisfy the condition. -/
theorem filterInterval_condition {v : BinnedVector} {bins : List (List Nat)} {thresholds : List Rat} {members : List (List (Nat × Rat))}
    (hd : Decoded v bins thresholds) (hb : Binned bins thresholds v.sparseBinIndex members) (hsize : v.numBins < 2 ^ 32) {i : Interval} {k : Nat} {t : Rat}
    (ht : thresholds[k]? = some t) {atMost : Bool} (hi : IsCondition v.numBins k atMost i) :
    ∃ v' bins' thresholds' members', filterInterval v i = some v' ∧ v'.numBins ≤ v.numBins ∧ Decoded v' bins' thresholds' ∧
      Binned bins' thresholds' v'.sparseBinIndex members' ∧ (bins = members.map (List.map Prod.fst) → bins' = members'.map (List.map Prod.fst)) ∧
      members'.flatten = members.flatten.filter (fun x => decide (x.2 ≤ t) == atMost) := by
  have hn := hd.numBins
  have hnt := hd.numThresholds
  have hnm := hb.numBins
  have hk := (List.getElem?_eq_some_iff.1 ht).1
  have hm : members = members.take (k + 1) ++ members.drop (k + 1) := (List.take_append_drop _ _).symm
  obtain ⟨h1, h2⟩ := hb.split hm (k := k) (by rw [List.length_take]; omega) ht
  have hopen : i.open v.numBins = if atMost then (0, k + 1) else (k + 1, v.numBins) := by
    rcases hi with rfl | rfl <;> cases atMost <;> simp [Interval.open]
  cases atMost with
  | true =>
    rw [if_pos rfl] at hopen
    obtain ⟨v', g1, g2, g3, g4⟩ := filterInterval_spec hd hb hopen (by omega) (by omega) hsize
    refine ⟨v', _, _, _, g1, by omega, g3, g4, ?_, ?_⟩
    · intro he
      rw [he]
      unfold slice
      simp
    · have : slice members 0 (k + 1) = members.take (k + 1) := by unfold slice; simp
      rw [this]
      conv_rhs => rw [hm, List.flatten_append, List.filter_append]
      rw [List.filter_eq_self.2 (fun x hx => by simpa using h1 x hx), List.filter_eq_nil_iff.2 (fun x hx => by simpa using h2 x hx), List.append_nil]
  | false =>
    rw [if_neg (by simp)] at hopen
    obtain ⟨v', g1, g2, g3, g4⟩ := filterInterval_spec hd hb hopen (by omega) (by omega) hsize
    refine ⟨v', _, _, _, g1, by omega, g3, g4, ?_, ?_⟩
    · intro he
      rw [he]
      unfold slice
      simp
    · have : slice members (k + 1) v.numBins = members.drop (k + 1) := by
        unfold slice
        rw [List.take_of_length_le (by rw [List.length_drop]; omega)]
      rw [this]
      conv_rhs => rw [hm, List.flatten_append, List.filter_append]
      rw [List.filter_eq_nil_iff.2 (fun x hx => by simpa using h1 x hx), List.filter_eq_self.2 (fun x hx => by simpa using h2 x hx), List.nil_append]

/-! ### The intervals of the candidates of the search -/

section
variable {M : Type} [AddCommGroup M]

/-- The interval of a candidate corresponds to its threshold and comparator. -/
def IsCandidate (n : Nat) (c : BinnedCandidate M) : Prop :=
  (c.comparator = .numericalLeq ∧ IsCondition n c.position true c.interval) ∨ (c.comparator = .numericalGr ∧ IsCondition n c.position false c.interval)

theorem proposeBin_mem {cfg : Config M} {i : Interval} {m : Nat} {cmp : Comparator} {p : Nat} {st : M} {c : BinnedCandidate M}
    (h : c ∈ proposeBin cfg i m cmp p st) : c.interval = i ∧ c.comparator = cmp ∧ c.position = p := by
  unfold proposeBin at h
  split at h
  · rw [List.mem_singleton] at h
    subst h
    exact ⟨rfl, rfl, rfl⟩
  · simp at h

theorem lower_candidate {cfg : Config M} {n i m : Nat} {st total : M} (hi : 0 < i) {c : BinnedCandidate M}
    (h : c ∈ proposeBothBins cfg 0 i m .numericalLeq .numericalGr (i - 1) st total) : IsCandidate n c := by
  unfold proposeBothBins at h
  rcases List.mem_append.1 h with h | h
  · obtain ⟨h1, h2, h3⟩ := proposeBin_mem h
    exact Or.inl ⟨h2, Or.inl (by rw [h1, h3, Nat.sub_add_cancel hi]; rfl)⟩
  · obtain ⟨h1, h2, h3⟩ := proposeBin_mem h
    exact Or.inr ⟨h2, Or.inl (by rw [h1, h3, Nat.sub_add_cancel hi]; rfl)⟩

theorem upper_candidate {cfg : Config M} {n k m : Nat} {st total : M} (hk : 0 < k) {c : BinnedCandidate M}
    (h : c ∈ proposeBothBins cfg k n m .numericalGr .numericalLeq (k - 1) st total) : IsCandidate n c := by
  unfold proposeBothBins at h
  rcases List.mem_append.1 h with h | h
  · obtain ⟨h1, h2, h3⟩ := proposeBin_mem h
    exact Or.inr ⟨h2, Or.inr (by rw [h1, h3, Nat.sub_add_cancel hk])⟩
  · obtain ⟨h1, h2, h3⟩ := proposeBin_mem h
    exact Or.inl ⟨h2, Or.inr (by rw [h1, h3, Nat.sub_add_cancel hk])⟩

theorem binForward_candidates {cfg : Config M} {n : Nat} (bins : List (List Nat)) : ∀ (i : Nat) (s : BinState M), 0 < i → (∀ c ∈ s.candidates, IsCandidate n c) →
    ∀ c ∈ (binForward cfg i bins s).candidates, IsCandidate n c := by
  induction bins with
  | nil => intro i s _ h; exact h
  | cons b bins ih =>
    intro i s hi h
    simp only [binForward]
    refine ih (i + 1) _ (by omega) ?_
    intro c hc
    rcases List.mem_append.1 hc with hc | hc
    · exact h c hc
    · exact lower_candidate hi hc

theorem binBackward_candidates {cfg : Config M} {n : Nat} (bins : List (List Nat)) : ∀ (k : Nat) (s : BinState M), bins.length ≤ k → (bins ≠ [] → 0 < k) →
    (∀ c ∈ s.candidates, IsCandidate n c) → ∀ c ∈ (binBackward cfg n k bins s).candidates, IsCandidate n c := by
  induction bins with
  | nil => intro k s _ _ h; exact h
  | cons b bins ih =>
    intro k s hk h0 h
    simp only [binBackward]
    rw [List.length_cons] at hk
    refine ih (k - 1) _ (by omega) ?_ ?_
    · intro hne
      have := List.length_pos_of_ne_nil hne
      omega
    · intro c hc
      rcases List.mem_append.1 hc with hc | hc
      · exact h c hc
      · exact upper_candidate (h0 (by simp)) hc

/-- **C66.** The intervals of all candidates of the search correspond to conditions. -/
theorem searchBinned_candidates {cfg : Config M} {bins : List (List Nat)} {sb : Nat} {subset : Subset M} {r : BinResult M}
    (h : searchBinned cfg bins sb subset = .ok r) : ∀ c ∈ r.all, IsCandidate bins.length c := by
  unfold searchBinned at h
  split at h
  · rename_i hsb
    simp only at h
    have hf : ∀ c ∈ (binForwardPhase cfg (bins.take sb) subset).candidates, IsCandidate bins.length c := by
      unfold binForwardPhase
      split
      · simp
      · split
        · exact binForward_candidates _ 1 _ (by omega) (by simp)
        · simp
    have hzero : sb = 0 → (binForwardPhase cfg (bins.take sb) subset).numCovered = 0 := by
      rintro rfl
      simp [binForwardPhase]
    have hbk : ∀ s : Subset M, ∀ c ∈ (binBackwardPhase cfg bins.length (bins.drop (sb + 1)).reverse s).candidates, IsCandidate bins.length c := by
      intro s
      have hl : (bins.drop (sb + 1)).reverse.length = bins.length - (sb + 1) := by simp
      unfold binBackwardPhase
      split
      · simp
      · rename_i indices rest he
        rw [he, List.length_cons] at hl
        split
        · refine binBackward_candidates _ _ _ (by omega) ?_ (by simp)
          intro hne
          have := List.length_pos_of_ne_nil hne
          omega
        · simp
    generalize binForwardPhase cfg (bins.take sb) subset = f at *
    have hbk' := hbk f.subset
    generalize binBackwardPhase cfg bins.length (bins.drop (sb + 1)).reverse f.subset = s at *
    cases ha : binAccumulatedPhase cfg sb f.numCovered s.subset with
    | error e => rw [ha, error_bind] at h; cases h
    | ok a =>
      rw [ha, ok_bind] at h
      cases h
      intro c hc
      simp only [BinResult.all, List.mem_append] at hc
      rcases hc with (((hc | hc) | hc) | hc) | hc
      · exact hf c hc
      · exact hbk' c hc
      · obtain ⟨h1, h2, h3⟩ := proposeBin_mem hc
        exact Or.inr ⟨h2, Or.inr (by rw [h1, h3])⟩
      · obtain ⟨h1, h2, h3⟩ := proposeBin_mem hc
        exact Or.inl ⟨h2, Or.inr (by rw [h1, h3])⟩
      · unfold binAccumulatedPhase at ha
        split at ha
        · rename_i hpos
          cases hacc : s.subset.acc with
          | none => rw [hacc] at ha; cases ha
          | some x =>
            rw [hacc] at ha
            cases ha
            refine lower_candidate ?_ hc
            by_contra h0
            have := hzero (by omega)
            omega
        · cases ha
          simp at hc
  · cases h

end

/-! ### Filtering by coverage masks -/

theorem kept_map (covered : Nat → Bool) (members : List (List (Nat × Rat))) :
    kept covered (members.map (List.map Prod.fst)) = (kept (fun x : Nat × Rat => covered x.1) members).map (fun p => (p.1, p.2.map Prod.fst)) := by
  unfold kept
  rw [List.zipIdx_map, List.map_map, List.filter_map, List.filter_map, List.map_map]
  have h : ∀ p : List (Nat × Rat) × Nat, (fun p : List Nat × Nat => (p.2, p.1.filter covered)) (Prod.map (List.map Prod.fst) id p) =
      (p.2, (p.1.filter (fun x => covered x.1)).map Prod.fst) := by
    intro p
    simp only [Prod.map, id]
    rw [List.filter_map]
    rfl
  congr 1
  · funext p
    exact h p
  · apply List.filter_congr
    intro p _
    simp only [Function.comp]
    have h2 : List.filter covered (Prod.map (List.map Prod.fst) id p).1 = _ := congrArg Prod.snd (h p)
    rw [h2]
    simp

theorem kept_flatten {α : Type} (covered : α → Bool) (bins : List (List α)) : ((kept covered bins).map Prod.snd).flatten = bins.flatten.filter covered := by
  have h : ∀ i, ((kept covered (bins.take i)).map Prod.snd).flatten = (bins.take i).flatten.filter covered := by
    intro i
    induction i with
    | zero => simp [kept]
    | succ i ih =>
      rcases Nat.lt_or_ge i bins.length with hi | hi
      · rw [kept_take_succ covered bins (List.getElem?_eq_getElem hi), List.map_append, List.flatten_append, ih, List.take_add_one,
          List.getElem?_eq_getElem hi, List.flatten_append, List.filter_append]
        congr 1
        split
        · rename_i he
          simpa using he
        · simp
      · rw [List.take_of_length_le (by omega)]
        rw [List.take_of_length_le hi] at ih
        exact ih
  have := h bins.length
  rwa [List.take_length] at this

/-- **C66 (partial).** If all examples are stored, i.e. if there are no sparse values, filtering a feature vector by a coverage mask results in a vector whose bins are
consistent with its thresholds and contain exactly the covered examples. It does not matter whether the vector is overwritten or not. -/
theorem filterMask_dense_partial {v : BinnedVector} {members : List (List (Nat × Rat))} (h : Consistent v members) (hsize : Small v) (inPlace : Bool)
    (covered : Nat → Bool) :
    (members.flatten.filter (fun x => covered x.1) = [] ∧ filterMask v inPlace covered = .ok none) ∨
    ∃ v' members', filterMask v inPlace covered = .ok (some v') ∧ Consistent v' members' ∧ Small v' ∧ v'.numBins ≤ v.numBins ∧
      members'.flatten = members.flatten.filter (fun x => covered x.1) := by
  obtain ⟨ths, hd, hb⟩ := h
  have hk := kept_map covered members
  obtain ⟨h1, h2⟩ := filterMask_spec hd hsize inPlace covered
  by_cases hK : kept covered (members.map (List.map Prod.fst)) = []
  · left
    refine ⟨?_, h1 hK⟩
    rw [hk, List.map_eq_nil_iff] at hK
    rw [← kept_flatten, hK]
    rfl
  · right
    obtain ⟨v', bins', ths', g1, g2, g3, g4, g5⟩ := h2 hK
    have hbins : bins' = ((kept (fun x : Nat × Rat => covered x.1) members).map Prod.snd).map (List.map Prod.fst) := by
      rw [g3.remaining, hk, List.map_map, List.map_map]
      rfl
    have hlen : bins'.length = (kept (fun x : Nat × Rat => covered x.1) members).length := by rw [hbins]; simp
    refine ⟨v', (kept (fun x : Nat × Rat => covered x.1) members).map Prod.snd, g1, ⟨ths', by rw [← hbins]; exact g2, ?_⟩, g5, ?_, kept_flatten _ _⟩
    · rw [← hbins]
      refine ⟨by rw [hlen, List.length_map], g3.numThresholds, ?_, ?_, ?_⟩
      · have := g3.numThresholds
        omega
      · intro b _ l hl
        rw [hbins, List.getElem?_map, hl]
        rfl
      · intro b k t l ht hl x hx
        have hkt := (List.getElem?_eq_some_iff.1 ht).1
        have hnt := g3.numThresholds
        rw [List.getElem?_map, Option.map_eq_some_iff] at hl
        obtain ⟨p, hp, rfl⟩ := hl
        have hkl : k < (kept (fun x : Nat × Rat => covered x.1) members).length := by omega
        have hq := List.getElem?_eq_getElem hkl
        generalize (kept (fun x : Nat × Rat => covered x.1) members)[k] = q at hq
        have hbt := g3.between k (q.1, q.2.map Prod.fst) (by rw [hk, List.getElem?_map, hq]; rfl) (by omega)
        rw [ht] at hbt
        obtain ⟨lp, hp1, hp2, _⟩ := mem_kept.1 (List.mem_of_getElem? hp)
        rw [hp2, List.mem_filter] at hx
        rw [hb.separated p.1 q.1 t lp hbt.symm hp1 x hx.1]
        have hs := kept_sorted (fun x : Nat × Rat => covered x.1) members
        rw [List.pairwise_iff_getElem] at hs
        obtain ⟨hbl, hp'⟩ := List.getElem?_eq_some_iff.1 hp
        obtain ⟨_, hq'⟩ := List.getElem?_eq_some_iff.1 hq
        rcases Nat.lt_trichotomy b k with hlt | heq | hlt
        · have := hs b k hbl hkl hlt
          rw [hp', hq'] at this
          omega
        · subst heq
          rw [hp'] at hq'
          rw [hq']
          omega
        · have := hs k b hkl hbl hlt
          rw [hp', hq'] at this
          omega
    · rw [← g2.numBins, ← hd.numBins, hlen, List.length_map]
      have := kept_take_length (fun x : Nat × Rat => covered x.1) members members.length
      rwa [List.take_length] at this

/-! ### Sequences of filters -/

/-- The feature vectors, and the examples they represent, that result from a sequence of filters, starting with a certain vector. If a vector is filtered by an
interval, it corresponds to a condition. -/
inductive Filtered (v : BinnedVector) (examples : List (Nat × Rat)) : BinnedVector → List (Nat × Rat) → Prop where
  | refl : Filtered v examples v examples
  | interval {v' v'' : BinnedVector} {l : List (Nat × Rat)} {i : Interval} {k : Nat} {t : Rat} {atMost : Bool} : Filtered v examples v' l → k + 1 < v'.numBins →
      v'.thresholds[k]? = some (some t) → IsCondition v'.numBins k atMost i → filterInterval v' i = some v'' →
      Filtered v examples v'' (l.filter (fun x => decide (x.2 ≤ t) == atMost))
  | mask {v' v'' : BinnedVector} {l : List (Nat × Rat)} {inPlace : Bool} {covered : Nat → Bool} : Filtered v examples v' l →
      filterMask v' inPlace covered = .ok (some v'') → Filtered v examples v'' (l.filter (fun x => covered x.1))

theorem small_interval {v v' : BinnedVector} {bins : List (List Nat)} {thresholds : List Rat} {i : Interval} (hd : Decoded v bins thresholds)
    (h : filterInterval v i = some v') (hs : Small v) {start stop : Nat} (hi : i.open v.numBins = (start, stop)) (hlt : start < stop) (hle : stop ≤ v.numBins)
    (hsize : v.numBins < 2 ^ 32) : Small v' := by
  unfold filterInterval at h
  rw [hi] at h
  simp only at h
  rw [RuleList.sub32_of_le (by omega) (by omega), if_pos (by omega)] at h
  cases h
  intro b a hb ha
  replace hb : b ≤ stop - start := hb
  replace ha : (v.indptr.drop start)[b]? = _ := ha
  rw [List.getElem?_drop] at ha
  exact hs _ a (by omega) ha

theorem condition_open {n k : Nat} {atMost : Bool} {i : Interval} (h : IsCondition n k atMost i) : i.open n = if atMost then (0, k + 1) else (k + 1, n) := by
  rcases h with rfl | rfl <;> cases atMost <;> simp [Interval.open]

/-- **C66 (partial).** If all examples are stored, an arbitrary sequence of filters results in a vector whose bins are consistent with its thresholds and contain
exactly the examples that satisfy the conditions of all intervals and are covered according to all masks. -/
theorem filtered_consistent_partial {v : BinnedVector} {members : List (List (Nat × Rat))} (h : Consistent v members) (hsize : Small v) (hbins : v.numBins < 2 ^ 32)
    {v' : BinnedVector} {l : List (Nat × Rat)} (hf : Filtered v members.flatten v' l) :
    ∃ members', Consistent v' members' ∧ Small v' ∧ v'.numBins < 2 ^ 32 ∧ members'.flatten = l := by
  induction hf with
  | refl => exact ⟨members, h, hsize, hbins, rfl⟩
  | @interval v1 v2 l i k t atMost _ hk ht hi hv ih =>
    obtain ⟨members1, ⟨ths, hd, hb⟩, h2, h3, h4⟩ := ih
    have hths : ths[k]? = some t := by
      have hnt := hd.numThresholds
      have hnb := hd.numBins
      have h5 := congrArg (fun m => m[k]?) hd.thresholds
      simp only [List.getElem?_map] at h5
      rw [List.getElem?_take_of_lt (by omega), ht, List.getElem?_eq_getElem (by omega)] at h5
      rw [List.getElem?_eq_getElem (by omega)]
      exact (Option.some.inj h5).symm
    obtain ⟨w, bins', ths', members', g1, g2, g3, g4, g5, g6⟩ := filterInterval_condition hd hb h3 hths hi
    rw [hv] at g1
    cases g1
    have hopen := condition_open hi
    refine ⟨members', ⟨ths', ?_, ?_⟩, ?_, by omega, by rw [g6, h4]⟩
    · rw [← g5 rfl]; exact g3
    · rw [← g5 rfl]; exact g4
    · cases atMost
      · exact small_interval hd hv h2 hopen (by omega) (by omega) h3
      · exact small_interval hd hv h2 hopen (by omega) (by omega) h3
  | @mask v1 v2 l inPlace covered _ hv ih =>
    obtain ⟨members1, h1, h2, h3, h4⟩ := ih
    rcases filterMask_dense_partial h1 h2 inPlace covered with ⟨_, g⟩ | ⟨w, members', g1, g2, g3, g4, g5⟩
    · rw [hv] at g
      cases g
    · rw [hv] at g1
      cases g1
      exact ⟨members', g2, g3, by omega, by rw [g5, h4]⟩

/-- **C65, C66 (partial).** The candidates that are found by the search after an arbitrary sequence of filters, except for the one in
feature_based_search_binned.hpp:147-163, are correct with respect to the examples that remain. -/
theorem filtered_search_partial {M : Type} [AddCommGroup M] {cfg : Config M} {subset : Subset M} {v : BinnedVector} {members : List (List (Nat × Rat))}
    (h : Consistent v members) (hsize : Small v) (hbins : v.numBins < 2 ^ 32) {v' : BinnedVector} {l : List (Nat × Rat)}
    (hf : Filtered v members.flatten v' l) (hU : Start cfg l subset) (hmin : 1 ≤ cfg.minCoverage) :
    ∃ bins thresholds r, Decoded v' bins thresholds ∧ searchBinned cfg bins v'.sparseBinIndex subset = .ok r ∧
      ∀ c ∈ r.forward ++ r.backward ++ r.greater ++ r.accumulated, SoundBin cfg l bins thresholds c := by
  obtain ⟨members', ⟨ths, hd, hb⟩, _, _, rfl⟩ := filtered_consistent_partial h hsize hbins hf
  obtain ⟨r, h1, h2⟩ := binned_sound_partial hb hU hmin
  exact ⟨_, ths, r, hd, h1, h2⟩

/-! ### Sparse values -/

/-- **C66 (negation).** After filtering a vector by a coverage mask, the bin for sparse values is always the last one. Therefore, if at least one covered example is not
stored, because its value is sparse, and there are covered examples in at least two bins, none of which precedes the original bin for sparse values, then the bins of
the result are not consistent with its thresholds. -/
theorem filterMask_sparse {v : BinnedVector} {bins : List (List Nat)} {thresholds : List Rat} {members : List (List (Nat × Rat))}
    (hd : Decoded v bins thresholds) (hb : Binned bins thresholds v.sparseBinIndex members) (hsize : Small v) (inPlace : Bool) (covered : Nat → Bool)
    {i j : Nat} (hi : v.sparseBinIndex ≤ i) (hij : i < j) {bi bj : List Nat} (hbi : bins[i]? = some bi) (hbj : bins[j]? = some bj) (hci : ∃ e ∈ bi, covered e = true)
    (hcj : ∃ e ∈ bj, covered e = true) {x : Nat × Rat} {m : List (Nat × Rat)} (hm : members[v.sparseBinIndex]? = some m) (hx : x ∈ m) (hcx : covered x.1 = true)
    (hns : ∀ b ∈ bins, x.1 ∉ b) :
    ∃ v' bins' thresholds', filterMask v inPlace covered = .ok (some v') ∧ Decoded v' bins' thresholds' ∧ v'.sparseBinIndex = bins'.length - 1 ∧
      ∀ members', members'.flatten.Perm (members.flatten.filter (fun x => covered x.1)) → ¬Binned bins' thresholds' v'.sparseBinIndex members' := by
  have hki : (i, bi.filter covered) ∈ kept covered bins := by
    obtain ⟨e, he, hc⟩ := hci
    exact mem_kept.2 ⟨bi, hbi, rfl, List.ne_nil_of_mem (List.mem_filter.2 ⟨he, hc⟩)⟩
  have hkj : (j, bj.filter covered) ∈ kept covered bins := by
    obtain ⟨e, he, hc⟩ := hcj
    exact mem_kept.2 ⟨bj, hbj, rfl, List.ne_nil_of_mem (List.mem_filter.2 ⟨he, hc⟩)⟩
  obtain ⟨v', bins', ths', g1, g2, g3, g4, _⟩ := (filterMask_spec hd hsize inPlace covered).2 (List.ne_nil_of_mem hki)
  refine ⟨v', bins', ths', g1, g2, g4, ?_⟩
  intro members' hp h
  have hs := kept_sorted covered bins
  rw [List.pairwise_iff_getElem] at hs
  obtain ⟨p, hpl, hpe⟩ := List.getElem_of_mem hki
  obtain ⟨q, hql, hqe⟩ := List.getElem_of_mem hkj
  have hlen : bins'.length = (kept covered bins).length := by rw [g3.remaining, List.length_map]
  have hpq : p < q := by
    rcases Nat.lt_trichotomy p q with hlt | heq | hlt
    · exact hlt
    · subst heq
      rw [hpe] at hqe
      have := congrArg Prod.fst hqe
      simp only at this
      omega
    · have := hs q p hql hpl hlt
      rw [hpe, hqe] at this
      simp only at this
      omega
  have hnt := hb.numThresholds
  have hjl := (List.getElem?_eq_some_iff.1 hbj).1
  have hil : i < thresholds.length := by omega
  have hbt := g3.between p (i, bi.filter covered) (by rw [List.getElem?_eq_getElem hpl, hpe]) (by omega)
  rw [List.getElem?_eq_getElem hil] at hbt
  have hxt := (hb.separated _ i _ m (List.getElem?_eq_getElem hil) hm x hx).2 hi
  have hmem : x ∈ members'.flatten := hp.mem_iff.2 (List.mem_filter.2 ⟨List.mem_flatten.2 ⟨m, List.mem_of_getElem? hm, hx⟩, hcx⟩)
  obtain ⟨b', hb', hxb⟩ := List.mem_flatten.1 hmem
  obtain ⟨b, hbl, rfl⟩ := List.getElem_of_mem hb'
  have hle := (h.separated b p _ _ hbt (List.getElem?_eq_getElem hbl) x hxb).1 hxt
  have hst := h.stored b (by omega) _ (List.getElem?_eq_getElem hbl)
  have hin : x.1 ∈ members'[b].map Prod.fst := List.mem_map.2 ⟨x, hxb, rfl⟩
  have hmb := List.mem_of_getElem? hst
  rw [g3.remaining, List.mem_map] at hmb
  obtain ⟨r, hr, hre⟩ := hmb
  obtain ⟨l, hl1, hl2, _⟩ := mem_kept.1 hr
  rw [← hre, hl2, List.mem_filter] at hin
  exact hns l (List.mem_of_getElem? hl1) hin.1

/-! ### Concrete cases -/

/-- A feature vector with three bins, the first one of which is the bin for sparse values. -/
def exVector : BinnedVector := ⟨[some 1, some 3], [some 0, some 1, some 2], [some 0, some 0, some 2, some 3], 3, 0⟩

def exVectorMembers : List (List (Nat × Rat)) := [[(3, 0), (4, 0)], [(0, 2), (1, 5 / 2)], [(2, 4)]]

/-- All of its examples are covered, but after filtering it, the last bin is considered as the bin for sparse values. -/
theorem exVector_mask : filterMask exVector false (fun _ => true) = .ok (some ⟨[some 3], [some 0, some 1, some 2], [some 0, some 2, some 3], 2, 1⟩) := by
  decide +kernel

theorem exVector_decoded : Decoded exVector [[], [0, 1], [2]] [1, 3] := by
  refine ⟨rfl, rfl, rfl, ?_⟩
  intro b l hl
  match b, hl with
  | 0, hl => cases hl; exact ⟨0, 0, rfl, rfl, rfl, rfl⟩
  | 1, hl => cases hl; exact ⟨0, 2, rfl, rfl, rfl, rfl⟩
  | 2, hl => cases hl; exact ⟨2, 3, rfl, rfl, rfl, rfl⟩

theorem exVector_binned : Binned [[], [0, 1], [2]] [1, 3] 0 exVectorMembers := by
  refine ⟨rfl, rfl, by decide, ?_, ?_⟩
  · intro b hb l hl
    match b, hl with
    | 0, _ => exact absurd rfl hb
    | 1, hl => cases hl; rfl
    | 2, hl => cases hl; rfl
  · intro b k t l ht hl x hx
    have hk := (List.getElem?_eq_some_iff.1 ht).1
    have hb := (List.getElem?_eq_some_iff.1 hl).1
    have hall : ∀ k < 2, ∀ b < 3, ∀ t ∈ ([1, 3] : List Rat)[k]?, ∀ l ∈ exVectorMembers[b]?, ∀ x ∈ l, x.2 ≤ t ↔ b ≤ k := by decide +kernel
    exact hall k hk b hb t ht l hl x hx

theorem exVector_small : Small exVector := by
  intro b a hb ha
  match b, ha with
  | 0, ha => cases ha; decide
  | 1, ha => cases ha; decide
  | 2, ha => cases ha; decide
  | 3, ha => cases ha; decide

/-- The hypotheses of `filterMask_sparse` are met. -/
example : ∃ v' bins' thresholds', filterMask exVector false (fun _ => true) = .ok (some v') ∧ Decoded v' bins' thresholds' ∧ v'.sparseBinIndex = bins'.length - 1 ∧
    ∀ members', members'.flatten.Perm (exVectorMembers.flatten.filter (fun _ => true)) → ¬Binned bins' thresholds' v'.sparseBinIndex members' :=
  filterMask_sparse exVector_decoded exVector_binned exVector_small false (fun _ => true) (i := 1) (j := 2) (by decide) (by decide) rfl rfl
    ⟨0, by decide, rfl⟩ ⟨2, by decide, rfl⟩ rfl (x := (3, 0)) (List.mem_cons_self ..) rfl (by decide)

/-- **C66 (negation).** According to the search, the condition `<= 3` is satisfied by two examples, though it is satisfied by four. -/
theorem exVector_search : ∃ r c, Start (exConfig 5) exVectorMembers.flatten (exSubset 11111) ∧
    searchBinned (exConfig 5) [[0, 1], [2]] 1 (exSubset 11111) = .ok r ∧ c ∈ r.accumulated ∧ c.position = 0 ∧ c.comparator = .numericalLeq ∧ c.numCovered = 2 ∧
    ¬SoundBin (exConfig 5) exVectorMembers.flatten [[0, 1], [2]] [3] c := by
  refine ⟨_, ⟨⟨0, 1, false⟩, 2, .numericalLeq, 0, 11⟩, ⟨by decide +kernel, by decide +kernel, by decide +kernel, rfl, rfl, by decide +kernel⟩, rfl, by decide +kernel,
    rfl, rfl, rfl, ?_⟩
  rintro ⟨t, h1, h2⟩
  have h3 : t = 3 := (congrArg Candidate.threshold (Except.ok.inj h1)).symm
  subst h3
  exact absurd h2.count (by decide +kernel)

/-- A vector that stores all of its examples meets the hypotheses of the remaining theorems. -/
example : ∃ v members, Consistent v members ∧ Small v ∧ v.numBins < 2 ^ 32 ∧ members.flatten.length = 4 := by
  refine ⟨⟨[some 1], [some 0, some 3, some 1, some 2], [some 0, some 2, some 4], 2, 0⟩, [[(0, -1), (3, 1)], [(1, 2), (2, 5)]], ⟨[1], ⟨rfl, rfl, rfl, ?_⟩, ?_⟩, ?_,
    by decide, rfl⟩
  · intro b l hl
    match b, hl with
    | 0, hl => cases hl; exact ⟨0, 2, rfl, rfl, rfl, rfl⟩
    | 1, hl => cases hl; exact ⟨2, 4, rfl, rfl, rfl, rfl⟩
  · refine ⟨rfl, rfl, by decide, ?_, ?_⟩
    · intro b _ l hl
      rw [List.getElem?_map, hl]
      rfl
    · intro b k t l ht hl x hx
      have hk := (List.getElem?_eq_some_iff.1 ht).1
      have hb := (List.getElem?_eq_some_iff.1 hl).1
      have hall : ∀ k < 1, ∀ b < 2, ∀ t ∈ ([1] : List Rat)[k]?, ∀ l ∈ ([[(0, -1), (3, 1)], [(1, 2), (2, 5)]] : List (List (Nat × Rat)))[b]?, ∀ x ∈ l, x.2 ≤ t ↔ b ≤ k := by
        decide +kernel
      exact hall k hk b hb t ht l hl x hx
  · intro b a hb ha
    match b, ha with
    | 0, ha => cases ha; decide
    | 1, ha => cases ha; decide
    | 2, ha => cases ha; decide

/-- The vector is filtered in place. -/
example : filterMask exVector true (fun e => e != 0) = .ok (some ⟨[some 3], [some 1, some 2], [some 0, some 1, some 2], 2, 1⟩) := by decide +kernel

end MLRL.BinnedFilter
