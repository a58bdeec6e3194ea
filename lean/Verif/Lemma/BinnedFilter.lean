import Verif.Lemma.RuleList
import Verif.Spec.BinnedFilter

/-!
# Lemmas about how binned feature vectors are filtered
-/

namespace MLRL.BinnedFilter
open FeatureSpace FeatureBinning Spec

/-! ### The bins that are kept -/

theorem kept_take_succ {α : Type} (covered : α → Bool) (bins : List (List α)) {i : Nat} {l : List α} (hl : bins[i]? = some l) :
    kept covered (bins.take (i + 1)) = kept covered (bins.take i) ++ (if (l.filter covered).isEmpty then [] else [(i, l.filter covered)]) := by
  have hi := (List.getElem?_eq_some_iff.1 hl).1
  unfold kept
  rw [List.take_add_one, hl, List.zipIdx_append, List.map_append, List.filter_append]
  congr 1
  simp only [Option.toList_some, List.zipIdx_cons, List.zipIdx_nil, List.map_cons, List.map_nil, List.filter_cons, List.filter_nil, List.length_take, Nat.zero_add]
  rw [Nat.min_eq_left (by omega)]
  cases h : (l.filter covered).isEmpty <;> simp

theorem kept_take_length {α : Type} (covered : α → Bool) (bins : List (List α)) (i : Nat) : (kept covered (bins.take i)).length ≤ i := by
  unfold kept
  refine le_trans (List.length_filter_le _ _) ?_
  rw [List.length_map, List.length_zipIdx, List.length_take]
  omega

theorem mem_kept {α : Type} {covered : α → Bool} {bins : List (List α)} {p : Nat × List α} :
    p ∈ kept covered bins ↔ ∃ l, bins[p.1]? = some l ∧ p.2 = l.filter covered ∧ p.2 ≠ [] := by
  unfold kept
  rw [List.mem_filter, List.mem_map]
  constructor
  · rintro ⟨⟨⟨l, i⟩, hq, rfl⟩, h2⟩
    rw [List.mem_zipIdx_iff_getElem?] at hq
    exact ⟨l, hq, rfl, by simpa using h2⟩
  · rintro ⟨l, h1, h2, h3⟩
    refine ⟨⟨(l, p.1), ?_, ?_⟩, by simpa using h3⟩
    · rw [List.mem_zipIdx_iff_getElem?]; exact h1
    · rw [← h2]

theorem kept_take_index {α : Type} {covered : α → Bool} {bins : List (List α)} {i : Nat} {p : Nat × List α} (h : p ∈ kept covered (bins.take i)) : p.1 < i := by
  obtain ⟨l, h1, _⟩ := mem_kept.1 h
  have := (List.getElem?_eq_some_iff.1 h1).1
  rw [List.length_take] at this
  omega

theorem kept_take_sorted {α : Type} (covered : α → Bool) (bins : List (List α)) : ∀ i : Nat,
    (kept covered (bins.take i)).Pairwise (fun p q => p.1 < q.1)
  | 0 => by simp [kept]
  | i + 1 => by
    have ih := kept_take_sorted covered bins i
    rcases Nat.lt_or_ge i bins.length with hi | hi
    · rw [kept_take_succ covered bins (List.getElem?_eq_getElem hi), List.pairwise_append]
      refine ⟨ih, ?_, ?_⟩
      · split <;> simp
      · intro p hp q hq
        split at hq
        · simp at hq
        · rw [List.mem_singleton] at hq
          subst hq
          exact kept_take_index hp
    · rw [List.take_of_length_le (by omega)]
      rw [List.take_of_length_le hi] at ih
      exact ih

theorem kept_sorted {α : Type} (covered : α → Bool) (bins : List (List α)) : (kept covered bins).Pairwise (fun p q => p.1 < q.1) := by
  have := kept_take_sorted covered bins bins.length
  rwa [List.take_length] at this

theorem exists_list {α : Type} (m : Nat) (Q : Nat → α → Prop) (h : ∀ k, k < m → ∃ t, Q k t) : ∃ l : List α, l.length = m ∧ ∀ (k : Nat) (t : α), l[k]? = some t → Q k t := by
  induction m with
  | zero => exact ⟨[], rfl, by simp⟩
  | succ m ih =>
    obtain ⟨l, h1, h2⟩ := ih (fun k hk => h k (by omega))
    obtain ⟨t, ht⟩ := h m (by omega)
    refine ⟨l ++ [t], by simp [h1], ?_⟩
    intro k u hk
    rcases Nat.lt_or_ge k l.length with hl | hl
    · rw [List.getElem?_append_left hl] at hk
      exact h2 k u hk
    · have h3 := (List.getElem?_eq_some_iff.1 hk).1
      rw [List.length_append, List.length_singleton] at h3
      have : k = m := by omega
      subst this
      rw [List.getElem?_append_right hl, h1, Nat.sub_self] at hk
      cases hk
      exact ht

/-! ### The inner loop -/

variable {v : BinnedVector} {inPlace : Bool} {covered : Nat → Bool}

/-- The state of the inner loop after `j` iterations, starting with the state `s`. -/
structure Inner (v : BinnedVector) (inPlace : Bool) (covered : Nat → Bool) (s : MaskState) (first : Nat) (l : List Nat) (j : Nat) (s' : MaskState) : Prop where
  bins : s'.numFilteredBins = s.numFilteredBins
  num : s'.numFilteredIndices = s.numFilteredIndices + ((l.take j).filter covered).length
  le : s'.numFilteredIndices ≤ first + j
  other : s'.filtered = { s.filtered with indices := s'.filtered.indices }
  len : s'.filtered.indices.length = s.filtered.indices.length
  written : s'.filtered.indices.take s'.numFilteredIndices = s.filtered.indices.take s.numFilteredIndices ++ ((l.take j).filter covered).map some
  unchanged : ∀ p : Nat, first + j ≤ p → (s'.source v inPlace).indices[p]? = (s.source v inPlace).indices[p]?

theorem take_set_succ {α : Type} {l : List α} {n : Nat} {x : α} (h : n < l.length) : (l.set n x).take (n + 1) = l.take n ++ [x] := by
  rw [List.take_add_one, List.getElem?_set, if_pos rfl, if_pos h, List.take_set_of_le (Nat.le_refl _)]
  rfl

theorem maskIndex_spec {s : MaskState} {first : Nat} {l : List Nat} (hm : s.numFilteredIndices ≤ first)
    (hlen : first + l.length ≤ s.filtered.indices.length)
    (hsrc : ∀ (j x : Nat), l[j]? = some x → (s.source v inPlace).indices[first + j]? = some (some x)) :
    ∃ s', loop l.length (maskIndex v inPlace covered first) s = .ok s' ∧ Inner v inPlace covered s first l l.length s' := by
  refine loop_rule (P := Inner v inPlace covered s first l) l.length s ?_ ?_
  · exact ⟨rfl, by simp, by simpa using hm, rfl, rfl, by simp, fun p _ => rfl⟩
  · intro j s1 hj h
    have hx := List.getElem?_eq_getElem hj
    generalize l[j] = x at hx
    unfold maskIndex
    rw [readAt_of_getElem? ((h.unchanged (first + j) (Nat.le_refl _)).trans (hsrc j x hx)), ok_bind]
    simp only [useInit, ok_bind]
    have htake : (l.take (j + 1)).filter covered = (l.take j).filter covered ++ (if covered x then [x] else []) := by
      rw [List.take_add_one, hx, List.filter_append]
      congr 1
      cases hc : covered x <;> simp [hc]
    by_cases hc : covered x = true
    · rw [if_pos hc] at htake
      rw [if_pos hc, writeAt_of_lt (by have := h.le; have := h.len; omega)]
      refine ⟨_, rfl, h.bins, ?_, ?_, ?_, ?_, ?_, ?_⟩
      · rw [htake, List.length_append]
        have := h.num
        simp only [List.length_cons, List.length_nil]
        omega
      · have := h.le
        simp only
        omega
      · simp only
        rw [h.other]
      · simp only [List.length_set]
        exact h.len
      · simp only
        rw [take_set_succ (by have := h.le; have := h.len; omega), h.written, htake]
        simp
      · intro p hp
        rw [← h.unchanged p (by omega)]
        unfold MaskState.source
        cases inPlace
        · rfl
        · simp only [if_true]
          rw [List.getElem?_set, if_neg (by have := h.le; omega)]
    · rw [if_neg hc] at htake
      rw [if_neg hc]
      refine ⟨_, rfl, h.bins, ?_, ?_, h.other, h.len, ?_, ?_⟩
      · rw [htake, List.append_nil]; exact h.num
      · have := h.le; omega
      · rw [htake, List.append_nil]; exact h.written
      · intro p hp
        exact h.unchanged p (by omega)

/-! ### The outer loop -/

/-- What holds after `i` bins. -/
structure Outer (v : BinnedVector) (inPlace : Bool) (covered : Nat → Bool) (bins : List (List Nat)) (target : BinnedVector) (i : Nat) (s : MaskState) : Prop where
  count : s.numFilteredBins = (kept covered (bins.take i)).length
  num : s.numFilteredIndices = ((kept covered (bins.take i)).flatMap Prod.snd).length
  le : ∀ a, v.indptr[i]? = some (some a) → s.numFilteredIndices ≤ a
  lenI : s.filtered.indices.length = target.indices.length
  lenP : s.filtered.indptr.length = target.indptr.length
  lenT : s.filtered.thresholds.length = target.thresholds.length
  indices : s.filtered.indices.take s.numFilteredIndices = ((kept covered (bins.take i)).flatMap Prod.snd).map some
  indptr : ∀ k, k < s.numFilteredBins → s.filtered.indptr[k]? = some (some (((kept covered (bins.take i)).take k).flatMap Prod.snd).length)
  thresholds : ∀ (k : Nat) (p : Nat × List Nat), (kept covered (bins.take i))[k]? = some p → p.1 + 1 < v.numBins → s.filtered.thresholds[k]? = v.thresholds[p.1]?
  sparse : s.filtered.sparseBinIndex = if s.numFilteredBins > v.sparseBinIndex then s.numFilteredBins - 1 else v.sparseBinIndex
  keepP : ∀ k : Nat, i ≤ k → (s.source v inPlace).indptr[k]? = v.indptr[k]?
  keepI : ∀ a, v.indptr[i]? = some (some a) → ∀ p : Nat, a ≤ p → (s.source v inPlace).indices[p]? = v.indices[p]?
  keepT : ∀ k : Nat, i ≤ k → (s.source v inPlace).thresholds[k]? = v.thresholds[k]?

/-- What the vector that the result is written to must provide. -/
structure Target (v : BinnedVector) (bins : List (List Nat)) (target : BinnedVector) : Prop where
  lenI : ∀ (b : Nat), b < bins.length → ∀ last, v.indptr[b + 1]? = some (some last) → last ≤ target.indices.length ∨ bins[b]? = some []
  lenP : bins.length + 1 ≤ target.indptr.length
  lenT : bins.length ≤ target.thresholds.length + 1

theorem maskBin_spec {bins : List (List Nat)} {thresholds : List Rat} {target : BinnedVector} (hd : Search.Decoded v bins thresholds)
    (ht : Target v bins target) (hsize : Small v) {i : Nat} (hi : i < bins.length) {s : MaskState}
    (h : Outer v inPlace covered bins target i s) : ∃ s', maskBin v inPlace covered i s = .ok s' ∧ Outer v inPlace covered bins target (i + 1) s' := by
  have hl := List.getElem?_eq_getElem hi
  generalize bins[i] = l at hl
  obtain ⟨first, last, h1, h2, h3, h4⟩ := hd.stored i l hl
  have hK := kept_take_succ covered bins hl
  have hKl := kept_take_length covered bins i
  have hcnt := h.count
  have hnum := h.num
  have hle := h.le first h1
  have hsrc : ∀ (j x : Nat), l[j]? = some x → (s.source v inPlace).indices[first + j]? = some (some x) := by
    intro j x hx
    rw [h.keepI first h1 _ (by omega), ← List.getElem?_drop]
    have hj := (List.getElem?_eq_some_iff.1 hx).1
    have h5 := congrArg (fun m => m[j]?) h4
    simp only [List.getElem?_map, hx, Option.map_some] at h5
    rw [List.getElem?_take_of_lt (by omega)] at h5
    exact h5
  have hlen : first + l.length ≤ s.filtered.indices.length ∨ l = [] := by
    rcases ht.lenI i hi last h2 with h5 | h5
    · left; rw [h.lenI]; omega
    · right
      rw [hl] at h5
      exact Option.some.inj h5
  have hinner : ∃ s', loop l.length (maskIndex v inPlace covered first) s = .ok s' ∧ Inner v inPlace covered s first l l.length s' := by
    rcases hlen with h5 | rfl
    · exact maskIndex_spec hle h5 hsrc
    · exact ⟨s, rfl, rfl, by simp, by simpa using hle, rfl, rfl, by simp, fun p _ => rfl⟩
  obtain ⟨s1, e1, hI⟩ := hinner
  unfold maskBin
  have e0 : ∀ a : Nat, useInit (some a) = .ok a := fun _ => rfl
  rw [readAt_of_getElem? ((h.keepP i (Nat.le_refl _)).trans h1), ok_bind, e0, ok_bind,
    readAt_of_getElem? ((h.keepP (i + 1) (by omega)).trans h2), ok_bind, e0, ok_bind, RuleList.sub32_of_le (by omega) (hsize (i + 1) last (by rw [← hd.numBins]; omega) h2), show last - first = l.length by omega, e1, ok_bind]
  have hn1 := hI.num
  have hb1 := hI.bins
  have hle1 := hI.le
  have hw1 := hI.written
  rw [List.take_length] at hn1 hw1
  rw [h.indices] at hw1
  have hP1 : s1.filtered.indptr = s.filtered.indptr := by rw [hI.other]
  have hT1 : s1.filtered.thresholds = s.filtered.thresholds := by rw [hI.other]
  have hS1 : s1.filtered.sparseBinIndex = s.filtered.sparseBinIndex := by rw [hI.other]
  have hsP : (s1.source v inPlace).indptr = (s.source v inPlace).indptr := by
    unfold MaskState.source
    cases inPlace
    · rfl
    · simpa using hP1
  have hsT : (s1.source v inPlace).thresholds = (s.source v inPlace).thresholds := by
    unfold MaskState.source
    cases inPlace
    · rfl
    · simpa using hT1
  have hkeepI : ∀ a, v.indptr[i + 1]? = some (some a) → ∀ p : Nat, a ≤ p → (s1.source v inPlace).indices[p]? = v.indices[p]? := by
    intro a ha p hp
    rw [h2] at ha
    cases ha
    rw [hI.unchanged p (by omega), h.keepI first h1 p (by omega)]
  by_cases hc : (l.filter covered) = []
  · have hK' : kept covered (bins.take (i + 1)) = kept covered (bins.take i) := by rw [hK, hc]; simp
    rw [hc] at hn1 hw1
    simp only [List.length_nil, Nat.add_zero, List.map_nil, List.append_nil] at hn1 hw1
    rw [show decide (s1.numFilteredIndices > s.numFilteredIndices) = false by simp [hn1]]
    refine ⟨s1, rfl, ?_⟩
    constructor
    · rw [hK', hb1, hcnt]
    · rw [hK', hn1, hnum]
    · intro a ha
      rw [h2] at ha
      cases ha
      omega
    · rw [hI.len]; exact h.lenI
    · rw [hP1]; exact h.lenP
    · rw [hT1]; exact h.lenT
    · rw [hK']; exact hw1
    · intro k hk
      rw [hK', hP1]
      exact h.indptr k (by omega)
    · intro k p hk hp
      rw [hK'] at hk
      rw [hT1]
      exact h.thresholds k p hk hp
    · rw [hS1, hb1]; exact h.sparse
    · intro k hk
      rw [hsP]
      exact h.keepP k (by omega)
    · exact hkeepI
    · intro k hk
      rw [hsT]
      exact h.keepT k (by omega)
  · have hne : (l.filter covered).isEmpty = false := by simpa using hc
    have hpos : 0 < (l.filter covered).length := List.length_pos_of_ne_nil hc
    have hK' : kept covered (bins.take (i + 1)) = kept covered (bins.take i) ++ [(i, l.filter covered)] := by rw [hK, hne]; simp
    have hnb : v.numBins = bins.length := hd.numBins.symm
    have hnt := hd.numThresholds
    rw [show decide (s1.numFilteredIndices > s.numFilteredIndices) = true by simp [hn1, hpos]]
    simp only
    unfold maskClose
    have hwP : s1.numFilteredBins < s1.filtered.indptr.length := by
      rw [hP1, h.lenP]
      have := ht.lenP
      omega
    rw [writeAt_of_lt hwP, ok_bind]
    have hthr : ∃ T, maskThreshold v inPlace i s1 = .ok T ∧ T.length = s.filtered.thresholds.length ∧
        (i + 1 < v.numBins → T = s.filtered.thresholds.set s.numFilteredBins (thresholds[i]?)) ∧ (¬i + 1 < v.numBins → T = s.filtered.thresholds) := by
      unfold maskThreshold
      by_cases hlt : i < v.numBins - 1
      · rw [if_pos hlt]
        have hti : i < thresholds.length := by omega
        have hvt : v.thresholds[i]? = some (some thresholds[i]) := by
          have h5 := congrArg (fun m => m[i]?) hd.thresholds
          simp only [List.getElem?_map] at h5
          rw [List.getElem?_take_of_lt hti, List.getElem?_eq_getElem hti] at h5
          exact h5
        rw [hsT, readAt_of_getElem? ((h.keepT i (Nat.le_refl _)).trans hvt), ok_bind]
        simp only [useInit, ok_bind]
        rw [writeAt_of_lt (by rw [hT1, h.lenT]; have := ht.lenT; omega)]
        refine ⟨_, rfl, by rw [List.length_set, hT1], fun _ => ?_, fun hn => absurd (by omega) hn⟩
        rw [hT1, hb1, List.getElem?_eq_getElem hti]
      · rw [if_neg hlt]
        exact ⟨_, rfl, by rw [hT1], fun hn => absurd (by omega) hlt, fun _ => hT1⟩
    obtain ⟨T, hT, hTl, hTa, hTb⟩ := hthr
    rw [hT, ok_bind]
    refine ⟨_, rfl, ?_⟩
    have hvi : ∀ k : Nat, k + 1 < v.numBins → v.thresholds[k]? = some (thresholds[k]?) := by
      intro k hk
      have hti : k < thresholds.length := by omega
      have h5 := congrArg (fun m => m[k]?) hd.thresholds
      simp only [List.getElem?_map] at h5
      rw [List.getElem?_take_of_lt hti, List.getElem?_eq_getElem hti] at h5
      rw [List.getElem?_eq_getElem hti]
      exact h5
    constructor
    · simp only
      rw [hK', List.length_append, hb1, hcnt]
      rfl
    · simp only
      rw [hK', List.flatMap_append, List.length_append, hn1, hnum]
      simp
    · intro a ha
      rw [h2] at ha
      cases ha
      simp only
      omega
    · simp only
      rw [hI.len]; exact h.lenI
    · simp only [List.length_set]
      rw [hP1]; exact h.lenP
    · simp only
      rw [hTl]; exact h.lenT
    · simp only
      rw [hw1, hK', List.flatMap_append]
      simp
    · intro k hk
      simp only at hk ⊢
      rw [hK']
      by_cases hk2 : k = s1.numFilteredBins
      · rw [List.getElem?_set, if_pos hk2.symm, if_pos hwP, List.take_append_of_le_length (by omega), List.take_of_length_le (by omega), hnum]
      · rw [List.getElem?_set, if_neg (fun e => hk2 e.symm), hP1, List.take_append_of_le_length (by omega)]
        exact h.indptr k (by omega)
    · intro k p hk hp
      simp only
      rw [hK'] at hk
      by_cases hk2 : k < (kept covered (bins.take i)).length
      · rw [List.getElem?_append_left hk2] at hk
        have h6 := h.thresholds k p hk hp
        by_cases hlt : i + 1 < v.numBins
        · rw [hTa hlt, List.getElem?_set, if_neg (by omega)]
          exact h6
        · rw [hTb hlt]
          exact h6
      · rw [List.getElem?_append_right (by omega)] at hk
        have hk3 := (List.getElem?_eq_some_iff.1 hk).1
        have hk4 : k = s.numFilteredBins := by simp at hk3; omega
        rw [hk4, hcnt, Nat.sub_self] at hk
        cases hk
        rw [hTa hp, hk4, List.getElem?_set, if_pos rfl, if_pos (by rw [h.lenT]; have := ht.lenT; omega)]
        exact (hvi i hp).symm
    · simp only
      rw [hS1, h.sparse, hb1]
      split <;> split <;> split <;> omega
    · intro k hk
      unfold MaskState.source
      cases hip : inPlace
      · rfl
      · simp only [if_true]
        rw [List.getElem?_set, if_neg (by omega)]
        have h7 := h.keepP k (by omega)
        rw [← hsP] at h7
        unfold MaskState.source at h7
        rw [hip, if_pos rfl] at h7
        exact h7
    · intro a ha p hp
      have h7 := hkeepI a ha p hp
      unfold MaskState.source at h7 ⊢
      cases hip : inPlace
      · rfl
      · rw [hip, if_pos rfl] at h7
        rw [if_pos rfl]
        exact h7
    · intro k hk
      have h7 := h.keepT k (by omega)
      rw [← hsT] at h7
      unfold MaskState.source at h7 ⊢
      cases hip : inPlace
      · rfl
      · rw [hip, if_pos rfl, hT1] at h7
        rw [if_pos rfl]
        simp only
        by_cases hlt : i + 1 < v.numBins
        · rw [hTa hlt, List.getElem?_set, if_neg (by omega)]
          exact h7
        · rw [hTb hlt]
          exact h7

theorem indptr_mono {bins : List (List Nat)} {thresholds : List Rat} (hd : Search.Decoded v bins thresholds) {N : Nat}
    (hN : v.indptr[bins.length]? = some (some N)) : ∀ (d b : Nat), b + d = bins.length → ∀ a, v.indptr[b]? = some (some a) → a ≤ N
  | 0, b, hb, a, ha => by
    rw [show b = bins.length by omega, hN] at ha
    cases ha
    exact Nat.le_refl _
  | d + 1, b, hb, a, ha => by
    have hlt : b < bins.length := by omega
    obtain ⟨first, last, h1, h2, h3, _⟩ := hd.stored b _ (List.getElem?_eq_getElem hlt)
    rw [h1] at ha
    cases ha
    have := indptr_mono hd hN d (b + 1) (by omega) last h2
    omega

theorem target_inPlace {bins : List (List Nat)} {thresholds : List Rat} (hd : Search.Decoded v bins thresholds) : Target v bins v := by
  have hnt := hd.numThresholds
  constructor
  · intro b hb last hlast
    obtain ⟨first, last', h1, h2, h3, h4⟩ := hd.stored b _ (List.getElem?_eq_getElem hb)
    rw [h2] at hlast
    cases hlast
    by_cases he : bins[b] = []
    · right; rw [List.getElem?_eq_getElem hb, he]
    · left
      have hpos := List.length_pos_of_ne_nil he
      have h5 := congrArg List.length h4
      rw [List.length_take, List.length_drop, List.length_map] at h5
      omega
  · obtain ⟨first, last, h1, h2, _⟩ := hd.stored (bins.length - 1) _ (List.getElem?_eq_getElem (by omega))
    have := (List.getElem?_eq_some_iff.1 h2).1
    omega
  · have := congrArg List.length hd.thresholds
    rw [List.length_take, List.length_map] at this
    omega

theorem target_spec {bins : List (List Nat)} {thresholds : List Rat} (hd : Search.Decoded v bins thresholds) (inPlace : Bool) :
    ∃ target, maskTarget v inPlace = .ok target ∧ Target v bins target ∧ Outer v inPlace covered bins target 0 ⟨target, 0, 0⟩ := by
  have hnt := hd.numThresholds
  unfold maskTarget
  cases inPlace with
  | true =>
    refine ⟨v, rfl, target_inPlace hd, ?_⟩
    constructor <;> simp [kept, MaskState.source]
  | false =>
    obtain ⟨first, N, h1, h2, _⟩ := hd.stored (bins.length - 1) _ (List.getElem?_eq_getElem (by omega))
    rw [show bins.length - 1 + 1 = bins.length by omega] at h2
    rw [if_neg (by simp), readAt_of_getElem? (by rw [← hd.numBins]; exact h2), ok_bind]
    simp only [useInit, ok_bind]
    unfold BinnedVector.init
    rw [writeAt_of_lt (by simp), ok_bind, writeAt_of_lt (by simp), ok_bind]
    refine ⟨_, rfl, ?_, ?_⟩
    · constructor
      · intro b hb last hlast
        left
        simpa using indptr_mono hd h2 (bins.length - (b + 1)) (b + 1) (by omega) last hlast
      · simp [hd.numBins]
      · simp [hd.numBins]
        omega
    · constructor <;> simp [kept, MaskState.source]

theorem realloc_of_le {α : Type} {l : List (Option α)} {n : Nat} (h : n ≤ l.length) : realloc l n = l.take n := by
  unfold realloc
  rw [show n - l.length = 0 by omega]
  simp

/-- What results from filtering. -/
theorem filterMask_spec {bins : List (List Nat)} {thresholds : List Rat} (hd : Search.Decoded v bins thresholds)
    (hsize : Small v) (inPlace : Bool) (covered : Nat → Bool) :
    (kept covered bins = [] → filterMask v inPlace covered = .ok none) ∧
    (kept covered bins ≠ [] → ∃ v' bins' thresholds', filterMask v inPlace covered = .ok (some v') ∧ Search.Decoded v' bins' thresholds' ∧
      Masked covered bins thresholds bins' thresholds' ∧ v'.sparseBinIndex = bins'.length - 1 ∧ Small v') := by
  obtain ⟨target, ht1, ht2, ht3⟩ := target_spec (covered := covered) hd inPlace
  obtain ⟨s, hs, h⟩ := loop_rule (body := maskBin v inPlace covered) (P := Outer v inPlace covered bins target) bins.length _ ht3
    (fun i s hi h => maskBin_spec hd ht2 hsize hi h)
  unfold filterMask
  rw [ht1, ok_bind, ← hd.numBins, hs, ok_bind]
  have hcount := h.count
  have hnum := h.num
  have hI := h.indices
  have hP := h.indptr
  have hT := h.thresholds
  have hS := h.sparse
  have hlP := h.lenP
  have hlT := h.lenT
  rw [List.take_length] at hcount hnum hI hP hT
  have hsorted := kept_sorted covered bins
  have hmem : ∀ p ∈ kept covered bins, p.1 < bins.length ∧ p.2 ≠ [] := by
    intro p hp
    obtain ⟨l, h1, _, h3⟩ := mem_kept.1 hp
    exact ⟨(List.getElem?_eq_some_iff.1 h1).1, h3⟩
  have hKl : (kept covered bins).length ≤ bins.length := by
    have := kept_take_length covered bins bins.length
    rwa [List.take_length] at this
  generalize hKe : kept covered bins = K at *
  constructor
  · intro hK
    subst hK
    rw [show decide (s.numFilteredIndices > 0) = false by simp [hnum]]
  · intro hK
    have hlen : 0 < K.length := List.length_pos_of_ne_nil hK
    have hpos : 0 < s.numFilteredIndices := by
      rw [hnum]
      cases K with
      | nil => exact absurd rfl hK
      | cons p K =>
        have := List.length_pos_of_ne_nil (hmem p (by simp)).2
        simp
        omega
    rw [show decide (s.numFilteredIndices > 0) = true by simp [hpos]]
    simp only
    unfold BinnedVector.resize
    have htP := ht2.lenP
    have htT := ht2.lenT
    have hnt := hd.numThresholds
    have hrP : realloc s.filtered.indptr (s.numFilteredBins + 1) = s.filtered.indptr.take (s.numFilteredBins + 1) := realloc_of_le (by omega)
    have hrT : realloc s.filtered.thresholds (s.numFilteredBins - 1) = s.filtered.thresholds.take (s.numFilteredBins - 1) := realloc_of_le (by omega)
    have hIlen : s.numFilteredIndices ≤ s.filtered.indices.length := by
      have := congrArg List.length hI
      rw [List.length_take, List.length_map] at this
      omega
    have hrI : realloc s.filtered.indices s.numFilteredIndices = (K.flatMap Prod.snd).map some := by rw [realloc_of_le hIlen, hI]
    have hPl : (s.filtered.indptr.take (s.numFilteredBins + 1)).length = s.numFilteredBins + 1 := by rw [List.length_take]; omega
    rw [hrP, hrT, hrI, writeAt_of_lt (by rw [hPl]; omega), ok_bind]
    have hstep : ∀ (k : Nat) (p : Nat × List Nat), K[k]? = some p → k + 1 < K.length → p.1 + 1 < bins.length := by
      intro k p hk hk1
      obtain ⟨hk2, rfl⟩ := List.getElem?_eq_some_iff.1 hk
      have h1 := List.pairwise_iff_getElem.1 hsorted k (k + 1) hk2 hk1 (by omega)
      have h2 := (hmem _ (List.getElem_mem hk1)).1
      omega
    have hvi : ∀ k : Nat, k + 1 < bins.length → ∃ t, v.thresholds[k]? = some (some t) ∧ thresholds[k]? = some t := by
      intro k hk
      have hti : k < thresholds.length := by omega
      have h5 := congrArg (fun m => m[k]?) hd.thresholds
      simp only [List.getElem?_map] at h5
      rw [List.getElem?_take_of_lt hti, List.getElem?_eq_getElem hti] at h5
      exact ⟨_, h5, List.getElem?_eq_getElem hti⟩
    obtain ⟨ths, hths1, hths2⟩ := exists_list (K.length - 1) (fun k t => s.filtered.thresholds[k]? = some (some t) ∧ ∀ p, K[k]? = some p → thresholds[p.1]? = some t) (by
      intro k hk
      have hkl : k < K.length := by omega
      have hk' := List.getElem?_eq_getElem hkl
      have h1 := hstep k _ hk' (by omega)
      obtain ⟨t, h2, h3⟩ := hvi _ h1
      refine ⟨t, ?_, ?_⟩
      · rw [hT k _ hk' (by rw [← hd.numBins]; exact h1), h2]
      · intro p hp
        rw [hk'] at hp
        cases hp
        exact h3)
    refine ⟨_, K.map Prod.snd, ths, rfl, ?_, ?_, ?_, ?_⟩
    · refine ⟨?_, ?_, ?_, ?_⟩
      · simp [hcount]
      · rw [List.length_map]; omega
      · show (s.filtered.thresholds.take _).take _ = _
        rw [List.take_take, Nat.min_eq_left (by omega)]
        apply List.ext_getElem?
        intro k
        by_cases hk : k < ths.length
        · rw [List.getElem?_take_of_lt hk, List.getElem?_map, List.getElem?_eq_getElem hk]
          exact (hths2 k _ (List.getElem?_eq_getElem hk)).1
        · rw [List.getElem?_eq_none (by rw [List.length_take]; omega), List.getElem?_eq_none (by rw [List.length_map]; omega)]
      · intro b l hb
        rw [List.getElem?_map, Option.map_eq_some_iff] at hb
        obtain ⟨p, hp, rfl⟩ := hb
        have hbl := (List.getElem?_eq_some_iff.1 hp).1
        have hsplit : K = K.take b ++ p :: K.drop (b + 1) := by
          obtain ⟨_, rfl⟩ := List.getElem?_eq_some_iff.1 hp
          rw [List.cons_getElem_drop_succ, List.take_append_drop]
        refine ⟨((K.take b).flatMap Prod.snd).length, ((K.take (b + 1)).flatMap Prod.snd).length, ?_, ?_, ?_, ?_⟩
        · show ((s.filtered.indptr.take _).set _ _)[b]? = _
          rw [List.getElem?_set, if_neg (by omega), List.getElem?_take_of_lt (by omega)]
          exact hP b (by omega)
        · show ((s.filtered.indptr.take _).set _ _)[b + 1]? = _
          by_cases hb1 : b + 1 = s.numFilteredBins
          · rw [List.getElem?_set, if_pos hb1.symm, if_pos (by omega), hnum, List.take_of_length_le (by omega)]
          · rw [List.getElem?_set, if_neg (fun e => hb1 e.symm), List.getElem?_take_of_lt (by omega)]
            exact hP (b + 1) (by omega)
        · rw [List.take_add_one, hp, List.flatMap_append, List.length_append]
          simp
        · show (((K.flatMap Prod.snd).map some).drop _).take _ = _
          rw [← List.map_drop, ← List.map_take]
          congr 1
          have hlb : ((K.take (b + 1)).flatMap Prod.snd).length - ((K.take b).flatMap Prod.snd).length = p.2.length := by
            rw [List.take_add_one, hp, List.flatMap_append, List.length_append]
            simp
          rw [hlb]
          have hF : K.flatMap Prod.snd = (K.take b).flatMap Prod.snd ++ (p.2 ++ (K.drop (b + 1)).flatMap Prod.snd) := by
            conv_lhs => rw [hsplit]
            rw [List.flatMap_append, List.flatMap_cons]
          rw [hF, List.drop_left, List.take_left]
    · refine ⟨by rw [hKe], by rw [List.length_map]; omega, ?_⟩
      intro k p hk hk1
      rw [hKe] at hk
      rw [List.length_map] at hk1
      have hkt : k < ths.length := by omega
      rw [(hths2 k _ (List.getElem?_eq_getElem hkt)).2 p hk, List.getElem?_eq_getElem hkt]
    · show (if s.filtered.sparseBinIndex ≥ s.numFilteredBins then s.numFilteredBins - 1 else s.filtered.sparseBinIndex) = _
      rw [hS, List.length_map, ← hcount]
      split <;> split <;> omega
    · obtain ⟨first, N, _, h2, _⟩ := hd.stored (bins.length - 1) _ (List.getElem?_eq_getElem (by omega))
      rw [show bins.length - 1 + 1 = bins.length by omega] at h2
      have hN := hsize _ _ (by rw [hd.numBins]) h2
      have hle := h.le N h2
      intro b a hb ha
      replace hb : b ≤ s.numFilteredBins := hb
      replace ha : ((s.filtered.indptr.take (s.numFilteredBins + 1)).set s.numFilteredBins (some s.numFilteredIndices))[b]? = some (some a) := ha
      rw [List.getElem?_set] at ha
      by_cases hb1 : s.numFilteredBins = b
      · rw [if_pos hb1, if_pos (by omega)] at ha
        cases ha
        omega
      · rw [if_neg hb1, List.getElem?_take_of_lt (by omega), hP b (by omega)] at ha
        have ha' := Option.some.inj (Option.some.inj ha)
        have hsub : ((K.take b).flatMap Prod.snd).length ≤ (K.flatMap Prod.snd).length := by
          conv_rhs => rw [← List.take_append_drop b K, List.flatMap_append, List.length_append]
          omega
        omega

end MLRL.BinnedFilter
