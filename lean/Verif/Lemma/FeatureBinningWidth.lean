import Verif.Lemma.FeatureBinning

/-!
# Lemmas about equal-width binning
-/

set_option linter.unusedSectionVars false

namespace MLRL.FeatureBinning

open Spec

/-! ### Minimum and maximum -/

theorem minMax_fold (entries : List Entry) : ∀ (m : ℚ × ℚ), m.1 ≤ m.2 →
    (entries.foldl minMaxStep m).1 ≤ m.1 ∧ m.2 ≤ (entries.foldl minMaxStep m).2 ∧
      (∀ e ∈ entries, (entries.foldl minMaxStep m).1 ≤ e.value ∧ e.value ≤ (entries.foldl minMaxStep m).2) ∧
      ((entries.foldl minMaxStep m).1 = m.1 ∨ ∃ e ∈ entries, e.value = (entries.foldl minMaxStep m).1) ∧
      ((entries.foldl minMaxStep m).2 = m.2 ∨ ∃ e ∈ entries, e.value = (entries.foldl minMaxStep m).2) := by
  induction entries with
  | nil => intro m _; exact ⟨le_refl _, le_refl _, by simp, Or.inl rfl, Or.inl rfl⟩
  | cons e entries ih =>
    intro m hm
    simp only [List.foldl_cons]
    have hstep : (minMaxStep m e).1 ≤ (minMaxStep m e).2 ∧ (minMaxStep m e).1 ≤ m.1 ∧ m.2 ≤ (minMaxStep m e).2 ∧ (minMaxStep m e).1 ≤ e.value ∧
        e.value ≤ (minMaxStep m e).2 ∧ ((minMaxStep m e).1 = m.1 ∨ e.value = (minMaxStep m e).1) ∧ ((minMaxStep m e).2 = m.2 ∨ e.value = (minMaxStep m e).2) := by
      unfold minMaxStep
      split_ifs with h1 h2
      · exact ⟨by show e.value ≤ m.2; linarith, le_of_lt h1, le_refl _, le_refl _, by show e.value ≤ m.2; linarith, Or.inr rfl, Or.inl rfl⟩
      · exact ⟨by show m.1 ≤ e.value; linarith, le_refl _, le_of_lt h2, by show m.1 ≤ e.value; linarith, le_refl _, Or.inl rfl, Or.inr rfl⟩
      · exact ⟨hm, le_refl _, le_refl _, not_lt.mp h1, not_lt.mp h2, Or.inl rfl, Or.inl rfl⟩
    obtain ⟨g0, g1, g2, g3, g4, g5, g6⟩ := hstep
    obtain ⟨h1, h2, h3, h4, h5⟩ := ih (minMaxStep m e) g0
    refine ⟨le_trans h1 g1, le_trans g2 h2, ?_, ?_, ?_⟩
    · intro x hx
      simp only [List.mem_cons] at hx
      rcases hx with rfl | hx
      · exact ⟨le_trans h1 g3, le_trans g4 h2⟩
      · exact h3 x hx
    · rcases h4 with h4 | ⟨x, hx, h4⟩
      · rcases g5 with g5 | g5
        · exact Or.inl (h4.trans g5)
        · exact Or.inr ⟨e, by simp, g5.trans h4.symm⟩
      · exact Or.inr ⟨x, by simp [hx], h4⟩
    · rcases h5 with h5 | ⟨x, hx, h5⟩
      · rcases g6 with g6 | g6
        · exact Or.inl (h5.trans g6)
        · exact Or.inr ⟨e, by simp, g6.trans h5.symm⟩
      · exact Or.inr ⟨x, by simp [hx], h5⟩

/-- What `getMinAndMaxFeatureValue` returns. -/
theorem getMinAndMax_spec {sparse : Bool} {sparseValue : ℚ} {entries : List Entry} {m : ℚ × ℚ} (h : getMinAndMaxFeatureValue sparse sparseValue entries = .ok m) :
    m.1 ≤ m.2 ∧ (∀ e ∈ entries, m.1 ≤ e.value ∧ e.value ≤ m.2) ∧ (sparse = true → m.1 ≤ sparseValue ∧ sparseValue ≤ m.2) ∧
      (sparse = true ∧ m.1 = sparseValue ∨ ∃ e ∈ entries, e.value = m.1) ∧ (sparse = true ∧ m.2 = sparseValue ∨ ∃ e ∈ entries, e.value = m.2) := by
  unfold getMinAndMaxFeatureValue at h
  cases sparse with
  | true =>
    simp only [if_true] at h
    cases h
    obtain ⟨h1, h2, h3, h4, h5⟩ := minMax_fold entries (sparseValue, sparseValue) (le_refl _)
    refine ⟨le_trans h1 h2, h3, fun _ => ⟨h1, h2⟩, ?_, ?_⟩
    · rcases h4 with h4 | h4
      · exact Or.inl ⟨rfl, h4⟩
      · exact Or.inr h4
    · rcases h5 with h5 | h5
      · exact Or.inl ⟨rfl, h5⟩
      · exact Or.inr h5
  | false =>
    simp only [Bool.false_eq_true, if_false] at h
    cases entries with
    | nil => cases h
    | cons e entries =>
      cases h
      obtain ⟨h1, h2, h3, h4, h5⟩ := minMax_fold entries (e.value, e.value) (le_refl _)
      refine ⟨le_trans h1 h2, ?_, by simp, ?_, ?_⟩
      · intro x hx
        simp only [List.mem_cons] at hx
        rcases hx with rfl | hx
        · exact ⟨h1, h2⟩
        · exact h3 x hx
      · right
        rcases h4 with h4 | ⟨x, hx, h4⟩
        · exact ⟨e, by simp, h4.symm⟩
        · exact ⟨x, by simp [hx], h4⟩
      · right
        rcases h5 with h5 | ⟨x, hx, h5⟩
        · exact ⟨e, by simp, h5.symm⟩
        · exact ⟨x, by simp [hx], h5⟩

/-! ### Bins -/

section

variable (bin : Entry → Nat) (sb N : Nat) (entries : List Entry)

/-- The number of examples that are stored for a bin. -/
def tot (l : List Entry) (j : Nat) : Nat := (l.filter (fun e => decide (bin e ≠ sb ∧ bin e = j))).length

/-- The number of examples that are stored for preceding bins. -/
def off (j : Nat) : Nat := (entries.filter (fun e => decide (bin e ≠ sb ∧ bin e < j))).length

/-- Whether a bin is kept. -/
def occupied (j : Nat) : Bool := decide (j = sb ∨ 0 < tot bin sb entries j)

/-- The bins that are kept. -/
def occ (i : Nat) : List Nat := (List.range i).filter (occupied bin sb entries)

variable {bin sb N entries}

theorem tot_append (l l' : List Entry) (j : Nat) : tot bin sb (l ++ l') j = tot bin sb l j + tot bin sb l' j := by simp [tot]

theorem tot_cons (e : Entry) (l : List Entry) (j : Nat) : tot bin sb (e :: l) j = (if bin e ≠ sb ∧ bin e = j then 1 else 0) + tot bin sb l j := by
  unfold tot
  rw [List.filter_cons]
  split_ifs with h1 h2 h2
  · simp; omega
  · simp at h1; tauto
  · simp at h1; tauto
  · simp

theorem off_succ (j : Nat) : off bin sb entries (j + 1) = off bin sb entries j + tot bin sb entries j := by
  unfold off tot
  induction entries with
  | nil => rfl
  | cons e l ih =>
    simp only [List.filter_cons, decide_eq_true_eq]
    by_cases h0 : bin e = sb
    · simp only [h0, ne_eq, not_true_eq_false, false_and, if_false]
      rw [← h0]; rw [← h0] at ih; exact ih
    · rcases Nat.lt_trichotomy (bin e) j with h | h | h
      · rw [if_pos ⟨h0, by omega⟩, if_pos ⟨h0, h⟩, if_neg (by omega), List.length_cons, List.length_cons]; omega
      · rw [if_pos ⟨h0, by omega⟩, if_neg (by omega), if_pos ⟨h0, h⟩, List.length_cons, List.length_cons]; omega
      · rw [if_neg (by omega), if_neg (by omega), if_neg (by omega)]; exact ih

theorem off_mono {i j : Nat} (h : i ≤ j) : off bin sb entries i ≤ off bin sb entries j := by
  induction j with
  | zero => rw [Nat.le_zero.mp h]
  | succ j ih =>
    rcases Nat.lt_or_eq_of_le h with h | h
    · exact Nat.le_trans (ih (by omega)) (by rw [off_succ]; omega)
    · rw [h]

theorem off_le (j : Nat) : off bin sb entries j ≤ entries.length := List.length_filter_le _ _

theorem off_zero : off bin sb entries 0 = 0 := by simp [off]

theorem tot_sb (l : List Entry) : tot bin sb l sb = 0 := by
  unfold tot
  rw [List.length_eq_zero_iff, List.filter_eq_nil_iff]
  intro e _
  simp

theorem occ_succ (i : Nat) : occ bin sb entries (i + 1) = occ bin sb entries i ++ (if occupied bin sb entries i then [i] else []) := by
  unfold occ
  rw [List.range_succ, List.filter_append]
  congr 1
  by_cases h : occupied bin sb entries i <;> simp [h]

theorem occ_mem {i j : Nat} : j ∈ occ bin sb entries i ↔ j < i ∧ occupied bin sb entries j = true := by simp [occ]

theorem occ_length_le (i : Nat) : (occ bin sb entries i).length ≤ i := by
  have := List.length_filter_le (occupied bin sb entries) (List.range i)
  rwa [List.length_range] at this

/-- There are as many bins as widths only if all of them are kept. -/
theorem occ_full {i : Nat} (h : (occ bin sb entries i).length = i) : ∀ j, j < i → occupied bin sb entries j = true := by
  unfold occ at h
  have := List.length_filter_eq_length_iff.mp (h.trans List.length_range.symm)
  intro j hj
  exact this j (by simp [hj])

theorem occ_prefix {i j : Nat} (h : i ≤ j) : ∃ l, occ bin sb entries j = occ bin sb entries i ++ l := by
  induction j with
  | zero => exact ⟨[], by rw [Nat.le_zero.mp h]; simp⟩
  | succ j ih =>
    rcases Nat.lt_or_eq_of_le h with h | h
    · obtain ⟨l, hl⟩ := ih (by omega)
      exact ⟨l ++ (if occupied bin sb entries j then [j] else []), by rw [occ_succ, hl, List.append_assoc]⟩
    · exact ⟨[], by rw [h]; simp⟩

/-- The position of a bin that is kept. -/
theorem occ_rank {i j : Nat} (h : i < j) (ho : occupied bin sb entries i = true) : (occ bin sb entries j)[(occ bin sb entries i).length]? = some i := by
  obtain ⟨l, hl⟩ := occ_prefix (bin := bin) (sb := sb) (entries := entries) (show i + 1 ≤ j from h)
  rw [hl, occ_succ, if_pos ho, List.append_assoc, List.getElem?_append_right (Nat.le_refl _)]
  simp

theorem occ_sorted (i : Nat) : (occ bin sb entries i).Pairwise (· < ·) := List.Pairwise.filter _ List.pairwise_lt_range

theorem occ_rank_eq {k i : Nat} (h : (occ bin sb entries N)[k]? = some i) : (occ bin sb entries i).length = k ∧ i < N ∧ occupied bin sb entries i = true := by
  obtain ⟨hk, hki⟩ := List.getElem?_eq_some_iff.mp h
  have hm := occ_mem.mp (List.mem_of_getElem? h)
  refine ⟨?_, hm⟩
  have h2 := occ_rank (bin := bin) (sb := sb) (entries := entries) hm.1 hm.2
  obtain ⟨hk', hki'⟩ := List.getElem?_eq_some_iff.mp h2
  have hs := List.pairwise_iff_getElem.mp (occ_sorted (bin := bin) (sb := sb) (entries := entries) N)
  rcases Nat.lt_trichotomy (occ bin sb entries i).length k with h3 | h3 | h3
  · have := hs _ _ hk' hk h3
    omega
  · exact h3
  · have := hs _ _ hk hk' h3
    omega

/-- Between two bins that are kept, there are no examples. -/
theorem off_gap {k i i' : Nat} (h : (occ bin sb entries N)[k]? = some i) (h' : (occ bin sb entries N)[k + 1]? = some i') :
    off bin sb entries i' = off bin sb entries (i + 1) ∧ i < i' := by
  obtain ⟨hk, hki⟩ := List.getElem?_eq_some_iff.mp h
  obtain ⟨hk', hki'⟩ := List.getElem?_eq_some_iff.mp h'
  have hlt : i < i' := by
    rw [← hki, ← hki']
    exact List.pairwise_iff_getElem.mp (occ_sorted N) k (k + 1) hk hk' (Nat.lt_succ_self k)
  refine ⟨?_, hlt⟩
  have hgap : ∀ j, i < j → j < i' → occupied bin sb entries j = false := by
    intro j h1 h2
    by_contra hc
    have hc' : occupied bin sb entries j = true := by simpa using hc
    have hjN : j < N := by have := (occ_rank_eq h').2.1; omega
    have hr := occ_rank (bin := bin) (sb := sb) (entries := entries) hjN hc'
    obtain ⟨hr1, hr2⟩ := List.getElem?_eq_some_iff.mp hr
    generalize (occ bin sb entries j).length = r at *
    have hs := List.pairwise_iff_getElem.mp (occ_sorted (bin := bin) (sb := sb) (entries := entries) N)
    rcases Nat.lt_trichotomy r k with h3 | h3 | h3
    · have := hs r k hr1 hk h3
      omega
    · subst h3; omega
    · rcases Nat.lt_or_eq_of_le (show k + 1 ≤ r from h3) with h4 | h4
      · have := hs (k + 1) r hk' hr1 h4
        omega
      · subst h4; omega
  have : ∀ d, i + 1 + d ≤ i' → off bin sb entries (i + 1 + d) = off bin sb entries (i + 1) := by
    intro d
    induction d with
    | zero => intro _; rfl
    | succ d ih =>
      intro hd
      rw [← Nat.add_assoc, off_succ, ih (by omega)]
      have h1 := hgap (i + 1 + d) (by omega) (by omega)
      unfold occupied at h1
      simp only [decide_eq_false_iff_not, not_or, not_lt] at h1
      omega
  have h2 := this (i' - (i + 1)) (by omega)
  rwa [show i + 1 + (i' - (i + 1)) = i' by omega] at h2

/-- After the last bin, there are no examples. -/
theorem off_last {k i : Nat} (h : (occ bin sb entries N)[k]? = some i) (hlast : (occ bin sb entries N).length = k + 1) :
    off bin sb entries N = off bin sb entries (i + 1) := by
  obtain ⟨hk, hki⟩ := List.getElem?_eq_some_iff.mp h
  have hiN := (occ_rank_eq h).2.1
  have hgap : ∀ j, i < j → j < N → occupied bin sb entries j = false := by
    intro j h1 h2
    by_contra hc
    have hc' : occupied bin sb entries j = true := by simpa using hc
    have hr := occ_rank (bin := bin) (sb := sb) (entries := entries) h2 hc'
    obtain ⟨hr1, hr2⟩ := List.getElem?_eq_some_iff.mp hr
    generalize (occ bin sb entries j).length = r at *
    have hs := List.pairwise_iff_getElem.mp (occ_sorted (bin := bin) (sb := sb) (entries := entries) N)
    rcases Nat.lt_or_eq_of_le (show r ≤ k by omega) with h3 | h3
    · have := hs r k hr1 hk h3
      omega
    · subst h3; omega
  have : ∀ d, i + 1 + d ≤ N → off bin sb entries (i + 1 + d) = off bin sb entries (i + 1) := by
    intro d
    induction d with
    | zero => intro _; rfl
    | succ d ih =>
      intro hd
      rw [← Nat.add_assoc, off_succ, ih (by omega)]
      have h1 := hgap (i + 1 + d) (by omega) (by omega)
      unfold occupied at h1
      simp only [decide_eq_false_iff_not, not_or, not_lt] at h1
      omega
  have h2 := this (N - (i + 1)) (by omega)
  rwa [show i + 1 + (N - (i + 1)) = N by omega] at h2

/-! ### Loops -/

variable {min width : ℚ}

theorem count_spec (hbin : ∀ e ∈ entries, getBinIndex e.value min width N = .ok (bin e) ∧ bin e < N) (post : List Entry) : ∀ (pre : List Entry) (c : List Nat),
    entries = pre ++ post → c.length = N → (∀ (j : Nat), j < N → c[j]? = some (tot bin sb pre j)) →
    ∃ c', post.foldlM (countStep min width N sb) c = .ok c' ∧ c'.length = N ∧ ∀ (j : Nat), j < N → c'[j]? = some (tot bin sb entries j) := by
  induction post with
  | nil =>
    intro pre c he hl hc
    exact ⟨c, rfl, hl, by rw [he, List.append_nil]; exact hc⟩
  | cons e post ih =>
    intro pre c he hl hc
    obtain ⟨h1, h2⟩ := hbin e (by rw [he]; simp)
    have hstep : ∃ c', countStep min width N sb c e = .ok c' ∧ c'.length = N ∧ ∀ (j : Nat), j < N → c'[j]? = some (tot bin sb (pre ++ [e]) j) := by
      unfold countStep
      rw [h1, ok_bind]
      by_cases hsb : bin e = sb
      · rw [decide_eq_true hsb]
        refine ⟨c, rfl, hl, ?_⟩
        intro j hj
        rw [hc j hj, tot_append, tot_cons, if_neg (by tauto)]
        simp [tot]
      · rw [decide_eq_false hsb]
        simp only
        rw [readAt_of_getElem? (hc (bin e) h2), ok_bind, writeAt_of_lt (by rw [hl]; exact h2)]
        refine ⟨_, rfl, by rw [List.length_set]; exact hl, ?_⟩
        intro j hj
        rw [List.getElem?_set, tot_append, tot_cons]
        by_cases hj2 : bin e = j
        · subst hj2
          rw [if_pos rfl, if_pos (by rw [hl]; exact h2), if_pos ⟨hsb, rfl⟩]
          simp [tot]
        · rw [if_neg hj2, hc j hj, if_neg (by tauto)]
          simp [tot]
    obtain ⟨c', g1, g2, g3⟩ := hstep
    rw [List.foldlM_cons, g1, ok_bind]
    exact ih (pre ++ [e]) c' (by rw [he]; simp) g2 g3

/-- The state while bins are mapped. -/
structure MInv (bin : Entry → Nat) (sb N : Nat) (entries : List Entry) (min width : ℚ) (i : Nat) (s : WidthState) : Prop where
  lenT : s.thresholds.length = N - 1
  lenP : s.indptr.length = N + 1
  lenM : s.mapping.length = N
  bins : s.numBins = (occ bin sb entries i).length
  thr : ∀ (k : Nat), k < s.numBins → s.thresholds[k]? = some (some (min + ((k : ℚ) + 1) * width))
  ptr : ∀ (k j : Nat), (occ bin sb entries i)[k]? = some j → s.indptr[k]? = some (some (off bin sb entries j))
  map : ∀ (j : Nat), j < i → occupied bin sb entries j = true → s.mapping[j]? = some (some (occ bin sb entries j).length)
  num : s.numIndices = off bin sb entries i
  sparse : s.sparseBinIndex = if sb < i then (occ bin sb entries sb).length else sb

theorem map_step {counts : List Nat} (hc : ∀ (j : Nat), j < N → counts[j]? = some (tot bin sb entries j)) {i : Nat} {s : WidthState} (hi : i < N)
    (h : MInv bin sb N entries min width i s) (hnot : (occ bin sb entries N).length < N) :
    ∃ s', mapStep min width sb counts i s = .ok s' ∧ MInv bin sb N entries min width (i + 1) s' := by
  unfold mapStep
  rw [readAt_of_getElem? (hc i hi), ok_bind]
  by_cases ho : occupied bin sb entries i = true
  · have ho' : (i = sb ∨ tot bin sb entries i > 0) := by
      unfold occupied at ho
      exact of_decide_eq_true ho
    have hocc : occ bin sb entries (i + 1) = occ bin sb entries i ++ [i] := by rw [occ_succ, if_pos ho]
    have hlt : s.numBins < N - 1 := by
      rw [h.bins]
      obtain ⟨l, hl⟩ := occ_prefix (bin := bin) (sb := sb) (entries := entries) (show i + 1 ≤ N from hi)
      rw [hl, hocc, List.length_append, List.length_append, List.length_singleton] at hnot
      omega
    rw [decide_eq_true ho']
    simp only
    rw [writeAt_of_lt (by rw [h.lenT]; exact hlt), ok_bind, writeAt_of_lt (by rw [h.lenP]; omega), ok_bind, writeAt_of_lt (by rw [h.lenM]; exact hi), ok_bind]
    refine ⟨_, rfl, ?_⟩
    constructor
    · show (s.thresholds.set _ _).length = _
      rw [List.length_set]; exact h.lenT
    · show (s.indptr.set _ _).length = _
      rw [List.length_set]; exact h.lenP
    · show (s.mapping.set _ _).length = _
      rw [List.length_set]; exact h.lenM
    · show s.numBins + 1 = _
      rw [hocc, List.length_append, h.bins]; rfl
    · intro k hk
      have hk' : k < s.numBins + 1 := hk
      show (s.thresholds.set _ _)[k]? = _
      rw [List.getElem?_set]
      by_cases hke : s.numBins = k
      · subst hke
        rw [if_pos rfl, if_pos (by rw [h.lenT]; exact hlt)]
      · rw [if_neg hke]
        exact h.thr k (by omega)
    · intro k j hkj
      show (s.indptr.set _ _)[k]? = _
      rw [hocc] at hkj
      rw [List.getElem?_set]
      by_cases hke : s.numBins = k
      · subst hke
        rw [if_pos rfl, if_pos (by rw [h.lenP]; omega), h.num]
        rw [h.bins, List.getElem?_append_right (Nat.le_refl _)] at hkj
        simp only [Nat.sub_self, List.getElem?_cons_zero, Option.some.injEq] at hkj
        rw [hkj]
      · rw [if_neg hke]
        have hkl : k < (occ bin sb entries i).length := by
          have := (List.getElem?_eq_some_iff.mp hkj).1
          rw [List.length_append, List.length_singleton] at this
          rw [h.bins] at hke
          omega
        rw [List.getElem?_append_left hkl] at hkj
        exact h.ptr k j hkj
    · intro j hj hoj
      show (s.mapping.set _ _)[j]? = _
      rw [List.getElem?_set]
      by_cases hje : i = j
      · subst hje
        rw [if_pos rfl, if_pos (by rw [h.lenM]; exact hi), h.bins]
      · rw [if_neg hje]
        exact h.map j (by omega) hoj
    · show (if i ≠ sb then s.numIndices + tot bin sb entries i else s.numIndices) = _
      rw [off_succ, h.num]
      by_cases he : i = sb
      · rw [if_neg (by simpa using he), he, tot_sb]; omega
      · rw [if_pos he]
    · show (if i ≠ sb then s.sparseBinIndex else s.numBins) = _
      by_cases he : i = sb
      · rw [if_neg (by simpa using he), if_pos (by omega), h.bins, he]
      · rw [if_pos he, h.sparse]
        by_cases h1 : sb < i
        · rw [if_pos h1, if_pos (by omega)]
        · rw [if_neg h1, if_neg (by omega)]
  · have ho' : ¬(i = sb ∨ tot bin sb entries i > 0) := by
      unfold occupied at ho
      simpa using ho
    have hocc : occ bin sb entries (i + 1) = occ bin sb entries i := by rw [occ_succ, if_neg ho, List.append_nil]
    rw [decide_eq_false ho']
    simp only
    rw [writeAt_of_lt (by rw [h.lenM]; exact hi), ok_bind]
    refine ⟨_, rfl, ⟨h.lenT, h.lenP, ?_, by rw [hocc]; exact h.bins, h.thr, by rw [hocc]; exact h.ptr, ?_, ?_, ?_⟩⟩
    · show (s.mapping.set _ _).length = _
      rw [List.length_set]; exact h.lenM
    · intro j hj hoj
      show (s.mapping.set _ _)[j]? = _
      rw [List.getElem?_set]
      by_cases hje : i = j
      · subst hje
        exact absurd hoj ho
      · rw [if_neg hje]
        exact h.map j (by omega) hoj
    · show s.numIndices = _
      rw [off_succ, h.num]
      omega
    · show s.sparseBinIndex = _
      rw [h.sparse]
      by_cases h1 : sb < i
      · rw [if_pos h1, if_pos (by omega)]
      · rw [if_neg h1, if_neg (by omega)]

/-- If all bins are kept, the last threshold does not fit into the array. -/
theorem map_fault {counts : List Nat} (hc : ∀ (j : Nat), j < N → counts[j]? = some (tot bin sb entries j)) {s : WidthState} (hN : 1 ≤ N)
    (hT : s.thresholds.length = N - 1) (hP : s.indptr.length = N + 1) (hM : s.mapping.length = N) (h0 : s.numBins = 0)
    (hall : ∀ j, j < N → occupied bin sb entries j = true) : loop N (mapStep min width sb counts) s = .error .outOfBounds := by
  have key : ∀ (k i : Nat) (s : WidthState), i + k = N → 1 ≤ k → s.thresholds.length = N - 1 → s.indptr.length = N + 1 → s.mapping.length = N → s.numBins = i →
      loopFrom (mapStep min width sb counts) i k s = .error .outOfBounds := by
    intro k
    induction k with
    | zero => intro i s _ h; omega
    | succ k ih =>
      intro i s hik _ hT hP hM hb
      rw [loopFrom_succ]
      have ho := hall i (by omega)
      have ho' : (i = sb ∨ tot bin sb entries i > 0) := by
        unfold occupied at ho
        exact of_decide_eq_true ho
      unfold mapStep
      rw [readAt_of_getElem? (hc i (by omega)), ok_bind, decide_eq_true ho']
      simp only
      by_cases hk : k = 0
      · rw [writeAt_of_le (by omega), error_bind, error_bind]
      · rw [writeAt_of_lt (by omega), ok_bind, writeAt_of_lt (by omega), ok_bind, writeAt_of_lt (by omega), ok_bind]
        show loopFrom (mapStep min width sb counts) (i + 1) k _ = _
        apply ih
        · omega
        · omega
        · show (s.thresholds.set _ _).length = _
          rw [List.length_set]; exact hT
        · show (s.indptr.set _ _).length = _
          rw [List.length_set]; exact hP
        · show (s.mapping.set _ _).length = _
          rw [List.length_set]; exact hM
        · show s.numBins + 1 = _
          omega
  exact key N 0 s (by omega) hN hT hP hM h0

/-- The indices of the examples in a bin, in the order of their values. -/
def members (bin : Entry → Nat) (sb : Nat) (l : List Entry) (j : Nat) : List Nat :=
  (l.filter (fun e => decide (bin e ≠ sb ∧ bin e = j))).map (·.index)

theorem members_length (l : List Entry) (j : Nat) : (members bin sb l j).length = tot bin sb l j := by simp [members, tot]

theorem members_concat (l : List Entry) (e : Entry) (j : Nat) :
    members bin sb (l ++ [e]) j = members bin sb l j ++ if bin e ≠ sb ∧ bin e = j then [e.index] else [] := by
  unfold members
  rw [List.filter_append, List.map_append]
  congr 1
  by_cases h : bin e ≠ sb ∧ bin e = j
  · rw [if_pos h, List.filter_cons, if_pos (decide_eq_true h)]; rfl
  · rw [if_neg h, List.filter_cons, if_neg (by simpa using h)]; rfl

structure SInv (bin : Entry → Nat) (sb N : Nat) (entries pre : List Entry) (s : List Nat × List (Option Nat)) : Prop where
  lenC : s.1.length = N
  lenI : s.2.length = entries.length
  counts : ∀ (j : Nat), j < N → s.1[j]? = some (tot bin sb entries j - tot bin sb pre j)
  stored : ∀ (j : Nat), j < N → ∀ (q x : Nat), (members bin sb pre j)[q]? = some x → s.2[off bin sb entries j + (tot bin sb entries j - 1 - q)]? = some (some x)

theorem fill_spec {w : WidthState} (hw : MInv bin sb N entries min width N w) (hsb : sb < N)
    (hbin : ∀ e ∈ entries, getBinIndex e.value min width N = .ok (bin e) ∧ bin e < N) (post : List Entry) : ∀ (pre : List Entry) (s : List Nat × List (Option Nat)),
    entries = pre ++ post → SInv bin sb N entries pre s → ∃ s', post.foldlM (fillStep min width N sb w) s = .ok s' ∧ SInv bin sb N entries entries s' := by
  induction post with
  | nil =>
    intro pre s he h
    rw [List.append_nil] at he
    subst he
    exact ⟨s, rfl, h⟩
  | cons e post ih =>
    intro pre s he h
    obtain ⟨h1, h2⟩ := hbin e (by rw [he]; simp)
    have hstep : ∃ s', fillStep min width N sb w s e = .ok s' ∧ SInv bin sb N entries (pre ++ [e]) s' := by
      unfold fillStep
      rw [h1, ok_bind]
      by_cases hes : bin e = sb
      · rw [decide_eq_true hes]
        refine ⟨s, rfl, ⟨h.lenC, h.lenI, ?_, ?_⟩⟩
        · intro j hj
          rw [h.counts j hj, tot_append, tot_cons, if_neg (by tauto)]
          simp [tot]
        · intro j hj q x hq
          rw [members_concat, if_neg (by tauto), List.append_nil] at hq
          exact h.stored j hj q x hq
      · rw [decide_eq_false hes]
        simp only
        have hpre : tot bin sb entries (bin e) = tot bin sb pre (bin e) + 1 + tot bin sb post (bin e) := by
          rw [he, tot_append, tot_cons, if_pos ⟨hes, rfl⟩]; omega
        have ho : occupied bin sb entries (bin e) = true := by
          unfold occupied
          rw [decide_eq_true_eq]
          right; omega
        have hosb : occupied bin sb entries sb = true := by
          unfold occupied
          rw [decide_eq_true_eq]
          exact Or.inl rfl
        have hr := occ_rank (bin := bin) (sb := sb) (entries := entries) h2 ho
        have hrsb := occ_rank (bin := bin) (sb := sb) (entries := entries) hsb hosb
        rw [readAt_of_getElem? (hw.map (bin e) h2 ho), ok_bind]
        simp only [useInit]
        rw [ok_bind, hw.sparse, if_pos hsb]
        have hne : (occ bin sb entries (bin e)).length ≠ (occ bin sb entries sb).length := by
          intro heq
          rw [heq, hrsb] at hr
          exact hes (Option.some.inj hr).symm
        rw [decide_eq_false hne]
        simp only
        unfold storeIndex
        have hn0 : tot bin sb entries (bin e) - tot bin sb pre (bin e) ≠ 0 := by omega
        rw [readAt_of_getElem? (h.counts (bin e) h2), ok_bind, if_neg hn0, writeAt_of_lt (by rw [h.lenC]; exact h2), ok_bind,
          readAt_of_getElem? (hw.ptr _ _ hr), ok_bind]
        simp only [useInit]
        have hpos : off bin sb entries (bin e) + (tot bin sb entries (bin e) - tot bin sb pre (bin e) - 1) < entries.length := by
          have h3 := off_succ (bin := bin) (sb := sb) (entries := entries) (bin e)
          have h4 := off_le (bin := bin) (sb := sb) (entries := entries) (bin e + 1)
          omega
        rw [ok_bind, writeAt_of_lt (by rw [h.lenI]; exact hpos), ok_bind]
        refine ⟨_, rfl, ⟨by show (s.1.set _ _).length = _; rw [List.length_set]; exact h.lenC, by show (s.2.set _ _).length = _; rw [List.length_set]; exact h.lenI, ?_, ?_⟩⟩
        · intro j hj
          show (s.1.set _ _)[j]? = _
          rw [List.getElem?_set]
          by_cases hje : bin e = j
          · subst hje
            rw [if_pos rfl, if_pos (by rw [h.lenC]; exact h2), tot_append, tot_cons, if_pos ⟨hes, rfl⟩]
            simp [tot]; omega
          · rw [if_neg hje, h.counts j hj, tot_append, tot_cons, if_neg (by tauto)]
            simp [tot]
        · intro j hj q x hq
          show (s.2.set _ _)[_]? = _
          rw [List.getElem?_set]
          rw [members_concat] at hq
          by_cases hje : bin e = j
          · subst hje
            rw [if_pos ⟨hes, rfl⟩] at hq
            by_cases hqe : q = tot bin sb pre (bin e)
            · subst hqe
              rw [← members_length, List.getElem?_append_right (Nat.le_refl _)] at hq
              simp only [Nat.sub_self, List.getElem?_cons_zero, Option.some.injEq] at hq
              rw [if_pos (by omega), if_pos (by rw [h.lenI]; exact hpos), hq]
            · have hql : q < (members bin sb pre (bin e)).length := by
                have := (List.getElem?_eq_some_iff.mp hq).1
                rw [List.length_append, List.length_singleton, members_length] at this
                rw [members_length]; omega
              rw [List.getElem?_append_left hql] at hq
              rw [members_length] at hql
              rw [if_neg (by omega)]
              exact h.stored _ h2 q x hq
          · rw [if_neg (by tauto), List.append_nil] at hq
            have hql := (List.getElem?_eq_some_iff.mp hq).1
            rw [members_length] at hql
            have hle : tot bin sb pre j ≤ tot bin sb entries j := by rw [he, tot_append]; omega
            have hs1 := off_succ (bin := bin) (sb := sb) (entries := entries) j
            have hs2 := off_succ (bin := bin) (sb := sb) (entries := entries) (bin e)
            rw [if_neg ?_]
            · exact h.stored j hj q x hq
            · rcases Nat.lt_or_gt_of_ne hje with hlt | hlt
              · have := off_mono (bin := bin) (sb := sb) (entries := entries) (show bin e + 1 ≤ j from hlt)
                omega
              · have := off_mono (bin := bin) (sb := sb) (entries := entries) (show j + 1 ≤ bin e from hlt)
                omega
    obtain ⟨s', g1, g2⟩ := hstep
    rw [List.foldlM_cons, g1, ok_bind]
    exact ih (pre ++ [e]) s' (by rw [he]; simp) g2

/-- What is stored for a bin after all indices have been written. -/
theorem SInv.segment {s : List Nat × List (Option Nat)} (h : SInv bin sb N entries entries s) {j : Nat} (hj : j < N) :
    (s.2.drop (off bin sb entries j)).take (tot bin sb entries j) = ((members bin sb entries j).reverse).map some := by
  have hs := off_succ (bin := bin) (sb := sb) (entries := entries) j
  have hle := off_le (bin := bin) (sb := sb) (entries := entries) (j + 1)
  apply List.ext_getElem?
  intro r
  by_cases hr : r < tot bin sb entries j
  · rw [List.getElem?_take_of_lt hr, List.getElem?_drop, List.getElem?_map, List.getElem?_reverse (by rw [members_length]; exact hr), members_length]
    have hq : tot bin sb entries j - 1 - r < (members bin sb entries j).length := by rw [members_length]; omega
    have h1 := h.stored j hj _ _ (List.getElem?_eq_getElem hq)
    rw [show tot bin sb entries j - 1 - (tot bin sb entries j - 1 - r) = r by omega] at h1
    rw [h1, List.getElem?_eq_getElem hq]
    rfl
  · rw [List.getElem?_eq_none (by rw [List.length_take]; omega), List.getElem?_eq_none (by rw [List.length_map, List.length_reverse, members_length]; omega)]

end

end MLRL.FeatureBinning
