import Verif.Lemma.FeatureBinningWidth

/-!
# C55: equal-frequency and equal-width feature binning
-/

namespace MLRL.FeatureBinning

open Spec

/-! ### Equal-frequency binning -/

theorem numElementsPerBin_spec {numElements numBins : Nat} (hn : 1 ≤ numElements) (hb : 1 ≤ numBins) :
    1 ≤ numElementsPerBin numElements numBins ∧ numElements ≤ numBins * numElementsPerBin numElements numBins := by
  unfold numElementsPerBin
  have hb' : (0 : ℚ) < numBins := by exact_mod_cast hb
  have hn' : (0 : ℚ) < numElements := by exact_mod_cast hn
  have hpos : 0 < ⌈(numElements : ℚ) / (numBins : ℚ)⌉ := Int.ceil_pos.mpr (div_pos hn' hb')
  have hcast : ((⌈(numElements : ℚ) / (numBins : ℚ)⌉.toNat : Nat) : ℤ) = ⌈(numElements : ℚ) / (numBins : ℚ)⌉ := Int.toNat_of_nonneg (le_of_lt hpos)
  refine ⟨by omega, ?_⟩
  have h1 := Int.le_ceil ((numElements : ℚ) / (numBins : ℚ))
  rw [div_le_iff₀ hb'] at h1
  have h2 : ((⌈(numElements : ℚ) / (numBins : ℚ)⌉.toNat : Nat) : ℚ) = ((⌈(numElements : ℚ) / (numBins : ℚ)⌉ : ℤ) : ℚ) := by exact_mod_cast hcast
  have h3 : (numElements : ℚ) ≤ ((numBins * ⌈(numElements : ℚ) / (numBins : ℚ)⌉.toNat : Nat) : ℚ) := by
    rw [Nat.cast_mul, h2]
    linarith
  exact_mod_cast h3

theorem init_spec (numBins numIndices sb : Nat) (hb : 1 ≤ numBins) : ∃ v, BinnedVector.init numBins numIndices sb = .ok v ∧ v.thresholds.length = numBins - 1 ∧
    v.indices = List.replicate numIndices none ∧ v.indptr.length = numBins + 1 ∧ v.indptr[0]? = some (some 0) := by
  unfold BinnedVector.init
  rw [writeAt_of_lt (by simp), ok_bind, writeAt_of_lt (by simp), ok_bind]
  refine ⟨_, rfl, by simp, rfl, by simp, ?_⟩
  show ((List.set _ _ _).set _ _)[0]? = _
  rw [List.getElem?_set, if_neg (by omega), List.getElem?_set, if_pos rfl, if_pos (by simp)]

theorem equalFrequency_general {isEqual : ℚ → ℚ → Bool} {sparseValue : ℚ} {entries : List Entry} (hexact : Exact isEqual sparseValue entries)
    (hs : Sorted entries) (hne : entries ≠ []) (numBins numExamples : Nat) (sparse : Bool) :
    (∃ r, equalFrequency isEqual numBins numExamples sparse sparseValue entries = .ok r ∧ ∀ v, r = some v → Separates entries sparse sparseValue v) ∨
      equalFrequency isEqual numBins numExamples sparse sparseValue entries = .error .outOfBounds ∧ sparse = true ∧
        (numBins - 1) * numElementsPerBin entries.length numBins < entries.length := by
  unfold equalFrequency
  by_cases hnb : numBins > 1
  swap
  · rw [if_neg hnb]
    exact Or.inl ⟨none, rfl, by simp⟩
  rw [if_pos hnb]
  have hn : 1 ≤ entries.length := List.length_pos_of_ne_nil hne
  obtain ⟨hp1, hnp⟩ := numElementsPerBin_spec hn (show 1 ≤ numBins by omega)
  generalize hp : numElementsPerBin entries.length numBins = p at *
  obtain ⟨v, hv, hT, hI, hP, hP0⟩ := init_spec numBins entries.length 0 (by omega)
  rw [hv, ok_bind]
  have hinit : FInv (IsValue sparseValue entries) numBins p entries.length 0 0 [] ⟨v.thresholds, v.indices, v.indptr, sparseValue, 0, 0, 0⟩ := by
    refine ⟨hT, by show v.indices.length = _; rw [hI]; simp, hP, rfl, rfl, ?_, List.Pairwise.nil, by simp, ?_, by simp, fun _ => ⟨rfl, rfl⟩, by simp, by simp, Or.inl rfl⟩
    · intro k hk
      have : k = 0 := Nat.le_zero.mp hk
      subst this
      exact hP0
    · intro k hk
      exact absurd hk (Nat.not_lt_zero k)
  obtain ⟨G, s, done, rest, h1, h2, h3, h4, h5, h6, h7, h8, _⟩ := lowerLoop_spec hexact hp1 sparseValue hnp entries [] _ hinit
    ⟨by simp, [], [], rfl, by simp, by simp, rfl⟩ (fun e he => Or.inr ⟨e, he, rfl⟩) (by simp) (by simp) (fun _ => rfl) hs (by simp [realOf])
  rw [h1, ok_bind]
  simp only
  have h6' : realOf G = done := by rw [h6]; simp [realOf]
  have hrest : Sorted rest := by
    unfold Sorted at hs ⊢
    rw [h2] at hs
    exact (List.pairwise_append.mp hs).2.1
  have hvrest : ∀ e ∈ rest, IsValue sparseValue entries e.value := fun e he => Or.inr ⟨e, by rw [h2]; simp [he], rfl⟩
  have hlen : done.length + rest.length = entries.length := by rw [h2, List.length_append]
  -- the state after sparse values
  have hmid : (∃ G' s' done' rest', middle isEqual p (numExamples - entries.length) sparse sparseValue s rest = .ok (s', rest') ∧ rest = done' ++ rest' ∧
      FInv (IsValue sparseValue entries) numBins p entries.length (if sparse then p else 0) s'.binIndex G' s' ∧ realOf G' = done ++ done' ∧
      (G' ≠ [] → ∀ e ∈ rest', s'.previousValue ≤ e.value) ∧ (sparse = true → (⟨⟨0, sparseValue⟩, s'.binIndex, false, false⟩ : Ghost) ∈ G')) ∨
      middle isEqual p (numExamples - entries.length) sparse sparseValue s rest = .error .outOfBounds ∧ sparse = true ∧
        (numBins - 1) * p < entries.length := by
    unfold middle
    cases sparse with
    | false =>
      left
      refine ⟨G, s, [], rest, rfl, rfl, h4.changeSp h5.all _, by rw [h6']; simp, ?_, by simp⟩
      intro hG e he
      exact le_of_lt (lt_of_lt_of_le (h7 hG) (h3 e he))
    | true =>
      simp only [if_true]
      rcases sparseBin_spec hp1 h4 h5 h7 h8 (Or.inl rfl) (numExamples - entries.length) with ⟨G', s', g1, g2, g3, g4, g5⟩ | ⟨g1, g2, g3⟩
      · left
        rw [g1]
        obtain ⟨G'', s'', done', rest', k1, k2, k3, k4, k5, k6, k7⟩ := skipLoop_spec hexact rest G' s' g2 hvrest
        simp only
        rw [k1]
        refine ⟨G'', s'', done', rest', rfl, k2, k3, by rw [k4, g3, h6'], ?_, ?_⟩
        · intro _ e he
          rw [k5, g4]
          exact h3 e (by rw [k2]; simp [he])
        · intro _
          rw [k6]
          exact k7 _ g5
      · right
        rw [g1]
        refine ⟨rfl, trivial, ?_⟩
        have hcount := h4.count
        rw [Nat.min_eq_right g3, h6'] at hcount
        have hm : numBins * p ≤ (s.binIndex + 1) * p := Nat.mul_le_mul_right p g2
        rw [Nat.add_mul] at hm
        rw [Nat.sub_mul]
        have : p ≤ numBins * p := Nat.le_mul_of_pos_left p (by omega)
        omega
  rcases hmid with ⟨G', s', done', rest', g1, g2, g3, g4, g5, g6⟩ | ⟨g1, g2, g3⟩
  swap
  · right
    rw [g1, error_bind]
    exact ⟨rfl, g2, g3⟩
  rw [g1, ok_bind]
  simp only
  have hrest' : Sorted rest' := by
    unfold Sorted at hrest ⊢
    rw [g2] at hrest
    exact (List.pairwise_append.mp hrest).2.1
  rcases upperLoop_spec hexact hp1 rest' G' s' g3 (fun e he => hvrest e (by rw [g2]; simp [he])) g5 hrest' (by
      rw [g4, List.length_append]
      rw [g2, List.length_append] at hlen
      omega) with ⟨G'', r, k1, k2, k3, k4, k5⟩ | ⟨k1, k2⟩
  · left
    rw [k1, ok_bind]
    by_cases hpos : r.binIndex > 0
    · rw [if_pos hpos]
      obtain ⟨w, w1, w2, w3, w4⟩ := finish_spec k2 k5 hpos entries (by rw [k3, g4, h2, g2]; simp) sparse sparseValue (fun hsp => k4 _ (g6 hsp))
      rw [w1, ok_bind]
      refine ⟨some w, rfl, ?_⟩
      intro v' hv'
      cases hv'
      exact w2
    · rw [if_neg hpos]
      exact ⟨none, rfl, by simp⟩
  · right
    rw [k1, error_bind]
    cases sparse with
    | false =>
      exfalso
      simp only [Bool.false_eq_true, if_false, Nat.add_zero] at k2
      omega
    | true =>
      simp only [if_true] at k2
      refine ⟨rfl, rfl, ?_⟩
      rw [Nat.sub_mul]
      have : p ≤ numBins * p := Nat.le_mul_of_pos_left p (by omega)
      omega

/-- **C55.** If only equal values are considered equal, equal-frequency binning of a feature without sparse values exhibits no undefined behaviour, and for
each threshold, the bins up to it contain exactly the examples that satisfy the condition `value <= threshold`. -/
theorem equalFrequency_dense {isEqual : ℚ → ℚ → Bool} {sparseValue : ℚ} {entries : List Entry} (hexact : Exact isEqual sparseValue entries)
    (hs : Sorted entries) (hne : entries ≠ []) (numBins numExamples : Nat) :
    ∃ r, equalFrequency isEqual numBins numExamples false sparseValue entries = .ok r ∧ ∀ v, r = some v → Separates entries false sparseValue v := by
  rcases equalFrequency_general hexact hs hne numBins numExamples false with h | ⟨_, h, _⟩
  · exact h
  · cases h

/-- **C55 (partial).** The same holds if there are sparse values, unless there is an access to an element of an array that does not exist. This may happen only if
there is not enough space for the bin of the sparse values (`equalFrequency_fault`). -/
theorem equalFrequency_sparse_partial {isEqual : ℚ → ℚ → Bool} {sparseValue : ℚ} {entries : List Entry} (hexact : Exact isEqual sparseValue entries)
    (hs : Sorted entries) (hne : entries ≠ []) (numBins numExamples : Nat)
    (hspace : entries.length ≤ (numBins - 1) * numElementsPerBin entries.length numBins) :
    ∃ r, equalFrequency isEqual numBins numExamples true sparseValue entries = .ok r ∧ ∀ v, r = some v → Separates entries true sparseValue v := by
  rcases equalFrequency_general hexact hs hne numBins numExamples true with h | ⟨_, _, h⟩
  · exact h
  · omega

/-- **C55.** The feature vectors that are created for dense matrices by equal-frequency binning. -/
theorem createDense_equalFrequency {isEqual : ℚ → ℚ → Bool} {entries : List Entry} (hexact : Exact isEqual 0 entries) (hs : Sorted entries) (binRatio : ℚ)
    (minBins maxBins numRows : Nat) :
    ∃ r, createDense isEqual (fun numBins sparse sparseValue entries => equalFrequency isEqual numBins numRows sparse sparseValue entries) binRatio minBins maxBins
        numRows entries = .ok r ∧ ∀ v, r = some v → Separates entries false 0 v := by
  unfold createDense
  cases entries with
  | nil => exact ⟨none, rfl, by simp⟩
  | cons e entries =>
    rw [List.head?_cons, List.getLast?_cons]
    simp only
    by_cases h : isEqual e.value (entries.getLast?.getD e).value = true
    · rw [h]
      exact ⟨none, rfl, by simp⟩
    · rw [if_pos (by simp [h])]
      exact equalFrequency_dense hexact hs (by simp) _ _

/-- Exact comparisons. -/
def exactly (a b : ℚ) : Bool := decide (a = b)

theorem exactly_exact (sparseValue : ℚ) (entries : List Entry) : Exact exactly sparseValue entries := by
  intro x y _ _
  simp [exactly]

/-- Three bins, the second one of which contains a negative value and the sparse values. -/
example : equalFrequency exactly 3 10 true 0 [⟨0, -4⟩, ⟨3, -3⟩, ⟨1, -3⟩, ⟨7, -1⟩, ⟨2, 1⟩, ⟨5, 2⟩, ⟨6, 2⟩] =
    .ok (some ⟨[some (-2), some (1 / 2)], [some 0, some 3, some 1, some 2, some 5, some 6], [some 0, some 3, some 3, some 6], 3, 1⟩) := by decide +kernel

/-- **C55 (negation).** Already if three of ten values are not sparse, the second threshold is written to an array that has space for only one. -/
theorem equalFrequency_fault : equalFrequency exactly 2 10 true 0 [⟨0, 1⟩, ⟨1, 2⟩, ⟨2, 3⟩] = .error .outOfBounds := by decide +kernel

/-- `isEqual`, types.hpp:38-41, where `ε` is the machine epsilon. -/
def approximately (ε a b : ℚ) : Bool := decide (|a - b| ≤ ε * max 1 (max |a| |b|))

/-- **C55 (negation).** As the comparison of values is approximate, values that are close to each other may end up on the wrong side of a threshold: The example
with value `0.9 * epsilon` is stored in the first bin, but does not satisfy the condition `value <= 0.55 * epsilon` that corresponds to it. -/
theorem equalFrequency_approximate : equalFrequency (approximately (1 / 1000)) 2 3 false 0 [⟨0, 0⟩, ⟨1, 9 / 10000⟩, ⟨2, 11 / 10000⟩] =
    .ok (some ⟨[some (11 / 20000)], [some 0, some 1, some 2], [some 0, some 2, some 3], 2, 0⟩) := by decide +kernel

/-! ### Equal-width binning -/

/-- The bin a value belongs to. -/
def binOf (min width : ℚ) (numWidths : Nat) (x : ℚ) : Nat := Min.min ⌊(x - min) / width⌋.toNat (numWidths - 1)

theorem getBinIndex_spec {min width : ℚ} {N : Nat} {x : ℚ} (hw : 0 < width) (hN : 1 ≤ N) (hx : min ≤ x) (hlt : ⌊(x - min) / width⌋ < 2 ^ 32) :
    getBinIndex x min width N = .ok (binOf min width N x) := by
  unfold getBinIndex
  have h0 : 0 ≤ ⌊(x - min) / width⌋ := Int.floor_nonneg.mpr (div_nonneg (by linarith) (le_of_lt hw))
  rw [if_neg (by
    rintro (h | h | h)
    · exact absurd h (ne_of_gt hw)
    · omega
    · omega)]
  congr 1
  unfold binOf
  split_ifs <;> omega

/-- The bins and thresholds equal-width binning results in. -/
structure WidthResult (bin : Entry → Nat) (min width : ℚ) (N : Nat) (sb : Nat) (entries : List Entry) (v : BinnedVector) : Prop where
  bins : v.numBins = (occ bin sb entries N).length
  lengths : v.thresholds.length + 1 = v.numBins
  thresholds : ∀ (k : Nat), k + 1 < v.numBins → v.thresholds[k]? = some (some (min + ((k : ℚ) + 1) * width))
  sparseBin : (occ bin sb entries N)[v.sparseBinIndex]? = some sb
  stored : ∀ (k i : Nat), (occ bin sb entries N)[k]? = some i → Stored v k (members bin sb entries i).reverse

theorem equalWidth_general (N : Nat) (sparse : Bool) (sparseValue : ℚ) (entries : List Entry) {m : ℚ × ℚ} {sb : Nat} (hN : 1 ≤ N) (hN32 : N < 2 ^ 32)
    (hm : getMinAndMaxFeatureValue sparse sparseValue entries = .ok m) (hlt : m.1 < m.2) (hsb : getBinIndex sparseValue m.1 ((m.2 - m.1) / N) N = .ok sb) :
    ((occ (fun e => binOf m.1 ((m.2 - m.1) / N) N e.value) sb entries N).length = N → equalWidth N sparse sparseValue entries = .error .outOfBounds) ∧
      ((occ (fun e => binOf m.1 ((m.2 - m.1) / N) N e.value) sb entries N).length < N → ∃ r, equalWidth N sparse sparseValue entries = .ok r ∧
        ∀ v, r = some v → WidthResult (fun e => binOf m.1 ((m.2 - m.1) / N) N e.value) m.1 ((m.2 - m.1) / N) N sb entries v ∧ 2 ≤ v.numBins) := by
  obtain ⟨_, hrange, _, _, _⟩ := getMinAndMax_spec hm
  have hNq : (0 : ℚ) < N := by exact_mod_cast hN
  have hw : 0 < (m.2 - m.1) / (N : ℚ) := div_pos (by linarith) hNq
  have hsbN : sb < N := by
    unfold getBinIndex at hsb
    split at hsb
    · cases hsb
    · have := Except.ok.inj hsb
      split at this <;> omega
  have hbin : ∀ e ∈ entries, getBinIndex e.value m.1 ((m.2 - m.1) / N) N = .ok ((fun e : Entry => binOf m.1 ((m.2 - m.1) / N) N e.value) e) ∧
      (fun e : Entry => binOf m.1 ((m.2 - m.1) / N) N e.value) e < N := by
    intro e he
    obtain ⟨h1, h2⟩ := hrange e he
    refine ⟨getBinIndex_spec hw hN h1 ?_, ?_⟩
    · have : (e.value - m.1) / ((m.2 - m.1) / (N : ℚ)) ≤ ((N : ℤ) : ℚ) := by
        rw [div_le_iff₀ hw]
        have : ((N : ℤ) : ℚ) * ((m.2 - m.1) / (N : ℚ)) = m.2 - m.1 := by
          rw [Int.cast_natCast]
          field_simp
        linarith
      have h3 := Int.floor_le_floor this
      rw [Int.floor_intCast] at h3
      have : (N : ℤ) < 2 ^ 32 := by exact_mod_cast hN32
      omega
    · show Min.min _ (N - 1) < N
      omega
  unfold equalWidth
  rw [if_pos (by omega), hm, ok_bind, hsb, ok_bind]
  obtain ⟨v, hv, hT, hI, hP, hP0⟩ := init_spec N entries.length sb hN
  rw [hv, ok_bind]
  generalize hbinf : (fun e : Entry => binOf m.1 ((m.2 - m.1) / N) N e.value) = bin at *
  obtain ⟨c, hc1, hc2, hc3⟩ := count_spec (sb := sb) hbin entries [] (List.replicate N 0) rfl (by simp) (by
    intro j hj
    rw [List.getElem?_replicate, if_pos hj]
    simp [tot])
  rw [hc1, ok_bind]
  constructor
  · intro hfull
    rw [map_fault hc3 hN hT hP (by simp) rfl (occ_full hfull), error_bind]
  · intro hnot
    obtain ⟨w, hw1, hw2⟩ := loop_rule (body := mapStep m.1 ((m.2 - m.1) / N) sb c) (MInv bin sb N entries m.1 ((m.2 - m.1) / N)) N
      ⟨v.thresholds, v.indptr, List.replicate N none, 0, 0, sb⟩
      ⟨hT, hP, by simp, by simp [occ], by intro k hk; exact absurd hk (Nat.not_lt_zero k), by intro k j h; simp [occ] at h, by intro j hj; omega, by rw [off_zero], by simp⟩
      (fun i t hi ht => map_step hc3 hi ht hnot)
    rw [hw1, ok_bind]
    obtain ⟨f, hf1, hf2⟩ := fill_spec hw2 hsbN hbin entries [] (c, v.indices) rfl ⟨hc2, by rw [hI]; simp, by
        intro j hj
        rw [hc3 j hj]
        simp [tot], by
        intro j hj q x hq
        simp [members] at hq⟩
    rw [hf1, ok_bind]
    by_cases hb : w.numBins > 1
    swap
    · rw [if_neg hb]
      exact ⟨none, rfl, by simp⟩
    rw [if_pos hb]
    have hbl : w.numBins = (occ bin sb entries N).length := hw2.bins
    unfold BinnedVector.resize
    have hrp : (realloc w.indptr (w.numBins + 1)).length = w.numBins + 1 := by
      unfold realloc
      rw [List.length_append, List.length_take, List.length_replicate, hw2.lenP]
      omega
    have hosb : occupied bin sb entries sb = true := by
      unfold occupied
      rw [decide_eq_true_eq]
      exact Or.inl rfl
    have hrsb := occ_rank (bin := bin) (sb := sb) (entries := entries) hsbN hosb
    have hsbw : w.sparseBinIndex < w.numBins := by
      rw [hw2.sparse, if_pos hsbN, hbl]
      exact (List.getElem?_eq_some_iff.mp hrsb).1
    simp only
    rw [writeAt_of_lt (by rw [hrp]; omega), ok_bind, if_neg (by omega)]
    refine ⟨_, rfl, ?_⟩
    intro r hr
    have hr' := (Option.some.inj hr).symm
    have hnb : r.numBins = w.numBins := by rw [hr']
    refine ⟨⟨by rw [hnb, hbl], ?_, ?_, ?_, ?_⟩, by omega⟩
    · rw [hr']
      show (realloc w.thresholds (w.numBins - 1)).length + 1 = w.numBins
      unfold realloc
      rw [List.length_append, List.length_take, List.length_replicate, hw2.lenT]
      omega
    · intro k hk
      rw [hnb] at hk
      rw [hr']
      show (realloc w.thresholds (w.numBins - 1))[k]? = _
      unfold realloc
      rw [List.getElem?_append_left (by rw [List.length_take, hw2.lenT]; omega), List.getElem?_take_of_lt (by omega)]
      exact hw2.thr k (by omega)
    · have : r.sparseBinIndex = w.sparseBinIndex := by rw [hr']
      rw [this, hw2.sparse, if_pos hsbN]
      exact hrsb
    · intro k i hki
      obtain ⟨hrank, hiN, ho⟩ := occ_rank_eq hki
      have hkl := (List.getElem?_eq_some_iff.mp hki).1
      have hptr : ∀ (k' i' : Nat), (occ bin sb entries N)[k']? = some i' → r.indptr[k']? = some (some (off bin sb entries i')) := by
        intro k' i' h'
        have hkl' := (List.getElem?_eq_some_iff.mp h').1
        rw [hr']
        show ((realloc w.indptr (w.numBins + 1)).set w.numBins (some w.numIndices))[k']? = _
        rw [List.getElem?_set, if_neg (by omega)]
        unfold realloc
        rw [List.getElem?_append_left (by rw [List.length_take, hw2.lenP]; omega), List.getElem?_take_of_lt (by omega)]
        exact hw2.ptr k' i' h'
      have hptr' : r.indptr[k + 1]? = some (some (off bin sb entries (i + 1))) := by
        by_cases hk1 : k + 1 < (occ bin sb entries N).length
        · have h' := List.getElem?_eq_getElem hk1
          rw [hptr _ _ h', (off_gap hki h').1]
        · rw [← off_last hki (by omega), hr']
          show ((realloc w.indptr (w.numBins + 1)).set w.numBins (some w.numIndices))[k + 1]? = _
          rw [List.getElem?_set, if_pos (by omega), if_pos (by rw [hrp]; omega), hw2.num]
      have hle := off_mono (bin := bin) (sb := sb) (entries := entries) (show i + 1 ≤ N from hiN)
      have hsucc := off_succ (bin := bin) (sb := sb) (entries := entries) i
      refine ⟨_, _, hptr k i hki, hptr', by rw [List.length_reverse, members_length]; exact hsucc, ?_⟩
      have hind : r.indices = f.2.take (off bin sb entries N) := by
        rw [hr']
        show realloc f.2 w.numIndices = _
        unfold realloc
        rw [hw2.num, show off bin sb entries N - f.2.length = 0 by
          rw [hf2.lenI]
          have := off_le (bin := bin) (sb := sb) (entries := entries) N
          omega]
        simp
      rw [hind, ← hf2.segment hiN, hsucc, Nat.add_sub_cancel_left, List.drop_take, List.take_take, Nat.min_eq_left (by omega)]

/-- **C55 (negation).** If there is at least one value in each interval, the threshold of the last bin is written to an element of an array that does not
exist. -/
theorem equalWidth_fault (N : Nat) (sparse : Bool) (sparseValue : ℚ) (entries : List Entry) {m : ℚ × ℚ} {sb : Nat} (hN : 1 ≤ N) (hN32 : N < 2 ^ 32)
    (hm : getMinAndMaxFeatureValue sparse sparseValue entries = .ok m) (hlt : m.1 < m.2) (hsb : getBinIndex sparseValue m.1 ((m.2 - m.1) / N) N = .ok sb)
    (hall : ∀ j, j < N → j = sb ∨ ∃ e ∈ entries, binOf m.1 ((m.2 - m.1) / N) N e.value = j) :
    equalWidth N sparse sparseValue entries = .error .outOfBounds := by
  refine (equalWidth_general N sparse sparseValue entries hN hN32 hm hlt hsb).1 ?_
  unfold occ
  have : (List.range N).filter (occupied (fun e => binOf m.1 ((m.2 - m.1) / N) N e.value) sb entries) = List.range N := by
    rw [List.filter_eq_self]
    intro j hj
    unfold occupied
    rw [decide_eq_true_eq]
    by_cases hjs : j = sb
    · exact Or.inl hjs
    · rcases hall j (by simpa using hj) with h | ⟨e, he, h⟩
      · exact Or.inl h
      · right
        unfold tot
        apply List.length_pos_of_mem (a := e)
        rw [List.mem_filter]
        refine ⟨he, ?_⟩
        rw [decide_eq_true_eq]
        exact ⟨fun h2 => hjs (h.symm.trans h2), h⟩
  rw [this, List.length_range]

example : equalWidth 3 true 0 [⟨0, 1⟩, ⟨1, 2⟩, ⟨2, 3⟩] = .error .outOfBounds := by decide +kernel

/-- **C55 (negation).** If all values of a feature without sparse values are positive, a negative value is converted into an unsigned integer. -/
theorem equalWidth_positive (N : Nat) (entries : List Entry) {m : ℚ × ℚ} (hN : 1 ≤ N) (hm : getMinAndMaxFeatureValue false 0 entries = .ok m)
    (hlt : m.1 < m.2) (hpos : ∀ e ∈ entries, 0 < e.value) : equalWidth N false 0 entries = .error .badCast := by
  obtain ⟨_, _, _, hmin, _⟩ := getMinAndMax_spec hm
  have h1 : 0 < m.1 := by
    rcases hmin with ⟨h, _⟩ | ⟨e, he, h⟩
    · cases h
    · rw [← h]; exact hpos e he
  have hNq : (0 : ℚ) < N := by exact_mod_cast hN
  have hw : 0 < (m.2 - m.1) / (N : ℚ) := div_pos (by linarith) hNq
  unfold equalWidth
  rw [if_pos (by omega), hm, ok_bind]
  have : getBinIndex 0 m.1 ((m.2 - m.1) / N) N = .error .badCast := by
    unfold getBinIndex
    rw [if_pos]
    right; left
    rw [Int.floor_lt]
    rw [div_lt_iff₀ hw]
    simp [h1]
  rw [this, error_bind]

example : equalWidth 2 false 0 [⟨0, 1⟩, ⟨1, 2⟩, ⟨2, 3⟩] = .error .badCast := by decide +kernel

/-- **C55 (negation).** The example with value `5` is stored in the second bin, but it does not satisfy the condition `value <= 2` that corresponds to it, because
thresholds are computed as if there were no empty bins. -/
theorem equalWidth_gap : equalWidth 10 false 0 [⟨0, 0⟩, ⟨1, 5⟩, ⟨2, 10⟩] =
    .ok (some ⟨[some 1, some 2], [some 1, some 2], [some 0, some 0, some 1, some 2], 3, 0⟩) := by decide +kernel

/-- **C55 (negation).** The example with value `5` is stored in the second bin, but it satisfies the condition `value <= 5` that corresponds to the first one. -/
theorem equalWidth_boundary : equalWidth 4 false 0 [⟨0, 0⟩, ⟨1, 5⟩, ⟨2, 20⟩] =
    .ok (some ⟨[some 5, some 10], [some 1, some 2], [some 0, some 0, some 1, some 2], 3, 0⟩) := by decide +kernel

/-- None of these bins is consistent with its thresholds. -/
theorem not_separated {entries : List Entry} {sparse : Bool} {sparseValue : ℚ} {v : BinnedVector} {e : Entry} {b k : Nat} {t : ℚ} (he : e ∈ entries)
    (hunique : ∀ e' ∈ entries, e'.index = e.index → e' = e) {l : List Nat} (hl : Stored v b l) (hel : e.index ∈ l) (hb : b < v.numBins)
    (ht : v.thresholds[k]? = some (some t)) (hbad : ¬(e.value ≤ t ↔ b ≤ k)) : ¬Separates entries sparse sparseValue v := by
  intro h
  classical
  have hsame : ∀ l', Stored v b l' → l' = l := by
    rintro l' ⟨f', a', h1, h2, _, h3⟩
    obtain ⟨f, a, g1, g2, _, g3⟩ := hl
    rw [h1] at g1
    rw [h2] at g2
    cases g1
    cases g2
    rw [h3] at g3
    exact List.map_injective_iff.mpr (Option.some_injective _) g3
  have hin : InBin v e.value b := by
    by_cases hs : b = v.sparseBinIndex
    · obtain ⟨l', h1, h2⟩ := h.sparseStored
      rw [← hs] at h1
      rw [hsame l' h1] at h2
      obtain ⟨e', he', h3, h4⟩ := h2 _ hel
      rw [hunique e' he' h3, ← hs] at h4
      exact h4
    · obtain ⟨l', h1, h2⟩ := h.stored b hb hs
      have h3 := h2 (fun e => decide (InBin v e.value b)) (fun e _ => by simp)
      rw [hsame l' h1] at h3
      obtain ⟨e', he', h4⟩ := List.mem_map.mp (h3.mem_iff.mp hel)
      have h5 := List.mem_filter.mp he'
      rw [hunique e' h5.1 h4] at h5
      simpa using h5.2
  exact hbad (hin.2 k t ht)

theorem equalWidth_gap_not_separated : ¬Separates [⟨0, 0⟩, ⟨1, 5⟩, ⟨2, 10⟩] false 0
    ⟨[some 1, some 2], [some 1, some 2], [some 0, some 0, some 1, some 2], 3, 0⟩ :=
  not_separated (e := ⟨1, 5⟩) (b := 1) (k := 1) (t := 2) (l := [1]) (by simp) (by simp) ⟨0, 1, rfl, rfl, rfl, rfl⟩ (by simp) (by decide) rfl (by norm_num)

theorem equalWidth_boundary_not_separated : ¬Separates [⟨0, 0⟩, ⟨1, 5⟩, ⟨2, 20⟩] false 0
    ⟨[some 5, some 10], [some 1, some 2], [some 0, some 0, some 1, some 2], 3, 0⟩ :=
  not_separated (e := ⟨1, 5⟩) (b := 1) (k := 0) (t := 5) (l := [1]) (by simp) (by simp) ⟨0, 1, rfl, rfl, rfl, rfl⟩ (by simp) (by decide) rfl (by norm_num)

theorem equalFrequency_approximate_not_separated : ¬Separates [⟨0, 0⟩, ⟨1, 9 / 10000⟩, ⟨2, 11 / 10000⟩] false 0
    ⟨[some (11 / 20000)], [some 0, some 1, some 2], [some 0, some 2, some 3], 2, 0⟩ :=
  not_separated (e := ⟨1, 9 / 10000⟩) (b := 0) (k := 0) (t := 11 / 20000) (l := [0, 1]) (by simp) (by simp) ⟨0, 2, rfl, rfl, rfl, rfl⟩ (by simp) (by decide) rfl
    (by norm_num)

theorem binOf_le {min width : ℚ} {N k : Nat} {x : ℚ} (hw : 0 < width) (hx : min ≤ x) (hk : k + 1 < N) (hb : x ≠ min + ((k : ℚ) + 1) * width) :
    x ≤ min + ((k : ℚ) + 1) * width ↔ binOf min width N x ≤ k := by
  have h0 : 0 ≤ ⌊(x - min) / width⌋ := Int.floor_nonneg.mpr (div_nonneg (by linarith) (le_of_lt hw))
  have h1 : x ≤ min + ((k : ℚ) + 1) * width ↔ ⌊(x - min) / width⌋ < (k : ℤ) + 1 := by
    rw [Int.floor_lt, div_lt_iff₀ hw]
    push_cast
    constructor
    · intro h
      have := lt_of_le_of_ne h hb
      linarith
    · intro h
      linarith
  rw [h1]
  unfold binOf
  omega

/-- **C55 (partial).** If all empty intervals are located directly before the last interval, there is at least one of them, and no value lies on a boundary
between intervals, then for each threshold, the bins up to it contain exactly the examples that satisfy the condition `value <= threshold`. -/
theorem equalWidth_partial (N : Nat) (sparse : Bool) (sparseValue : ℚ) (entries : List Entry) {m : ℚ × ℚ} {sb : Nat} (hN : 1 ≤ N) (hN32 : N < 2 ^ 32)
    (hm : getMinAndMaxFeatureValue sparse sparseValue entries = .ok m) (hlt : m.1 < m.2) (hsb : getBinIndex sparseValue m.1 ((m.2 - m.1) / N) N = .ok sb)
    (hempty : (occ (fun e => binOf m.1 ((m.2 - m.1) / N) N e.value) sb entries N).length < N)
    (hgap : ∀ (k i : Nat), (occ (fun e => binOf m.1 ((m.2 - m.1) / N) N e.value) sb entries N)[k]? = some i →
      k + 1 < (occ (fun e => binOf m.1 ((m.2 - m.1) / N) N e.value) sb entries N).length → i = k)
    (hboundary : ∀ (k : Nat), k + 1 < N → ∀ x, IsValue sparseValue entries x → x ≠ m.1 + ((k : ℚ) + 1) * ((m.2 - m.1) / N)) :
    ∃ r, equalWidth N sparse sparseValue entries = .ok r ∧ ∀ v, r = some v → Separates entries sparse sparseValue v := by
  obtain ⟨r, hr, hv⟩ := (equalWidth_general N sparse sparseValue entries hN hN32 hm hlt hsb).2 hempty
  refine ⟨r, hr, ?_⟩
  intro v hrv
  obtain ⟨h, h2⟩ := hv v hrv
  obtain ⟨_, hrange, hsrange, _, _⟩ := getMinAndMax_spec hm
  have hNq : (0 : ℚ) < N := by exact_mod_cast hN
  have hw : 0 < (m.2 - m.1) / (N : ℚ) := div_pos (by linarith) hNq
  have hsbx : sb = binOf m.1 ((m.2 - m.1) / N) N sparseValue ∧ m.1 ≤ sparseValue := by
    unfold getBinIndex at hsb
    split at hsb
    · cases hsb
    · rename_i hn
      push Not at hn
      refine ⟨?_, ?_⟩
      · have h3 := Except.ok.inj hsb
        rw [← h3]
        unfold binOf
        split <;> omega
      · have h3 := Int.floor_nonneg.mp hn.2.1
        by_contra hc
        have : (sparseValue - m.1) / ((m.2 - m.1) / (N : ℚ)) < 0 := div_neg_of_neg_of_pos (by linarith) hw
        linarith
  generalize hbinf : (fun e : Entry => binOf m.1 ((m.2 - m.1) / N) N e.value) = bin at *
  have hbins := h.bins
  -- a value whose interval is the one of the k-th bin
  have hin : ∀ (k i : Nat), (occ bin sb entries N)[k]? = some i → ∀ x, IsValue sparseValue entries x → m.1 ≤ x → binOf m.1 ((m.2 - m.1) / N) N x = i → InBin v x k := by
    intro k i hki x hx hxm hbx
    have hkl := (List.getElem?_eq_some_iff.mp hki).1
    refine ⟨by omega, ?_⟩
    intro k' t ht
    have hk' := (List.getElem?_eq_some_iff.mp ht).1
    have hlen := h.lengths
    have hk2 : k' + 1 < v.numBins := by omega
    have hk3 : k' + 1 < N := by omega
    rw [h.thresholds k' hk2] at ht
    cases ht
    rw [binOf_le hw hxm hk3 (hboundary k' hk3 x hx), hbx]
    by_cases hk1 : k + 1 < (occ bin sb entries N).length
    · rw [hgap k i hki hk1]
    · have hle : k ≤ i := by
        have := (occ_rank_eq hki).1
        have h3 := occ_length_le (bin := bin) (sb := sb) (entries := entries) i
        omega
      constructor <;> intro h4 <;> omega
  have hkept : ∀ e ∈ entries, ∃ k : Nat, (occ bin sb entries N)[k]? = some (bin e) := by
    intro e he
    have hlt' : bin e < N := by
      rw [← hbinf]
      show Min.min _ (N - 1) < N
      omega
    have ho : occupied bin sb entries (bin e) = true := by
      unfold occupied
      rw [decide_eq_true_eq]
      by_cases hes : bin e = sb
      · exact Or.inl hes
      · right
        apply List.length_pos_of_mem (a := e)
        rw [List.mem_filter]
        exact ⟨he, by rw [decide_eq_true_eq]; exact ⟨hes, rfl⟩⟩
    exact ⟨_, occ_rank hlt' ho⟩
  have hinit : ∀ (k : Nat), k + 1 < v.numBins → ∃ t, v.thresholds[k]? = some (some t) := fun k hk => ⟨_, h.thresholds k hk⟩
  have hbx : ∀ e : Entry, binOf m.1 ((m.2 - m.1) / N) N e.value = bin e := fun e => congrFun hbinf e
  constructor
  · exact h2
  · rw [hbins]
    exact (List.getElem?_eq_some_iff.mp h.sparseBin).1
  · exact h.lengths
  · exact hinit
  · intro e he
    obtain ⟨k, hk⟩ := hkept e he
    exact ⟨k, hin k _ hk e.value (Or.inr ⟨e, he, rfl⟩) (hrange e he).1 (hbx e)⟩
  · intro b hb hne
    rw [hbins] at hb
    have hki := List.getElem?_eq_getElem hb
    refine ⟨_, h.stored b _ hki, ?_⟩
    intro P hP
    generalize (occ bin sb entries N)[b] = i at hki
    refine List.Perm.trans (List.reverse_perm _) ?_
    have hisb : i ≠ sb := by
      intro hi
      subst hi
      have h3 := (occ_rank_eq hki).1
      have h4 := (occ_rank_eq h.sparseBin).1
      omega
    unfold members
    have : entries.filter (fun e => decide (bin e ≠ sb ∧ bin e = i)) = entries.filter P := by
      apply List.filter_congr
      intro e he
      rw [Bool.eq_iff_iff, hP e he, decide_eq_true_eq]
      constructor
      · rintro ⟨_, h4⟩
        exact hin b i hki e.value (Or.inr ⟨e, he, rfl⟩) (hrange e he).1 ((hbx e).trans h4)
      · intro h4
        obtain ⟨k, hk⟩ := hkept e he
        have h5 := hin k _ hk e.value (Or.inr ⟨e, he, rfl⟩) (hrange e he).1 (hbx e)
        have h6 := inBin_unique hinit h4 h5
        rw [← h6, hki] at hk
        have h7 := Option.some.inj hk
        exact ⟨by rw [← h7]; exact hisb, h7.symm⟩
    rw [this]
  · refine ⟨_, h.stored _ _ h.sparseBin, ?_⟩
    intro i hi
    have : members bin sb entries sb = [] := by
      apply List.length_eq_zero_iff.mp
      rw [members_length, tot_sb]
    rw [this] at hi
    simp at hi
  · intro _
    exact hin _ _ h.sparseBin sparseValue (Or.inl rfl) hsbx.2 hsbx.1.symm

example : equalWidth 5 true 0 [⟨0, -1⟩, ⟨3, 3 / 2⟩, ⟨1, 2⟩, ⟨7, 9⟩] =
    .ok (some ⟨[some 1, some 3], [some 1, some 3, some 7], [some 0, some 0, some 2, some 3], 3, 0⟩) := by decide +kernel

end MLRL.FeatureBinning
