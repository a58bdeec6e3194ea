import Verif.Lemma.FeatureCreation
import Verif.Props.Search
import Mathlib.Data.List.Sort

/-!
# C69: Feature vectors represent the columns of a feature matrix
-/

namespace MLRL.FeatureType

open FeatureSpace (FeatureVector NominalKind)
open Search (nominalExamples numericalExamples Start Sound Config Subset searchNominal searchBinary searchOrdinal searchNumerical binSlice entrySlice)

theorem isOrder_id : IsOrder id := fun _ => List.Perm.refl _

theorem isOrder_reverse : IsOrder List.reverse := fun _ => List.reverse_perm _

theorem isSort_insertionSort : IsSort (List.insertionSort (· ≤ ·)) := fun l => ⟨List.perm_insertionSort _ l, List.pairwise_insertionSort _ l⟩

/-- A column with a missing value and four different values, one of which has a decimal place. -/
def exColumn : List FVal := [some 1, none, some 2, some 1, some (-3), some (5 / 2), some 1, some 7]

/-! ### Dense matrices -/

/-- **C69**, nominal features of a dense matrix: the vector that is created represents all values of the column, and its majority value is a most frequent one. -/
theorem nominalDense_correct {order : List Int → List Int} {column : List FVal} (ho : IsOrder order) (hr : InRange (denseEntries column))
    (hlen : column.length < 2 ^ 32) :
    ∃ c, nominalDense order column = .ok c ∧ c.Correct .nominal (denseEntries column) ∧ c.Frequent (denseEntries column) := by
  obtain ⟨m, h1, h2, h3⟩ := createMapping_ok hr
  obtain ⟨c, h4, h5⟩ := nominal_dense ho hr (denseEntries_nodup column) (by rw [denseEntries_length]; exact hlen) h2 0
  refine ⟨c, ?_, h5⟩
  unfold nominalDense
  rw [h1, ok_bind, h3]
  exact h4

example : InRange (denseEntries exColumn) ∧ ((nominalDense id exColumn).bind Created.decode) = .ok (.nominal .nominal [(2, [5, 2]), (-3, [4]), (7, [7])] 1 [1]) ∧
    ((nominalDense List.reverse [some 4, some 9, none, some 9]).bind Created.decode) = .ok (.nominal .binary [(4, [0])] 9 [2]) ∧
    ((nominalDense id [some 4, none, some (17 / 4)]).bind Created.decode) = .ok .equal := by
  refine ⟨?_, by decide +kernel, by decide +kernel, by decide +kernel⟩
  intro e he x hx
  simp only [denseEntries, exColumn, List.zipIdx_cons, List.zipIdx_nil, List.map_cons, List.map_nil, List.mem_cons, List.not_mem_nil, or_false] at he
  rcases he with rfl | rfl | rfl | rfl | rfl | rfl | rfl | rfl <;> cases hx <;> decide +kernel

/-- **C69**, ordinal features of a dense matrix: additionally, the values of the vector are sorted. -/
theorem ordinalDense_correct {order sort : List Int → List Int} {column : List FVal} (ho : IsOrder order) (hs : IsSort sort)
    (hr : InRange (denseEntries column)) (hlen : column.length < 2 ^ 32) :
    ∃ c, ordinalDense order sort column = .ok c ∧ c.Correct .ordinal (denseEntries column) ∧ c.Frequent (denseEntries column) := by
  obtain ⟨m, h1, h2, h3⟩ := createMapping_ok hr
  obtain ⟨c, h4, h5⟩ := ordinal_dense ho hs hr (denseEntries_nodup column) (by rw [denseEntries_length]; exact hlen) h2 0
  refine ⟨c, ?_, h5⟩
  unfold ordinalDense
  rw [h1, ok_bind, h3]
  exact h4

example : ((ordinalDense List.reverse (List.insertionSort (· ≤ ·)) exColumn).bind Created.decode) =
    .ok (.nominal .ordinal [(-3, [4]), (2, [5, 2]), (7, [7])] 1 [1]) := by
  decide +kernel

theorem sameValue_ok {isEqual : Rat → Rat → Bool} {l : List (Nat × Rat)} (hne : 0 < l.length) :
    ∃ a ∈ l, ∃ b ∈ l, sameValue isEqual l = .ok (isEqual a.2 b.2) ∧ (Search.SortedEntries l → ∀ e ∈ l, a.2 ≤ e.2 ∧ e.2 ≤ b.2) := by
  have hlast : l.length - 1 < l.length := by omega
  refine ⟨l[0], List.getElem_mem hne, l[l.length - 1], List.getElem_mem hlast, ?_, fun hs e he => ?_⟩
  · unfold sameValue
    rw [readAt_of_getElem? (List.getElem?_eq_getElem hne), ok_bind, readAt_of_getElem? (List.getElem?_eq_getElem hlast), ok_bind]
    rfl
  · obtain ⟨i, hi, rfl⟩ := List.getElem_of_mem he
    unfold Search.SortedEntries at hs
    rw [List.pairwise_iff_getElem] at hs
    constructor
    · by_cases h : i = 0
      · subst h
        exact Rat.le_refl
      · exact hs 0 i hne hi (by omega)
    · by_cases h : i = l.length - 1
      · subst h
        exact Rat.le_refl
      · exact hs i (l.length - 1) hi hlast (by omega)

/-- **C69**, numerical features of a dense matrix. -/
theorem numericalDense_correct {isEqual : Rat → Rat → Bool} {sort : List (Nat × Rat) → List (Nat × Rat)} {column : List FVal} (hs : IsValueSort sort) :
    ∃ v, numericalDense isEqual sort column = .ok v ∧ NumericalCorrect isEqual (denseEntries column) 0 v := by
  obtain ⟨hp, hsorted⟩ := hs (present (denseEntries column))
  unfold numericalDense
  rw [createNumerical_ok (denseEntries_nodup column), ok_bind]
  simp only
  by_cases hne : (sort (present (denseEntries column))).length > 0
  · simp only [hne, decide_true]
    obtain ⟨a, ha, b, hb, h1, h2⟩ := sameValue_ok (isEqual := isEqual) hne
    rw [h1, ok_bind]
    by_cases he : isEqual a.2 b.2 = true
    · rw [if_pos he]
      exact ⟨_, rfl, Or.inr ⟨a, hp.mem_iff.1 ha, b, hp.mem_iff.1 hb, he, fun e hee => h2 hsorted e (hp.mem_iff.2 hee)⟩⟩
    · rw [if_neg he]
      refine ⟨_, rfl, List.ne_nil_of_length_pos hne, hsorted, List.Perm.refl _, rfl, [], ?_, fun _ => ⟨rfl, a, hp.mem_iff.1 ha, b, hp.mem_iff.1 hb, by simpa using he⟩⟩
      unfold numericalExamples
      simpa using hp
  · simp only [hne, decide_false]
    refine ⟨_, rfl, Or.inl (fun e he => ?_)⟩
    have := hp.length_eq
    rw [show present (denseEntries column) = [] from List.length_eq_zero_iff.1 (by omega)] at he
    simp at he

example : numericalDense (· == ·) (List.insertionSort (fun a b => a.2 ≤ b.2)) exColumn =
    .ok (.numerical [(4, -3), (0, 1), (3, 1), (6, 1), (2, 2), (5, 5 / 2), (7, 7)] 0 false [1]) := by
  decide +kernel

/-! ### Sparse matrices -/

/-- **C69**, nominal features of a sparse matrix. What is missing: if values are not stored, none of the values that are stored must be the sparse value. See
`nominalCsc_uninitialised` and `binaryCsc_wrong`. -/
theorem nominalCsc_correct_partial {order : List Int → List Int} {entries : List Entry} {numRows : Nat} {x : Rat} (ho : IsOrder order)
    (hv : ValidCsc entries numRows) (hr : InRange entries) (hx : -2 ^ 31 ≤ category x ∧ category x < 2 ^ 31) (hlen : numRows < 2 ^ 32)
    (hd : entries.length < numRows → Distinct entries x) :
    ∃ c, nominalCsc order entries numRows (some x) = .ok c ∧ c.Correct .nominal (cscColumn entries numRows (some x)) ∧
      (numRows ≤ entries.length → c.Frequent (cscColumn entries numRows (some x))) := by
  obtain ⟨m, h1, h2, h3⟩ := createMapping_ok hr
  unfold nominalCsc
  rw [h1, ok_bind, cast_ok hx, ok_bind, h3]
  by_cases hlt : entries.length < numRows
  · simp only [hlt, decide_true, if_true]
    obtain ⟨c, h4, h5⟩ := nominal_sparse ho hr hv.nodup (by omega) h2 (agree_csc hv x) (fun hc => by
      obtain ⟨i, y, hy, e⟩ := mem_vals.1 hc
      exact hd hlt i y hy e)
    exact ⟨c, h4, h5, fun h => by omega⟩
  · simp only [hlt, decide_false, if_false]
    have hle : entries.length ≤ numRows := by
      have := (List.subperm_of_subset hv.nodup (l₂ := List.range numRows) (fun i hi => by
        obtain ⟨e, he, rfl⟩ := List.mem_map.1 hi
        exact List.mem_range.2 (hv.lt e he))).length_le
      simpa using this
    obtain ⟨c, h4, h5, h6⟩ := nominal_dense ho hr hv.nodup (by omega) h2 (category x)
    have hp := cscColumn_full hv (by omega) (some x)
    exact ⟨c, h4, h5.perm hp, fun _ => h6.perm hp⟩

/-- Rows 0, 2, and 5 have the value 0, which is not stored. -/
example : ValidCsc [(1, some 3), (3, none), (4, some 1), (6, some 3)] 7 ∧ Distinct [(1, some 3), (3, none), (4, some 1), (6, some 3)] 0 ∧
    ((nominalCsc id [(1, some 3), (3, none), (4, some 1), (6, some 3)] 7 (some 0)).bind Created.decode) =
      .ok (.nominal .nominal [(3, [6, 1]), (1, [4])] 0 [3]) := by
  refine ⟨⟨by decide, by decide⟩, ?_, by decide +kernel⟩
  intro i x h
  simp only [List.mem_cons, Prod.mk.injEq, Option.some.injEq, reduceCtorEq, and_false, List.not_mem_nil, or_false, false_or] at h
  rcases h with ⟨-, rfl⟩ | ⟨-, rfl⟩ | ⟨-, rfl⟩ <;> decide +kernel

/-- **C69**, ordinal features of a sparse matrix, under the same condition. -/
theorem ordinalCsc_correct_partial {order sort : List Int → List Int} {entries : List Entry} {numRows : Nat} {x : Rat} (ho : IsOrder order) (hs : IsSort sort)
    (hv : ValidCsc entries numRows) (hr : InRange entries) (hx : -2 ^ 31 ≤ category x ∧ category x < 2 ^ 31) (hlen : numRows < 2 ^ 32)
    (hd : entries.length < numRows → Distinct entries x) :
    ∃ c, ordinalCsc order sort entries numRows (some x) = .ok c ∧ c.Correct .ordinal (cscColumn entries numRows (some x)) ∧
      (numRows ≤ entries.length → c.Frequent (cscColumn entries numRows (some x))) := by
  obtain ⟨m, h1, h2, h3⟩ := createMapping_ok hr
  unfold ordinalCsc
  rw [h1, ok_bind, cast_ok hx, ok_bind, h3]
  by_cases hlt : entries.length < numRows
  · simp only [hlt, decide_true, if_true]
    obtain ⟨c, h4, h5⟩ := ordinal_sparse ho hs hr hv.nodup (by omega) h2 (agree_csc hv x) (fun hc => by
      obtain ⟨i, y, hy, e⟩ := mem_vals.1 hc
      exact hd hlt i y hy e)
    exact ⟨c, h4, h5, fun h => by omega⟩
  · simp only [hlt, decide_false, if_false]
    have hle : entries.length ≤ numRows := by
      have := (List.subperm_of_subset hv.nodup (l₂ := List.range numRows) (fun i hi => by
        obtain ⟨e, he, rfl⟩ := List.mem_map.1 hi
        exact List.mem_range.2 (hv.lt e he))).length_le
      simpa using this
    obtain ⟨c, h4, h5, h6⟩ := ordinal_dense ho hs hr hv.nodup (by omega) h2 (category x)
    have hp := cscColumn_full hv (by omega) (some x)
    exact ⟨c, h4, h5.perm hp, fun _ => h6.perm hp⟩

example : ((ordinalCsc id (List.insertionSort (· ≤ ·)) [(1, some 3), (3, none), (4, some 1), (6, some 3)] 7 (some 0)).bind Created.decode) =
      .ok (.nominal .ordinal [(1, [4]), (3, [6, 1])] 0 [3]) := by
  decide +kernel

/-- **C69**, numerical features of a sparse matrix. -/
theorem numericalCsc_correct {isEqual : Rat → Rat → Bool} {sort : List (Nat × Rat) → List (Nat × Rat)} {entries : List Entry} {numRows : Nat} {x : Rat}
    (hs : IsValueSort sort) (hv : ValidCsc entries numRows) :
    ∃ v, numericalCsc isEqual sort entries numRows x = .ok v ∧ NumericalCorrect isEqual (cscColumn entries numRows (some x)) x v := by
  obtain ⟨hp, hsorted⟩ := hs (present entries)
  have hmiss : (absent entries).Perm (absent (cscColumn entries numRows (some x))) := (agree_csc hv x).missing
  have hperm := csc_present hv x
  unfold numericalCsc
  rw [createNumerical_ok hv.nodup, ok_bind]
  simp only
  by_cases hne : (sort (present entries)).length > 0
  · simp only [hne, decide_true]
    by_cases hlt : (sort (present entries)).length < numRows
    · simp only [hlt, decide_true]
      exact ⟨_, rfl, List.ne_nil_of_length_pos hne, hsorted, hmiss, rfl, _, (hp.append_right _).trans hperm, fun h => by simp at h⟩
    · simp only [hlt, decide_false]
      obtain ⟨a, ha, b, hb, h1, h2⟩ := sameValue_ok (isEqual := isEqual) hne
      have hfull : (present entries).Perm (present (cscColumn entries numRows (some x))) := by
        refine present_perm (cscColumn_full hv ?_ (some x))
        have := List.length_filterMap_le (fun e : Entry => e.2.map (fun y => (e.1, y))) entries
        have h' := hp.length_eq
        unfold present at h' hlt
        omega
      have hp' := hp.trans hfull
      rw [h1, ok_bind]
      by_cases he : isEqual a.2 b.2 = true
      · rw [if_pos he]
        exact ⟨_, rfl, Or.inr ⟨a, hp'.mem_iff.1 ha, b, hp'.mem_iff.1 hb, he, fun e hee => h2 hsorted e (hp'.mem_iff.2 hee)⟩⟩
      · rw [if_neg he]
        refine ⟨_, rfl, List.ne_nil_of_length_pos hne, hsorted, hmiss, rfl, [], ?_, fun _ => ⟨rfl, a, hp'.mem_iff.1 ha, b, hp'.mem_iff.1 hb, by simpa using he⟩⟩
        unfold numericalExamples
        simpa using hp'
  · simp only [hne, decide_false]
    refine ⟨_, rfl, Or.inl (fun e he => ?_)⟩
    have := hp.length_eq
    rw [show present entries = [] from List.length_eq_zero_iff.1 (by omega)] at hperm
    have he' := hperm.mem_iff.2 he
    simp only [List.nil_append, List.mem_map] at he'
    obtain ⟨i, -, rfl⟩ := he'
    rfl

example : numericalCsc (· == ·) (List.insertionSort (fun a b => a.2 ≤ b.2)) [(1, some 3), (3, none), (4, some (-1)), (6, some 3)] 7 0 =
    .ok (.numerical [(4, -1), (1, 3), (6, 3)] 0 true [3]) := by
  decide +kernel

/-! ### Refinements for the values of a column -/

section Refinements

variable {M : Type} [AddCommGroup M]

theorem Start_perm {cfg : Config M} {a b : List (Nat × Rat)} {subset : Subset M} (h : Start cfg a subset) (hp : a.Perm b) : Start cfg b subset := by
  have hw : (Search.weighted cfg.nonZero a).Perm (Search.weighted cfg.nonZero b) := (hp.map _).filter _
  refine ⟨(hp.map _).nodup_iff.1 h.nodup, ?_, h.size, h.sum, h.acc, ?_⟩
  · rw [h.numExamples, hw.length_eq]
  · rw [h.total]
    exact (hw.map _).sum_eq

theorem Sound_perm {cfg : Config M} {a b : List (Nat × Rat)} {slice : Nat → Nat → List Nat} {c : Search.Candidate M} (h : Sound cfg a slice c) (hp : a.Perm b) :
    Sound cfg b slice c := by
  have hw : (Search.weighted cfg.nonZero (a.filter (fun x => c.comparator.holds c.threshold x.2))).Perm
      (Search.weighted cfg.nonZero (b.filter (fun x => c.comparator.holds c.threshold x.2))) := ((hp.filter _).map _).filter _
  refine ⟨h.minCoverage, ?_, ?_, fun x hx => h.covers x (hp.mem_iff.2 hx)⟩
  · rw [h.count, hw.length_eq]
  · rw [h.stats]
    exact (hw.map _).sum_eq

/-- **C69**, composition with C28: searching for refinements, given a vector that has been created from a column with nominal values, results in candidates that are
sound with respect to the values in the column. -/
theorem created_nominal_search {column : List Entry} {c : Created} {bins : List (Int × List Nat)} {mv : Int} {missing : List Nat} {cfg : Config M} {subset : Subset M}
    (hc : c.Correct .nominal column) (hd : c.decode = .ok (.nominal .nominal bins mv missing)) (hU : Start cfg (categories column) subset) :
    ∃ r, searchNominal cfg bins mv subset = .ok r ∧ ∀ a ∈ r, Sound cfg (categories column) (binSlice bins) a := by
  obtain ⟨v, h1, h2⟩ := hc
  rw [hd] at h1
  injection h1 with h1
  subst h1
  obtain ⟨⟨⟨remaining, g1⟩, g2, g3, g4⟩, h3, h4⟩ := h2
  obtain ⟨r, k1, k2⟩ := Search.nominal_sound (Start_perm hU g1.symm) g3 (by
    rcases h3 with ⟨h, -⟩ | ⟨-, h⟩
    · simp at h
    · rintro rfl
      simp at h)
  exact ⟨r, k1, fun a ha => Sound_perm (k2 a ha) g1⟩

/-- **C69**, composition with C28: the same for binary values. -/
theorem created_binary_search {column : List Entry} {c : Created} {kind : NominalKind} {bins : List (Int × List Nat)} {mv : Int} {missing : List Nat}
    {cfg : Config M} {subset : Subset M} (hk : kind ≠ .binary) (hc : c.Correct kind column) (hd : c.decode = .ok (.nominal .binary bins mv missing))
    (hU : Start cfg (categories column) subset) :
    ∃ r, searchBinary cfg bins mv subset = .ok r ∧ ∀ a ∈ r, Sound cfg (categories column) (binSlice bins) a := by
  obtain ⟨v, h1, h2⟩ := hc
  rw [hd] at h1
  injection h1 with h1
  subst h1
  obtain ⟨⟨⟨remaining, g1⟩, g2, g3, g4⟩, h3, h4⟩ := h2
  have hlen : bins.length = 1 := by
    rcases h3 with ⟨-, h⟩ | ⟨h, -⟩
    · exact h
    · exact absurd h.symm hk
  obtain ⟨⟨v, indices⟩, rfl⟩ := List.length_eq_one_iff.1 hlen
  obtain ⟨r, k1, k2⟩ := Search.binary_sound (Start_perm hU g1.symm) (by
    simp only [List.map_cons, List.map_nil, List.nodup_cons, List.mem_singleton] at g3
    exact fun e => g3.1 e.symm)
  exact ⟨r, k1, fun a ha => Sound_perm (k2 a ha) g1⟩

/-- **C69**, composition with C29: the same for ordinal values if all examples have non-zero weights. -/
theorem created_ordinal_search {column : List Entry} {c : Created} {bins : List (Int × List Nat)} {mv : Int} {missing : List Nat} {cfg : Config M} {subset : Subset M}
    (hc : c.Correct .ordinal column) (hd : c.decode = .ok (.nominal .ordinal bins mv missing)) (hU : Start cfg (categories column) subset)
    (hw : ∀ e ∈ categories column, cfg.nonZero e.1 = true) :
    ∃ r, searchOrdinal cfg bins mv subset = .ok r ∧ ∀ a ∈ r.all, Sound cfg (categories column) (binSlice bins) a := by
  obtain ⟨v, h1, h2⟩ := hc
  rw [hd] at h1
  injection h1 with h1
  subst h1
  obtain ⟨⟨⟨remaining, g1⟩, g2, g3, g4⟩, h3, h4⟩ := h2
  have hnz : ∀ b ∈ bins, b.2.filter cfg.nonZero ≠ [] := by
    intro b hb
    obtain ⟨i, hi⟩ := List.exists_mem_of_ne_nil _ (g4 b hb)
    have : (i, (b.1 : Rat)) ∈ categories column := by
      refine g1.mem_iff.1 ?_
      unfold nominalExamples
      rw [List.mem_append, List.mem_flatMap]
      exact Or.inl ⟨b, hb, List.mem_map_of_mem hi⟩
    exact List.ne_nil_of_mem (List.mem_filter.2 ⟨hi, hw _ this⟩)
  obtain ⟨r, k1, k2⟩ := Search.ordinal_sound_partial (Start_perm hU g1.symm) (by
    rw [List.nodup_cons] at g3
    refine ⟨?_, fun b hb e => g3.1 (e ▸ List.mem_map_of_mem hb)⟩
    have := h4 rfl
    rwa [List.pairwise_map] at this) (by
    rcases h3 with ⟨h, -⟩ | ⟨-, h⟩
    · simp at h
    · rintro rfl
      simp at h) (fun b hb _ => hnz b (List.mem_of_mem_head? hb)) (fun b hb _ => hnz b (List.mem_of_getLast? hb))
  exact ⟨r, k1, fun a ha => Sound_perm (k2 a ha) g1⟩

end Refinements

/-- The search for refinements of a rule that covers all examples with the values in `exColumn`. -/
example : (nominalDense id exColumn).bind Created.decode = .ok (.nominal .nominal [(2, [5, 2]), (-3, [4]), (7, [7])] 1 [1]) ∧
    Start (M := Int) ⟨fun _ => true, fun e => 10 ^ e, (· == ·), 7, 1⟩ (categories (denseEntries exColumn)) ⟨0, none, 11111101⟩ :=
  ⟨by decide +kernel, by decide +kernel, by decide +kernel, by decide +kernel, rfl, rfl, by decide +kernel⟩

/-! ### Values that are stored although they are the sparse value -/

/-- **C69**, negation: if the sparse value 0 is stored for some of the examples, there is one value too many. The last element of the array of values is not
initialised, and the last bin but one does not have an end. -/
theorem nominalCsc_uninitialised :
    ((nominalCsc id [(0, some 0), (1, some 1), (2, some 2)] 5 (some 0)).bind Created.decode) = .error .uninitialised := by
  decide +kernel

/-- **C69**, negation: for ordinal features, an array that is not initialised entirely is sorted. -/
theorem ordinalCsc_uninitialised (sort : List Int → List Int) :
    ordinalCsc id sort [(0, some 0), (1, some 1), (2, some 2)] 5 (some 0) = .error .uninitialised := by
  unfold ordinalCsc createOrdinalFor createOrdinal
  rfl

/-- **C69**, negation: if all values that are stored are the sparse value 0, a binary feature vector with the same minority and majority value is created, although
all examples have the same value. -/
theorem binaryCsc_wrong :
    (nominalCsc id [(1, some 0)] 3 (some 0)).bind Created.decode = .ok (.nominal .binary [(0, [1])] 0 []) ∧
      ¬ Represents (cscColumn [(1, some 0)] 3 (some 0)) [(0, [1])] 0 [] :=
  ⟨by decide +kernel, fun h => absurd h.values (by decide)⟩

/-- **C69**, negation: if the sparse value is NaN, it is converted into an integer, even if it is not used. -/
theorem nominalCsc_badCast {order : List Int → List Int} {entries : List Entry} {numRows : Nat} (hr : InRange entries) :
    nominalCsc order entries numRows none = .error .badCast := by
  obtain ⟨m, h1, h2, h3⟩ := createMapping_ok hr
  unfold nominalCsc
  rw [h1, ok_bind]
  rfl

end MLRL.FeatureType
