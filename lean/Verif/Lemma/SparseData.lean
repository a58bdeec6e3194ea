import Verif.Spec.SparseData
import Verif.Lemma.TabularData
import Verif.Lemma.FeatureSpace

/-!
# Lemmas about sparse feature matrices
-/

namespace MLRL.SparseData

open FeatureSpace FeatureType TabularData

variable {v : SparseView} {element : Nat → Nat → FVal}

/-- A column (or row) can be read, and what is read stands for the elements of the matrix. -/
theorem slice_ok (h : Denotes v element) {i : Nat} (hi : i < v.numMajor) : ∃ (a b : Nat) (entries : List (Nat × FVal)),
    v.indptr[i]? = some a ∧ v.indptr[i + 1]? = some b ∧ v.slice i = .ok entries ∧ entries.length = b - a ∧ ValidCsc entries v.numMinor ∧
    (∀ j x, (j, x) ∈ entries → x = element i j ∧ ∃ p, a ≤ p ∧ p < b ∧ v.values[p]? = some x) ∧
    ∀ j < v.numMinor, (entries.lookup j).getD (some v.sparseValue) = element i j := by
  have hlen := h.indptr
  obtain ⟨a, ha⟩ : ∃ a, v.indptr[i]? = some a := ⟨_, List.getElem?_eq_getElem (by omega)⟩
  obtain ⟨b, hb⟩ : ∃ b, v.indptr[i + 1]? = some b := ⟨_, List.getElem?_eq_getElem (by omega)⟩
  obtain ⟨hab, hbl⟩ := h.ordered i a b ha hb
  have hvl := h.lengths
  refine ⟨a, b, ((v.indices.drop a).take (b - a)).zip ((v.values.drop a).take (b - a)), ha, hb, ?_, ?_, ?_⟩
  · unfold SparseView.slice
    rw [readAt_of_getElem? ha, ok_bind, readAt_of_getElem? hb, ok_bind, readRange_of_le hab hbl, ok_bind, readRange_of_le hab (by omega), ok_bind]
    rfl
  · simp only [List.length_zip, List.length_take, List.length_drop]
    omega
  have hfst : (((v.indices.drop a).take (b - a)).zip ((v.values.drop a).take (b - a))).map Prod.fst = (v.indices.drop a).take (b - a) := by
    rw [List.map_fst_zip]
    simp only [List.length_take, List.length_drop]
    omega
  have hget : ∀ p, ((v.indices.drop a).take (b - a))[p]? = if p < b - a then v.indices[a + p]? else none := by
    intro p
    rw [List.getElem?_take]
    split
    · rw [List.getElem?_drop]
    · rfl
  have hvalid : ValidCsc (((v.indices.drop a).take (b - a)).zip ((v.values.drop a).take (b - a))) v.numMinor := by
    refine ⟨?_, ?_⟩
    · rw [hfst, List.nodup_iff_getElem?_ne_getElem?]
      intro p q hpq hq
      have hq' : q < b - a := by simp only [List.length_take, List.length_drop] at hq; omega
      rw [hget, hget, if_pos (by omega), if_pos hq']
      exact h.distinct i a b ha hb (a + p) (a + q) (by omega) (by omega) (by omega)
    · rintro ⟨j, x⟩ he
      have := (List.of_mem_zip he).1
      exact h.minor j (List.mem_of_mem_drop (List.mem_of_mem_take this))
  have hmem : ∀ j x, (j, x) ∈ ((v.indices.drop a).take (b - a)).zip ((v.values.drop a).take (b - a)) →
      ∃ p, p < b - a ∧ v.indices[a + p]? = some j ∧ v.values[a + p]? = some x := by
    intro j x he
    obtain ⟨p, hp⟩ := List.mem_iff_getElem?.1 he
    rw [List.getElem?_zip_eq_some, List.getElem?_take, List.getElem?_take] at hp
    split at hp
    · rw [List.getElem?_drop, List.getElem?_drop] at hp
      exact ⟨p, by assumption, hp⟩
    · cases hp.1
  have hmem' : ∀ j x, (j, x) ∈ ((v.indices.drop a).take (b - a)).zip ((v.values.drop a).take (b - a)) → x = element i j := by
    intro j x he
    obtain ⟨p, hp, h1, h2⟩ := hmem j x he
    have := h.stored i a b ha hb (a + p) j (by omega) (by omega) h1
    rw [h2] at this
    injection this
  refine ⟨hvalid, fun j x he => ⟨hmem' j x he, ?_⟩, ?_⟩
  · obtain ⟨p, hp, _, h2⟩ := hmem j x he
    exact ⟨a + p, by omega, by omega, h2⟩
  · intro j hj
    cases hl : (((v.indices.drop a).take (b - a)).zip ((v.values.drop a).take (b - a))).lookup j with
    | some x => exact hmem' j x ((lookup_iff hvalid.nodup).1 hl)
    | none =>
      refine (h.other i a b ha hb j hj (fun p hp1 hp2 hp => ?_)).symm
      have hv : p < v.values.length := by omega
      have : (j, v.values[p]) ∈ ((v.indices.drop a).take (b - a)).zip ((v.values.drop a).take (b - a)) := by
        rw [List.mem_iff_getElem?]
        refine ⟨p - a, ?_⟩
        rw [List.getElem?_zip_eq_some, List.getElem?_take, List.getElem?_take, if_pos (by omega), if_pos (by omega), List.getElem?_drop, List.getElem?_drop]
        rw [Nat.add_sub_cancel' hp1]
        exact ⟨hp, List.getElem?_eq_getElem hv⟩
      rw [(lookup_iff hvalid.nodup).2 this] at hl
      cases hl

theorem zipIdx_map_range {α : Type} (g : Nat → α) (n : Nat) : ((List.range n).map g).zipIdx = (List.range n).map (fun i => (g i, i)) := by
  refine List.ext_getElem (by simp) (fun i h1 h2 => ?_)
  simp

/-- What is read from a column stands for the column of a dense matrix. -/
theorem cscColumn_eq {entries : List Entry} {n : Nat} {sv : FVal} {column : Nat → FVal} (h : ∀ j < n, (entries.lookup j).getD sv = column j) :
    cscColumn entries n sv = denseEntries ((List.range n).map column) := by
  unfold cscColumn denseEntries
  rw [zipIdx_map_range, List.map_map]
  refine List.map_congr_left (fun i hi => ?_)
  simp [h i (List.mem_range.1 hi)]

/-- What is read from a row stands for the row of a dense matrix. -/
theorem toDense_eq {row : SparseRow} {n : Nat} {sv : FVal} {values : Nat → FVal} (h : ∀ j < n, (row.lookup j).getD sv = values j) :
    Body.Spec.toDense n row sv = (List.range n).map values := by
  unfold Body.Spec.toDense
  refine List.map_congr_left (fun i hi => ?_)
  rw [← h i (List.mem_range.1 hi)]
  clear h hi
  induction row with
  | nil => rfl
  | cons a row ih =>
    obtain ⟨j, x⟩ := a
    rw [List.find?_cons, List.lookup_cons]
    by_cases hj : j = i
    · subst hj
      simp
    · have : (i == j) = false := by simp [Ne.symm hj]
      simp only [hj, decide_false, this]
      exact ih

end MLRL.SparseData
