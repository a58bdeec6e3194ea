import Verif.Model.OneHotEncoding

/-!
# Lemmas about one-hot encoding
-/

namespace MLRL.OneHotEncoding

theorem mapM_ok {α β : Type} (f : α → Except Err β) (g : α → β) (l : List α) (h : ∀ a ∈ l, f a = .ok (g a)) :
    l.mapM f = .ok (l.map g) := by
  induction l with
  | nil => rfl
  | cons a l ih =>
    rw [List.mapM_cons, h a (by simp), ih (fun b hb => h b (by simp [hb]))]
    rfl

theorem mem_featureIndices (features : List FeatureType) (type : FeatureType) (j : Nat) :
    j ∈ featureIndices features type ↔ features[j]? = some type := by
  unfold featureIndices
  rw [List.mem_map]
  constructor
  · rintro ⟨⟨t, i⟩, h, rfl⟩
    rw [List.mem_filter] at h
    have h1 := List.mem_zipIdx_iff_getElem?.1 h.1
    have h2 : t = type := by simpa using h.2
    rw [← h2]
    exact h1
  · intro h
    exact ⟨(type, j), List.mem_filter.2 ⟨List.mem_zipIdx_iff_getElem?.2 h, by simp⟩, rfl⟩

theorem zipIdx_snd_nodup {α : Type} (l : List α) (n : Nat) : ((l.zipIdx n).map Prod.snd).Nodup := by
  rw [List.zipIdx_map_snd]
  exact List.nodup_range' _

theorem featureIndices_nodup (features : List FeatureType) (type : FeatureType) : (featureIndices features type).Nodup := by
  unfold featureIndices
  exact (List.Sublist.map Prod.snd List.filter_sublist).nodup (zipIdx_snd_nodup features 0)

theorem mem_insertUnique (v w : ℚ) (l : List ℚ) : w ∈ insertUnique v l ↔ w = v ∨ w ∈ l := by
  induction l with
  | nil => simp [insertUnique]
  | cons a l ih =>
    simp only [insertUnique]
    split
    · simp
    · split
      · rename_i h
        subst h
        simp
      · simp only [List.mem_cons, ih]
        tauto

theorem mem_unique (w : ℚ) (l : List ℚ) : w ∈ unique l ↔ w ∈ l := by
  unfold unique
  induction l with
  | nil => simp
  | cons a l ih => rw [List.foldr_cons, mem_insertUnique, ih, List.mem_cons]

theorem insertUnique_sorted (v : ℚ) (l : List ℚ) (h : l.Pairwise (· < ·)) : (insertUnique v l).Pairwise (· < ·) := by
  induction l with
  | nil => simp [insertUnique]
  | cons a l ih =>
    have h' := List.pairwise_cons.1 h
    simp only [insertUnique]
    split
    · rename_i hlt
      refine List.pairwise_cons.2 ⟨fun b hb => ?_, h⟩
      rcases List.mem_cons.1 hb with rfl | hb
      · exact hlt
      · exact lt_trans hlt (h'.1 b hb)
    · split
      · exact h
      · rename_i h1 h2
        refine List.pairwise_cons.2 ⟨fun b hb => ?_, ih h'.2⟩
        rcases (mem_insertUnique v b l).1 hb with rfl | hb
        · exact lt_of_le_of_ne (not_lt.1 h1) (fun e => h2 e.symm)
        · exact h'.1 b hb

theorem unique_sorted (l : List ℚ) : (unique l).Pairwise (· < ·) := by
  unfold unique
  induction l with
  | nil => simp
  | cons a l ih => exact insertUnique_sorted a _ ih

theorem unique_nodup (l : List ℚ) : (unique l).Nodup := (unique_sorted l).imp (fun h => ne_of_lt h)

theorem get_ok (row : List ℚ) (j : Nat) (h : j < row.length) : get row j = .ok (row.getD j 0) := by
  unfold get
  simp [h]

/-- The categories that are determined by `fit`. -/
def categoriesOf (x : Matrix) (indices : List Nat) : List (Nat × List ℚ) :=
  indices.map (fun index => (index, unique (x.map (fun row => row.getD index 0))))

theorem fit_ok (x : Matrix) (n : Nat) (indices : List Nat) (hne : x ≠ []) (hx : ∀ row ∈ x, row.length = n)
    (hi : ∀ i ∈ indices, i < n) : fit x indices = .ok { numFeatures := n, categories := categoriesOf x indices } := by
  have hm : indices.mapM (fun index => do
      let column ← x.mapM (fun row => get row index)
      (.ok (index, unique column) : Except Err (Nat × List ℚ))) = .ok (categoriesOf x indices) := by
    apply mapM_ok
    intro i hii
    rw [mapM_ok _ (fun row => row.getD i 0)]
    · rfl
    · intro row hrow
      exact get_ok row i (by rw [hx row hrow]; exact hi i hii)
  cases x with
  | nil => exact absurd rfl hne
  | cons first x =>
    have hf : first.length = n := hx first (by simp)
    simp only [fit]
    rw [hm, ← hf]
    rfl

/-- The remaining columns. -/
def remainderOf (n : Nat) (indices : List Nat) : List Nat := (List.range n).filter (fun index => index ∉ indices)

theorem transformRow_ok (n : Nat) (categories : List (Nat × List ℚ)) (row : List ℚ) (hr : row.length = n)
    (hi : ∀ c ∈ categories, c.1 < n) :
    transformRow { numFeatures := n, categories := categories } row =
      .ok ((categories.map (fun c => encodeValue c.2 (row.getD c.1 0))).flatten ++
        (remainderOf n (categories.map Prod.fst)).map (fun j => row.getD j 0)) := by
  have h1 : categories.mapM (fun column => do
      let value ← get row column.1
      (.ok (encodeValue column.2 value) : Except Err (List ℚ))) =
      .ok (categories.map (fun c => encodeValue c.2 (row.getD c.1 0))) := by
    apply mapM_ok
    intro c hc
    rw [get_ok row c.1 (by rw [hr]; exact hi c hc)]
    rfl
  have h2 : (remainderOf n (categories.map Prod.fst)).mapM (get row) =
      .ok ((remainderOf n (categories.map Prod.fst)).map (fun j => row.getD j 0)) := by
    apply mapM_ok
    intro j hj
    unfold remainderOf at hj
    rw [List.mem_filter, List.mem_range] at hj
    exact get_ok row j (by rw [hr]; exact hj.1)
  unfold transformRow
  rw [if_pos hr]
  simp only [h1]
  unfold remainderOf at h2
  simp only [hr, bind, Except.bind]
  rw [h2]
  rfl

end MLRL.OneHotEncoding
