import Verif.Model.DataSets
import Mathlib.Data.List.Range

/-! # Auxiliary lemmas on loading and saving data sets -/

namespace MLRL.DataSets

section
variable {V : Type} [Zero V] [DecidableEq V]

theorem assign_append (row pre post : List V) (p n : Nat) (hp : p + n = pre.length) :
    ((row.zipIdx n).filter fun q => decide (q.1 ≠ 0)).foldl (fun d q => d.set (p + q.2) q.1)
        (pre ++ (List.replicate row.length 0 ++ post))
      = pre ++ (row ++ post) := by
  induction row generalizing pre n with
  | nil => simp
  | cons v row ih =>
    have hrep : List.replicate (v :: row).length (0 : V) = 0 :: List.replicate row.length 0 := rfl
    rw [List.zipIdx_cons, hrep]
    have ih' := ih (pre ++ [v]) (n + 1) (by simp; omega)
    by_cases hv : v = 0
    · rw [List.filter_cons_of_neg (by simp [hv])]
      subst hv
      simpa using ih'
    · rw [List.filter_cons_of_pos (by simpa using hv), List.foldl_cons]
      have hset : (pre ++ (0 :: List.replicate row.length 0 ++ post)).set (p + n) v
          = (pre ++ [v]) ++ (List.replicate row.length 0 ++ post) := by
        rw [hp, List.set_append_right _ _ (le_refl _)]
        simp
      simp only [hset]
      simpa using ih'

theorem assign_items (row pre post : List V) :
    assign (pre ++ (List.replicate row.length 0 ++ post)) pre.length (items row) = pre ++ (row ++ post) := by
  unfold assign items
  rw [List.foldl_map]
  exact assign_append row pre post pre.length 0 (by simp)

theorem mem_items (row : List V) (i : Nat) (v : V) : (i, v) ∈ items row ↔ row[i]? = some v ∧ v ≠ 0 := by
  unfold items
  simp only [List.mem_map, List.mem_filter, decide_eq_true_eq, Prod.mk.injEq]
  constructor
  · rintro ⟨⟨v', i'⟩, ⟨h1, h2⟩, rfl, rfl⟩
    exact ⟨List.mem_zipIdx_iff_getElem?.1 h1, h2⟩
  · rintro ⟨h1, h2⟩
    exact ⟨(v, i), ⟨List.mem_zipIdx_iff_getElem?.2 h1, h2⟩, rfl, rfl⟩

omit [DecidableEq V] in
theorem mem_entries (rows : List (List (Nat × V))) (r c : Nat) (v : V) :
    (r, c, v) ∈ entries rows ↔ ∃ row, rows[r]? = some row ∧ (c, v) ∈ row := by
  unfold entries
  simp only [List.mem_flatMap, List.mem_map, Prod.mk.injEq]
  constructor
  · rintro ⟨⟨row, r'⟩, h1, ⟨c', v'⟩, h2, rfl, rfl, rfl⟩
    exact ⟨row, List.mem_zipIdx_iff_getElem?.1 h1, h2⟩
  · rintro ⟨row, h1, h2⟩
    exact ⟨(row, r), List.mem_zipIdx_iff_getElem?.2 h1, (c, v), h2, rfl, rfl, rfl⟩

omit [DecidableEq V] in
theorem lookup_eq (es : List (Nat × Nat × V)) (r c : Nat) (v : V) (h1 : ∀ v', (r, c, v') ∈ es → v' = v)
    (h2 : v ≠ 0 → (r, c, v) ∈ es) : lookup es r c = v := by
  induction es with
  | nil =>
    by_contra h
    exact absurd (h2 (fun hv => h (by simp [lookup, hv]))) (by simp)
  | cons e es ih =>
    obtain ⟨r', c', v'⟩ := e
    simp only [lookup]
    by_cases h : r' = r ∧ c' = c
    · rw [if_pos h]
      obtain ⟨rfl, rfl⟩ := h
      exact h1 v' (by simp)
    · rw [if_neg h]
      refine ih (fun w hw => h1 w (by simp [hw])) (fun hv => ?_)
      rcases List.mem_cons.1 (h2 hv) with h3 | h3
      · simp only [Prod.mk.injEq] at h3
        exact absurd ⟨h3.1.symm, h3.2.1.symm⟩ h
      · exact h3

theorem maxIndex_ok (l : List Nat) (m : Nat) (hm : m ∈ l) (hle : ∀ i ∈ l, i ≤ m) : maxIndex l = .ok m := by
  cases l with
  | nil => simp at hm
  | cons a l =>
    simp only [maxIndex]
    congr 1
    have hub : ∀ (l : List Nat) (a : Nat), a ≤ m → (∀ i ∈ l, i ≤ m) → l.foldl max a ≤ m := by
      intro l
      induction l with
      | nil => intro a ha _; exact ha
      | cons b l ih =>
        intro a ha hl
        exact ih _ (Nat.max_le.2 ⟨ha, hl b (by simp)⟩) (fun i hi => hl i (by simp [hi]))
    have hlb0 : ∀ (l : List Nat) (a : Nat), a ≤ l.foldl max a := by
      intro l
      induction l with
      | nil => intro a; exact le_refl _
      | cons b l ih => intro a; exact le_trans (Nat.le_max_left a b) (ih _)
    have hlb : ∀ (l : List Nat) (a : Nat), ∀ i ∈ l, i ≤ l.foldl max a := by
      intro l
      induction l with
      | nil => intro a i hi; simp at hi
      | cons b l ih =>
        intro a i hi
        rcases List.mem_cons.1 hi with rfl | hi
        · exact le_trans (Nat.le_max_right a i) (hlb0 l _)
        · exact ih _ i hi
    apply le_antisymm
    · exact hub l a (hle a (by simp)) (fun i hi => hle i (by simp [hi]))
    · rcases List.mem_cons.1 hm with rfl | hm
      · exact hlb0 l m
      · exact hlb l a m hm

theorem maxIndex_error (l : List Nat) (h : l = []) : maxIndex l = .error .value := by subst h; rfl

/-- Whether a row of a sparse file stores the non-zero elements of a given row. -/
def Stores (row : List (Nat × V)) (z : List V) : Prop := ∀ c v, (c, v) ∈ row ↔ z[c]? = some v ∧ v ≠ 0

theorem stores_append (a b : List V) :
    Stores ((items a).map (fun q => (0 + q.1, q.2)) ++ (items b).map fun q => (a.length + q.1, q.2)) (a ++ b) := by
  intro c v
  rw [List.mem_append, List.mem_map, List.mem_map]
  constructor
  · rintro (⟨⟨i, w⟩, h, he⟩ | ⟨⟨i, w⟩, h, he⟩)
    · simp only [Prod.mk.injEq] at he
      obtain ⟨rfl, rfl⟩ := he
      rw [mem_items] at h
      refine ⟨?_, h.2⟩
      have hlt : i < a.length := by
        by_contra hc
        rw [List.getElem?_eq_none (by omega)] at h
        simp at h
      rw [Nat.zero_add, List.getElem?_append_left hlt]
      exact h.1
    · simp only [Prod.mk.injEq] at he
      obtain ⟨rfl, rfl⟩ := he
      rw [mem_items] at h
      refine ⟨?_, h.2⟩
      rw [List.getElem?_append_right (by omega), Nat.add_sub_cancel_left]
      exact h.1
  · rintro ⟨h, hv⟩
    by_cases hc : c < a.length
    · rw [List.getElem?_append_left hc] at h
      exact Or.inl ⟨(c, v), (mem_items a c v).2 ⟨h, hv⟩, by simp⟩
    · rw [List.getElem?_append_right (by omega)] at h
      exact Or.inr ⟨(c - a.length, v), (mem_items b _ v).2 ⟨h, hv⟩, by simp; omega⟩

/-- Whether `R` and `C` are the numbers of rows and columns that remain if trailing rows and columns that contain only
zeros are removed (specification). -/
structure Trimmed (zs : List (List V)) (R C : Nat) : Prop where
  row : ∃ (i j : Nat) (v : V), R = i + 1 ∧ ((zs[i]?).bind fun z => z[j]?) = some v ∧ v ≠ 0
  rows : ∀ (i j : Nat) (v : V), ((zs[i]?).bind fun z => z[j]?) = some v → v ≠ 0 → i < R
  col : ∃ (i j : Nat) (v : V), C = j + 1 ∧ ((zs[i]?).bind fun z => z[j]?) = some v ∧ v ≠ 0
  cols : ∀ (i j : Nat) (v : V), ((zs[i]?).bind fun z => z[j]?) = some v → v ≠ 0 → j < C

theorem loadMatrix_sparse (rows : List (List (Nat × V))) (zs : List (List V)) (n N R C : Nat)
    (hlen : rows.length = zs.length) (hst : ∀ (i : Nat) (h : i < rows.length) (h' : i < zs.length), Stores rows[i] zs[i])
    (hn : ∀ z ∈ zs, z.length = n) (ht : Trimmed zs R C) :
    loadMatrix (.sparse rows) N = .ok ⟨C, (zs.take R).map fun z => z.take C⟩ := by
  have hmem : ∀ r c v, (r, c, v) ∈ entries rows ↔ ((zs[r]?).bind fun z => z[c]?) = some v ∧ v ≠ 0 := by
    intro r c v
    rw [mem_entries]
    by_cases hr : r < rows.length
    · have hr' : r < zs.length := hlen ▸ hr
      rw [List.getElem?_eq_getElem hr, List.getElem?_eq_getElem hr']
      simp only [Option.some.injEq, exists_eq_left', Option.bind_some]
      exact hst r hr hr' c v
    · rw [List.getElem?_eq_none (by omega), List.getElem?_eq_none (by omega)]
      simp
  have hr : maxIndex ((entries rows).map fun e => e.1) = .ok (R - 1) := by
    obtain ⟨i, j, v, hR, h1, h2⟩ := ht.row
    apply maxIndex_ok
    · exact List.mem_map.2 ⟨(i, j, v), (hmem i j v).2 ⟨h1, h2⟩, by simp [hR]⟩
    · intro k hk
      obtain ⟨⟨a, b, w⟩, h, rfl⟩ := List.mem_map.1 hk
      have := (hmem a b w).1 h
      have := ht.rows a b w this.1 this.2
      simp only
      omega
  have hc : maxIndex ((entries rows).map fun e => e.2.1) = .ok (C - 1) := by
    obtain ⟨i, j, v, hC, h1, h2⟩ := ht.col
    apply maxIndex_ok
    · exact List.mem_map.2 ⟨(i, j, v), (hmem i j v).2 ⟨h1, h2⟩, by simp [hC]⟩
    · intro k hk
      obtain ⟨⟨a, b, w⟩, h, rfl⟩ := List.mem_map.1 hk
      have := (hmem a b w).1 h
      have := ht.cols a b w this.1 this.2
      simp only
      omega
  obtain ⟨i0, j0, v0, hR, h1, _⟩ := ht.row
  obtain ⟨i1, j1, v1, hC, h2, _⟩ := ht.col
  have hRle : R ≤ zs.length := by
    by_contra hh
    rw [List.getElem?_eq_none (by omega)] at h1
    simp at h1
  have hCle : C ≤ n := by
    by_contra hh
    cases hz : zs[i1]? with
    | none => rw [hz] at h2; simp at h2
    | some z =>
      rw [hz, Option.bind_some] at h2
      have := hn z (List.mem_of_getElem? hz)
      rw [List.getElem?_eq_none (by omega)] at h2
      simp at h2
  simp only [loadMatrix, hr, hc]
  have hR1 : R - 1 + 1 = R := by omega
  have hC1 : C - 1 + 1 = C := by omega
  rw [hR1, hC1]
  congr 2
  apply List.ext_getElem
  · simp; omega
  · intro i hi1 hi2
    have hiR : i < R := by simpa using hi1
    have hiz : i < zs.length := by omega
    have hzn : zs[i].length = n := hn _ (List.getElem_mem hiz)
    simp only [List.getElem_map, List.getElem_range, List.getElem_take]
    apply List.ext_getElem
    · simp; omega
    · intro j hj1 hj2
      have hjC : j < C := by simpa using hj1
      simp only [List.getElem_map, List.getElem_range, List.getElem_take]
      have hb : ((zs[i]?).bind fun z => z[j]?) = some (zs[i][j]'(by omega)) := by
        rw [List.getElem?_eq_getElem hiz, Option.bind_some, List.getElem?_eq_getElem (by omega)]
      apply lookup_eq
      · intro v' hv'
        have := ((hmem _ _ _).1 hv').1
        rw [hb] at this
        exact (Option.some.inj this).symm
      · intro hv
        exact (hmem _ _ _).2 ⟨hb, hv⟩

theorem loadMatrix_zero (rows : List (List (Nat × V))) (N : Nat) (h : ∀ r ∈ rows, r = []) :
    loadMatrix (.sparse rows) N = .error .value := by
  have : entries rows = [] := by
    unfold entries
    rw [List.flatMap_eq_nil_iff]
    rintro ⟨r, i⟩ hp
    rw [h r (List.fst_mem_of_mem_zipIdx hp)]
    rfl
  simp [loadMatrix, this, maxIndex]

theorem metaLoop_append (names : List Name) (a b : List (Name × AttrType)) (fs : List Feature) (s : Bool) :
    metaLoop names (a ++ b) fs s
      = match metaLoop names a fs s with
        | .error e => .error e
        | .ok (fs', s') => metaLoop names b fs' s' := by
  induction a generalizing fs s with
  | nil => rfl
  | cons x a ih =>
    simp only [List.cons_append, metaLoop]
    split
    · cases toFeature x with
      | error e => rfl
      | ok f => exact ih _ _
    · split
      · exact ih _ _
      · exact ih _ _

theorem metaLoop_features (names : List Name) (a : List (Name × AttrType)) (fs gs : List Feature) (s : Bool)
    (hn : ∀ x ∈ a, parseName x.1 ∉ names) (hf : a.map toFeature = gs.map .ok) :
    metaLoop names a fs s = .ok (fs ++ gs, s) := by
  induction a generalizing fs gs with
  | nil =>
    cases gs with
    | nil => simp [metaLoop]
    | cons g gs => simp at hf
  | cons x a ih =>
    cases gs with
    | nil => simp at hf
    | cons g gs =>
      simp only [List.map_cons, List.cons.injEq] at hf
      simp only [metaLoop]
      rw [if_pos (hn x (by simp)), hf.1]
      simp only
      rw [ih (fs ++ [g]) gs (fun y hy => hn y (by simp [hy])) hf.2]
      simp

theorem metaLoop_outputs (names : List Name) (a : List (Name × AttrType)) (fs : List Feature) (s : Bool)
    (hn : ∀ x ∈ a, parseName x.1 ∈ names) :
    metaLoop names a fs s = .ok (fs, s || (decide (fs = []) && decide (a ≠ []))) := by
  induction a generalizing s with
  | nil => simp [metaLoop]
  | cons x a ih =>
    simp only [metaLoop]
    rw [if_neg (by simpa using hn x (by simp))]
    cases fs with
    | nil => simp [ih _ (fun y hy => hn y (by simp [hy]))]
    | cons f fs => simp [ih _ (fun y hy => hn y (by simp [hy]))]

end

end MLRL.DataSets
