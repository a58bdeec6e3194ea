import Verif.Lemma.LabelCharacteristics
import Mathlib.Algebra.BigOperators.Group.List.Lemmas
import Mathlib.Algebra.Order.Field.Rat
import Mathlib.Algebra.Order.BigOperators.Group.List
import Mathlib.Data.Nat.Cast.Order.Field
import Mathlib.Data.List.Sort
import Mathlib.Tactic.FieldSimp
import Mathlib.Tactic.Linarith
import Mathlib.Tactic.NormNum
import Mathlib.Tactic.FinCases

/-!
# C107: Unique label vectors and characteristics of output matrices
-/

namespace MLRL.LabelCharacteristics

open MLRL.PythonOptions (Str PyError split)

/-! ## Unique label vectors -/

theorem frequencies_order {α : Type} [DecidableEq α] (l : List α) :
    l.eraseDups.Pairwise fun a b => l.idxOf a < l.idxOf b := by
  induction l using List.reverseRecOn with
  | nil => simp
  | append_singleton l x ih =>
    have hold : l.eraseDups.Pairwise fun a b => (l ++ [x]).idxOf a < (l ++ [x]).idxOf b := by
      refine List.Pairwise.imp_of_mem ?_ ih
      intro a b ha hb hab
      rw [List.idxOf_append_of_mem ((mem_eraseDups' l a).1 ha), List.idxOf_append_of_mem ((mem_eraseDups' l b).1 hb)]
      exact hab
    rw [eraseDups_snoc]
    split
    · exact hold
    · rename_i hx
      rw [List.pairwise_append]
      refine ⟨hold, by simp, ?_⟩
      intro a ha b hb
      rw [List.mem_singleton] at hb
      subst hb
      have ha' := (mem_eraseDups' l a).1 ha
      rw [List.idxOf_append_of_mem ha', List.idxOf_append_of_notMem hx]
      have := List.idxOf_lt_length_of_mem ha'
      omega

theorem frequencies_sum {α : Type} [DecidableEq α] (l : List α) :
    ((frequencies l).map fun p => p.2).sum = l.length := by
  rw [← List.sum_map_count_dedup_eq_length l, frequencies, List.map_map]
  apply List.Perm.sum_eq
  apply List.Perm.map
  rw [List.perm_ext_iff_of_nodup (nodup_eraseDups' l) (List.nodup_dedup l)]
  intro a
  rw [mem_eraseDups', List.mem_dedup]

theorem frequencies_spec {α : Type} [DecidableEq α] (l : List α) :
    ((frequencies l).map fun v => v.1).Nodup
    ∧ (∀ r, r ∈ ((frequencies l).map fun v => v.1) ↔ r ∈ l)
    ∧ (∀ v ∈ frequencies l, v.2 = (l.filter fun r => decide (r = v.1)).length)
    ∧ ((frequencies l).Pairwise fun v w => l.findIdx (fun r => decide (r = v.1)) < l.findIdx fun r => decide (r = w.1))
    ∧ ((frequencies l).map fun v => v.2).sum = l.length := by
  have hfst : ((frequencies l).map fun v => v.1) = l.eraseDups := by
    unfold frequencies
    rw [List.map_map]
    exact List.map_id _
  refine ⟨?_, ?_, ?_, ?_, frequencies_sum l⟩
  · rw [hfst]; exact nodup_eraseDups' l
  · intro r
    rw [hfst]; exact mem_eraseDups' l r
  · intro v hv
    obtain ⟨k, _, rfl⟩ := List.mem_map.1 hv
    show List.count k l = _
    rw [List.count, List.countP_eq_length_filter]
    rfl
  · rw [frequencies, List.pairwise_map]
    exact frequencies_order l

theorem labelVectors_eq (rows : List (List Nat)) :
    labelVectors rows = parseStrings ((frequencies rows).map fun p => (encode p.1, p.2)) := by
  have h := countStrings_eq [] rows
  rw [List.nil_append, frequencies_map encode encode_injective rows] at h
  rw [← h]
  rfl

/-- If at least one label is relevant to each example, each label vector that occurs in a data set is listed once,
together with the number of its occurrences. The label vectors are listed in the order of their first occurrence and the
frequencies sum up to the number of examples. -/
theorem labelVectors_ok (rows : List (List Nat)) (h : ∀ r ∈ rows, r ≠ []) :
    ∃ vs, labelVectors rows = .ok vs
      ∧ (vs.map fun v => v.1).Nodup
      ∧ (∀ r, r ∈ (vs.map fun v => v.1) ↔ r ∈ rows)
      ∧ (∀ v ∈ vs, v.2 = (rows.filter fun r => decide (r = v.1)).length)
      ∧ (vs.Pairwise fun v w => rows.findIdx (fun r => decide (r = v.1)) < rows.findIdx fun r => decide (r = w.1))
      ∧ (vs.map fun v => v.2).sum = rows.length := by
  have hs := frequencies_spec rows
  refine ⟨frequencies rows, ?_, hs⟩
  rw [labelVectors_eq]
  apply parseStrings_ok
  intro v hv
  exact h _ ((hs.2.1 v.1).1 (List.mem_map_of_mem hv))

/-- As soon as there is an example without any relevant labels, an exception is raised, because `int('')` is evaluated
(label_vectors.py:66). -/
theorem labelVectors_error (rows : List (List Nat)) (h : [] ∈ rows) : labelVectors rows = .error .valueError := by
  rw [labelVectors_eq]
  apply parseStrings_error
  obtain ⟨v, hv, hv'⟩ := List.mem_map.1 (((frequencies_spec rows).2.1 []).2 h)
  exact ⟨v, hv, hv'⟩

/-- The elements of the dense label vector that is shown. -/
theorem denseVector_get (numLabels : Nat) (labelVector : List Nat) :
    (denseVector numLabels labelVector).length = numLabels
    ∧ ∀ j, j < numLabels → (denseVector numLabels labelVector)[j]? = some (if j ∈ labelVector then 1 else 0) := by
  constructor
  · rw [denseVector, setRelevant_length, List.length_replicate]
  · intro j hj
    rw [denseVector, setRelevant_get _ _ _ (by simpa using hj)]
    simp

example : labelVectors [[0, 12], [3], [0, 12]] = .ok [([0, 12], 2), ([3], 1)] := rfl
example : labelVectors [[0, 12], []] = .error .valueError := rfl
example : denseVector 4 [1, 3] = [0, 1, 0, 1] := rfl
-- The strings of different label vectors differ, e.g., the labels `1` and `2` are not confused with the label `12`.
example : labelVectors [[1, 2], [12]] = .ok [([1, 2], 1), ([12], 1)] := rfl

/-! ## Characteristics -/

section
variable {V : Type} [Zero V] [DecidableEq V]

/-- The element in a certain column of a sparse row (specification). -/
def elementAt (r : List (Nat × V)) (j : Nat) : V :=
  match r.find? fun e => decide (e.1 = j) with
  | none => 0
  | some e => e.2

/-- The dense row that is represented by a sparse row (specification). -/
def toDense (cols : Nat) (r : List (Nat × V)) : List V := (List.range cols).map (elementAt r)

/-- The indices of a sparse row are distinct and valid and no zeros are stored explicitly. -/
structure WellFormed (cols : Nat) (r : List (Nat × V)) : Prop where
  nodup : (r.map fun e => e.1).Nodup
  lt : ∀ e ∈ r, e.1 < cols
  ne : ∀ e ∈ r, e.2 ≠ 0

theorem elementAt_ne_zero {cols : Nat} {r : List (Nat × V)} (h : WellFormed cols r) (j : Nat) :
    elementAt r j ≠ 0 ↔ j ∈ r.map fun e => e.1 := by
  unfold elementAt
  cases hf : r.find? fun e => decide (e.1 = j) with
  | none =>
    rw [List.find?_eq_none] at hf
    constructor
    · intro h'; exact absurd rfl h'
    · intro hj
      obtain ⟨e, he, rfl⟩ := List.mem_map.1 hj
      exact absurd (hf e he) (by simp)
  | some e =>
    have hm := List.mem_of_find?_eq_some hf
    have hp := List.find?_some hf
    rw [decide_eq_true_eq] at hp
    constructor
    · intro _
      exact List.mem_map.2 ⟨e, hm, hp⟩
    · intro _
      exact h.ne e hm

theorem countP_toDense {cols : Nat} {r : List (Nat × V)} (h : WellFormed cols r) :
    (toDense cols r).countP (fun v => decide (v ≠ 0)) = r.length := by
  unfold toDense
  rw [List.countP_map, List.countP_eq_length_filter, ← List.length_map (f := fun e : Nat × V => e.1)]
  apply List.Perm.length_eq
  rw [List.perm_ext_iff_of_nodup (List.Nodup.filter _ List.nodup_range) h.nodup]
  intro j
  rw [List.mem_filter, List.mem_range]
  simp only [Function.comp_apply, decide_eq_true_eq]
  rw [elementAt_ne_zero h]
  constructor
  · exact fun hj => hj.2
  · intro hj
    refine ⟨?_, hj⟩
    obtain ⟨e, he, rfl⟩ := List.mem_map.1 hj
    exact h.lt e he

theorem nonZeroAt_toDense {cols : Nat} {r : List (Nat × V)} (h : WellFormed cols r) {j : Nat} (hj : j < cols) :
    (if nonZeroAt j (toDense cols r) then 1 else 0) = r.countP fun e => decide (e.1 = j) := by
  have hget : (toDense cols r)[j]? = some (elementAt r j) := by simp [toDense, hj]
  have hc : r.countP (fun e => decide (e.1 = j)) = (r.map fun e => e.1).count j := by
    rw [List.count, List.countP_map]
    apply List.countP_congr
    intro e _
    simp
  rw [hc, nonZeroAt, hget]
  simp only [decide_eq_true_eq]
  by_cases hm : j ∈ r.map fun e => e.1
  · rw [if_pos ((elementAt_ne_zero h j).2 hm), List.count_eq_one_of_mem h.nodup hm]
  · rw [if_neg (mt (elementAt_ne_zero h j).1 hm), List.count_eq_zero.2 hm]

theorem perRow_toDense {cols : Nat} {rows : List (List (Nat × V))} (h : ∀ r ∈ rows, WellFormed cols r) :
    (Mat.dense cols (rows.map (toDense cols))).perRow = (Mat.sparse cols rows).perRow := by
  show ((rows.map (toDense cols)).map _) = rows.map _
  rw [List.map_map]
  apply List.map_congr_left
  intro r hr
  exact countP_toDense (h r hr)

theorem perCol_toDense {cols : Nat} {rows : List (List (Nat × V))} (h : ∀ r ∈ rows, WellFormed cols r) :
    (Mat.dense cols (rows.map (toDense cols))).perCol = (Mat.sparse cols rows).perCol := by
  show (List.range cols).map _ = (List.range cols).map _
  apply List.map_congr_left
  intro j hj
  have hj := List.mem_range.1 hj
  induction rows with
  | nil => rfl
  | cons r rows ih =>
    rw [List.map_cons, List.map_cons, List.countP_cons, List.sum_cons,
      ih (fun r' hr' => h r' (List.mem_cons_of_mem _ hr')), nonZeroAt_toDense (h r (by simp)) hj, Nat.add_comm]

/-- The characteristics do not depend on whether a matrix is given in a dense or in a sparse format, provided that no
zeros are stored explicitly. -/
theorem characteristics_toDense {cols : Nat} {rows : List (List (Nat × V))} (h : ∀ r ∈ rows, WellFormed cols r) :
    density (Mat.dense cols (rows.map (toDense cols))) = density (Mat.sparse cols rows)
    ∧ sparsity (Mat.dense cols (rows.map (toDense cols))) = sparsity (Mat.sparse cols rows)
    ∧ labelCardinality (Mat.dense cols (rows.map (toDense cols))) = labelCardinality (Mat.sparse cols rows)
    ∧ labelImbalanceRatio (Mat.dense cols (rows.map (toDense cols))) = labelImbalanceRatio (Mat.sparse cols rows) := by
  have hd : density (Mat.dense cols (rows.map (toDense cols))) = density (Mat.sparse cols rows) := by
    unfold density Mat.numElements
    rw [perRow_toDense h]
    simp [Mat.numRows, Mat.numCols]
  refine ⟨hd, ?_, ?_, ?_⟩
  · rw [sparsity, sparsity, hd]
  · rw [labelCardinality, labelCardinality, perRow_toDense h]
  · rw [labelImbalanceRatio, labelImbalanceRatio, perCol_toDense h]

/-- **C107.** The density of a dense matrix is the fraction of non-zero elements and its sparsity is the fraction of zeros. -/
theorem density_dense (cols : Nat) (rows : List (List V)) (h : ∀ r ∈ rows, r.length = cols) :
    density (Mat.dense cols rows) * rows.flatten.length = rows.flatten.countP (fun v => decide (v ≠ 0))
    ∧ (rows.flatten ≠ [] → sparsity (Mat.dense cols rows) * rows.flatten.length = rows.flatten.count 0)
    ∧ (rows.flatten = [] → density (Mat.dense cols rows) = 0) := by
  have hl : rows.flatten.length = rows.length * cols := by
    induction rows with
    | nil => simp
    | cons r rows ih =>
      simp only [List.flatten_cons, List.length_append, List.length_cons, h r (by simp),
        ih (fun r' hr' => h r' (List.mem_cons_of_mem _ hr')), Nat.succ_mul]
      omega
  have hc : (Mat.dense cols rows).numElements = rows.flatten.countP (fun v => decide (v ≠ 0)) := by
    simp only [Mat.numElements, Mat.perRow, List.countP_flatten]
  have hz : rows.flatten.countP (fun v => decide (v ≠ 0)) + rows.flatten.count 0 = rows.flatten.length := by
    rw [List.length_eq_countP_add_countP (fun v => decide (v ≠ 0)) (l := rows.flatten), List.count]
    congr 1
    apply List.countP_congr
    intro v _
    simp
  have key : density (Mat.dense cols rows) * rows.flatten.length = rows.flatten.countP (fun v => decide (v ≠ 0)) := by
    unfold density
    rw [hc]
    have hn : (Mat.dense cols rows).numRows * (Mat.dense cols rows).numCols = rows.flatten.length := hl.symm
    simp only [hn]
    split
    · rename_i h0
      exact div_mul_cancel₀ _ (by exact_mod_cast h0.ne')
    · rename_i h0
      have : rows.flatten = [] := List.length_eq_zero_iff.1 (by omega)
      simp [this]
  refine ⟨key, fun _ => ?_, fun h0 => ?_⟩
  · rw [sparsity, sub_mul, key, one_mul]
    have : ((rows.flatten.countP (fun v => decide (v ≠ 0)) : Nat) : ℚ) + (rows.flatten.count 0 : Nat) = (rows.flatten.length : Nat) := by
      exact_mod_cast hz
    rw [← this]
    exact add_sub_cancel_left _ _
  · unfold density
    have hn : (Mat.dense cols rows).numRows * (Mat.dense cols rows).numCols = rows.flatten.length := hl.symm
    simp [hn, h0]

example : density (Mat.dense 2 [[(1 : ℚ), 0], [0, 0]]) = 1 / 4 ∧ sparsity (Mat.dense 2 [[(1 : ℚ), 0], [0, 0]]) = 3 / 4 := by
  have := density_dense 2 [[(1 : ℚ), 0], [0, 0]] (by simp)
  have e1 : ([[(1 : ℚ), 0], [0, 0]].flatten.countP fun v => decide (v ≠ 0)) = 1 := by decide +kernel
  have e2 : [[(1 : ℚ), 0], [0, 0]].flatten.count 0 = 3 := by decide +kernel
  have h1 := this.1
  have h2 := this.2.1 (by simp)
  rw [e1] at h1
  rw [e2] at h2
  norm_num at h1 h2
  constructor <;> linarith

/-- In general, the explicitly stored zeros of a sparse matrix are counted as well. -/
theorem density_explicit_zero :
    ∃ rows : List (List (Nat × ℚ)),
      density (Mat.dense 2 (rows.map (toDense 2))) = 1 / 2 ∧ density (Mat.sparse 2 rows) = 1 := by
  refine ⟨[[(0, 0), (1, 1)]], ?_, ?_⟩
  · have : (Mat.dense 2 ([[(0, (0 : ℚ)), (1, 1)]].map (toDense 2))).numElements = 1 := by decide +kernel
    simp only [density, this]
    norm_num [Mat.numRows, Mat.numCols]
  · have : (Mat.sparse 2 [[(0, (0 : ℚ)), (1, 1)]]).numElements = 2 := by decide +kernel
    simp only [density, this]
    norm_num [Mat.numRows, Mat.numCols]

/-- A matrix, all rows of which fit the number of columns. -/
def Mat.Shaped : Mat V → Prop
  | .dense cols rows => ∀ r ∈ rows, r.length = cols
  | .sparse cols rows => ∀ r ∈ rows, ∀ e ∈ r, e.1 < cols

theorem sum_indicator (n j : Nat) (hj : j < n) : ((List.range n).map fun i => if j = i then 1 else 0).sum = 1 := by
  induction n with
  | zero => omega
  | succ n ih =>
    rw [List.range_succ, List.map_append, List.sum_append]
    by_cases h : j = n
    · subst h
      have : ((List.range j).map fun i => if j = i then 1 else 0).sum = 0 := by
        rw [List.sum_eq_zero]
        intro x hx
        obtain ⟨i, hi, rfl⟩ := List.mem_map.1 hx
        have := List.mem_range.1 hi
        rw [if_neg (by omega)]
      rw [this]; simp
    · rw [ih (by omega)]; simp [h]

theorem sum_countP_range (cols : Nat) (r : List (Nat × V)) (h : ∀ e ∈ r, e.1 < cols) :
    ((List.range cols).map fun j => r.countP fun e => decide (e.1 = j)).sum = r.length := by
  induction r with
  | nil => simp
  | cons e r ih =>
    have : (fun j => (e :: r).countP fun e => decide (e.1 = j))
        = fun j => (r.countP fun e => decide (e.1 = j)) + (if e.1 = j then 1 else 0) := by
      funext j; rw [List.countP_cons]; simp
    rw [this, List.sum_map_add, ih (fun x hx => h x (List.mem_cons_of_mem _ hx)), sum_indicator _ _ (h e (by simp))]
    rfl

theorem sum_nonZeroAt (r : List V) :
    ((List.range r.length).map fun j => if nonZeroAt j r then 1 else 0).sum = r.countP fun v => decide (v ≠ 0) := by
  induction r with
  | nil => rfl
  | cons v r ih =>
    rw [List.length_cons, List.range_succ_eq_map, List.map_cons, List.sum_cons, List.map_map, List.countP_cons]
    have : ((fun j => if nonZeroAt j (v :: r) then 1 else 0) ∘ Nat.succ) = fun j => if nonZeroAt j r then 1 else 0 := by
      funext j; simp [nonZeroAt]
    rw [this, ih, Nat.add_comm]
    simp [nonZeroAt]

/-- The number of elements that are counted per row and per column are consistent. -/
theorem perRow_perCol (m : Mat V) (h : m.Shaped) : m.perRow.sum = m.perCol.sum := by
  cases m with
  | dense cols rows =>
    simp only [Mat.perRow, Mat.perCol]
    induction rows with
    | nil => simp
    | cons r rows ih =>
      have hr : r.length = cols := h r (by simp)
      have : (fun j => (r :: rows).countP (nonZeroAt j))
          = fun j => rows.countP (nonZeroAt j) + (if nonZeroAt j r then 1 else 0) := by
        funext j; rw [List.countP_cons]
      rw [this, List.sum_map_add, ← ih (fun x hx => h x (List.mem_cons_of_mem _ hx)), List.map_cons, List.sum_cons]
      rw [← sum_nonZeroAt r, hr, Nat.add_comm]
  | sparse cols rows =>
    simp only [Mat.perRow, Mat.perCol]
    induction rows with
    | nil => simp
    | cons r rows ih =>
      simp only [List.map_cons, List.sum_cons]
      rw [List.sum_map_add, ← ih (fun x hx => h x (List.mem_cons_of_mem _ hx)),
        sum_countP_range cols r (h r (by simp))]

theorem sum_cast (l : List Nat) : (l.map fun (n : Nat) => (n : ℚ)).sum = ((l.sum : Nat) : ℚ) := by
  induction l with
  | nil => simp
  | cons a l ih => simp [ih]

theorem perRow_length (m : Mat V) : m.perRow.length = m.numRows := by
  cases m <;> simp [Mat.perRow, Mat.numRows]

/-- The label cardinality is the density multiplied by the number of labels. It is undefined, if there are no
examples. -/
theorem labelCardinality_eq (m : Mat V) (h : m.Shaped) :
    labelCardinality m = if m.numRows = 0 then none else some (density m * m.numCols) := by
  unfold labelCardinality average
  have hl := perRow_length m
  by_cases h0 : m.numRows = 0
  · have : m.perRow = [] := List.length_eq_zero_iff.1 (hl.trans h0)
    rw [if_pos h0, this]; rfl
  · have hne : (m.perRow.map fun (n : Nat) => (n : ℚ)) ≠ [] := by
      intro h
      rw [List.map_eq_nil_iff] at h
      rw [h] at hl
      exact h0 hl.symm
    rw [if_neg hne, if_neg h0, List.length_map, hl, sum_cast]
    unfold density
    have hr : (m.numRows : ℚ) ≠ 0 := by exact_mod_cast h0
    by_cases hc : m.numCols = 0
    · have hz : m.perRow.sum = 0 := by
        rw [perRow_perCol m h]
        cases m <;> (simp only [Mat.numCols] at hc; subst hc; rfl)
      rw [hz, hc]
      simp
    · have hc' : (m.numCols : ℚ) ≠ 0 := by exact_mod_cast hc
      have : m.numRows * m.numCols > 0 := Nat.mul_pos (by omega) (by omega)
      simp only [if_pos this, Mat.numElements]
      push_cast
      field_simp

theorem le_maximum (l : List Nat) : ∀ n ∈ l, n ≤ maximum l := by
  unfold maximum
  suffices ∀ (l : List Nat) (a : Nat), a ≤ l.foldl max a ∧ ∀ n ∈ l, n ≤ l.foldl max a from (this l 0).2
  intro l
  induction l with
  | nil => intro a; simp
  | cons b l ih =>
    intro a
    obtain ⟨h1, h2⟩ := ih (max a b)
    rw [List.foldl_cons]
    refine ⟨le_trans (le_max_left a b) h1, ?_⟩
    intro n hn
    rcases List.mem_cons.1 hn with rfl | hn
    · exact le_trans (le_max_right a _) h1
    · exact h2 n hn

theorem maximum_mem (l : List Nat) (h : l ≠ []) : maximum l ∈ l := by
  unfold maximum
  suffices ∀ (l : List Nat) (a : Nat), l.foldl max a = a ∨ l.foldl max a ∈ l by
    rcases this l 0 with h0 | h0
    · cases l with
      | nil => exact absurd rfl h
      | cons b l =>
        rw [h0]
        have := le_maximum (b :: l) b (by simp)
        unfold maximum at this
        rw [h0] at this
        have : b = 0 := by omega
        rw [this]; simp
    · exact h0
  intro l
  induction l with
  | nil => intro a; simp
  | cons b l ih =>
    intro a
    rw [List.foldl_cons]
    rcases ih (max a b) with h1 | h1
    · rw [h1]
      rcases max_choice a b with h2 | h2
      · left; exact h2
      · right; rw [h2]; simp
    · right; exact List.mem_cons_of_mem _ h1

/-- The number of relevant examples of the labels that are relevant to at least one example. -/
def Mat.relevant (m : Mat V) : List Nat := m.perCol.filter fun n => decide (n ≠ 0)

theorem sum_ge_length (l : List ℚ) (h : ∀ q ∈ l, 1 ≤ q) :
    (l.length : ℚ) ≤ l.sum ∧ (l.sum = l.length → ∀ q ∈ l, q = 1) := by
  induction l with
  | nil => simp
  | cons a l ih =>
    have ha := h a (by simp)
    obtain ⟨h1, h2⟩ := ih fun q hq => h q (List.mem_cons_of_mem _ hq)
    rw [List.sum_cons, List.length_cons]
    push_cast
    refine ⟨by linarith, ?_⟩
    intro heq q hq
    rcases List.mem_cons.1 hq with rfl | hq
    · linarith
    · exact h2 (by linarith) q hq

/-- If no label is relevant to any example, the imbalance ratio is zero. -/
theorem labelImbalanceRatio_none (m : Mat V) (h : ∀ n ∈ m.perCol, n = 0) : labelImbalanceRatio m = some 0 := by
  have : m.perCol.filter (fun n => decide (n ≠ 0)) = [] := by
    rw [List.filter_eq_nil_iff]
    intro n hn
    simp [h n hn]
  unfold labelImbalanceRatio
  rw [this]
  rfl

/-- Otherwise, the imbalance ratio is the average of the quotients between the number of examples to which the most
frequent label is relevant and the number of examples to which the individual labels are relevant. It is at least one
and it is one if and only if all labels, which are relevant to at least one example, are relevant to the same number of
examples. -/
theorem labelImbalanceRatio_some (m : Mat V) (h : ∃ n ∈ m.perCol, n ≠ 0) :
    ∃ most ∈ m.perCol, (∀ n ∈ m.perCol, n ≤ most)
      ∧ ∃ q, labelImbalanceRatio m = some q
        ∧ q * m.relevant.length = (m.relevant.map fun (n : Nat) => (most : ℚ) / (n : ℚ)).sum
        ∧ 1 ≤ q
        ∧ (q = 1 ↔ ∀ n ∈ m.perCol, n = 0 ∨ n = most) := by
  obtain ⟨n0, hn0, hne0⟩ := h
  have hmem0 : n0 ∈ m.relevant := List.mem_filter.2 ⟨hn0, by simpa using hne0⟩
  have hnil : m.relevant ≠ [] := List.ne_nil_of_mem hmem0
  have hlen : 0 < m.relevant.length := List.length_pos_iff.2 hnil
  have hlenQ : (0 : ℚ) < m.relevant.length := by exact_mod_cast hlen
  have hmax := maximum_mem _ hnil
  have hle := le_maximum m.relevant
  have hpos : ∀ n ∈ m.relevant, 0 < n := by
    intro n hn
    have := (List.mem_filter.1 hn).2
    simp at this
    omega
  have hterm : ∀ q ∈ m.relevant.map (fun (n : Nat) => (maximum m.relevant : ℚ) / (n : ℚ)), 1 ≤ q := by
    intro q hq
    obtain ⟨n, hn, rfl⟩ := List.mem_map.1 hq
    have hnQ : (0 : ℚ) < n := by exact_mod_cast hpos n hn
    rw [le_div_iff₀ hnQ, one_mul]
    exact_mod_cast hle n hn
  obtain ⟨hs1, hs2⟩ := sum_ge_length _ hterm
  rw [List.length_map] at hs1 hs2
  refine ⟨maximum m.relevant, (List.mem_filter.1 hmax).1, ?_, ?_⟩
  · intro n hn
    by_cases h0 : n = 0
    · omega
    · exact hle n (List.mem_filter.2 ⟨hn, by simpa using h0⟩)
  · refine ⟨(m.relevant.map fun (n : Nat) => (maximum m.relevant : ℚ) / (n : ℚ)).sum / m.relevant.length, ?_, ?_, ?_, ?_⟩
    · unfold labelImbalanceRatio
      show (if m.relevant.length > 0 then average (m.relevant.map fun (n : Nat) => (maximum m.relevant : ℚ) / (n : ℚ))
        else some 0) = _
      rw [if_pos hlen]
      unfold average
      rw [if_neg (fun h => hnil (List.map_eq_nil_iff.1 h)), List.length_map]
    · field_simp
    · rw [le_div_iff₀ hlenQ, one_mul]; exact hs1
    · rw [div_eq_one_iff_eq (ne_of_gt hlenQ)]
      constructor
      · intro heq n hn
        by_cases h0 : n = 0
        · left; exact h0
        · right
          have hm : n ∈ m.relevant := List.mem_filter.2 ⟨hn, by simpa using h0⟩
          have := hs2 heq _ (List.mem_map_of_mem hm)
          have hnQ : (n : ℚ) ≠ 0 := by exact_mod_cast h0
          rw [div_eq_one_iff_eq hnQ] at this
          exact_mod_cast this.symm
      · intro hall
        have : m.relevant.map (fun (n : Nat) => (maximum m.relevant : ℚ) / (n : ℚ))
            = m.relevant.map fun _ => (1 : ℚ) := by
          apply List.map_congr_left
          intro n hn
          have h0 := hpos n hn
          rcases hall n (List.mem_filter.1 hn).1 with h | h
          · omega
          · rw [← h]
            exact div_self (by exact_mod_cast (by omega : n ≠ 0))
        rw [this]
        simp

/-- The number of unique elements. -/
theorem numUnique_eq {α : Type} [DecidableEq α] (le : α → α → Bool) (htrans : ∀ a b c, le a b → le b c → le a c)
    (htotal : ∀ a b, le a b || le b a) (hanti : ∀ a b, le a b → le b a → a = b) (l : List α) :
    numUnique le l = l.dedup.length := by
  unfold numUnique
  rw [countChanges_eq _ (fun a b => le a b = true) hanti (fun a => by simpa using htotal a a)
    (List.pairwise_mergeSort htrans htotal l), eraseDups_length_perm (List.mergeSort_perm l le)]
  apply List.Perm.length_eq
  rw [List.perm_ext_iff_of_nodup (nodup_eraseDups' l) (List.nodup_dedup l)]
  intro a
  rw [mem_eraseDups', List.mem_dedup]

theorem dedup_map_length {α β : Type} [DecidableEq α] [DecidableEq β] (f : α → β) (l : List α)
    (hf : ∀ a ∈ l, ∀ b ∈ l, f a = f b → a = b) : (l.map f).dedup.length = l.dedup.length := by
  induction l with
  | nil => rfl
  | cons a l ih =>
    have ih := ih fun x hx y hy => hf x (List.mem_cons_of_mem _ hx) y (List.mem_cons_of_mem _ hy)
    rw [List.map_cons]
    by_cases ha : a ∈ l
    · rw [List.dedup_cons_of_mem ha, List.dedup_cons_of_mem (List.mem_map_of_mem ha), ih]
    · have : f a ∉ l.map f := by
        intro hm
        obtain ⟨b, hb, hfb⟩ := List.mem_map.1 hm
        exact ha (hf b (List.mem_cons_of_mem _ hb) a (by simp) hfb ▸ hb)
      rw [List.dedup_cons_of_notMem ha, List.dedup_cons_of_notMem this, List.length_cons, List.length_cons, ih]

/-- The number of distinct label vectors does not depend on the format either, if the labels are binary and if the
indices of the relevant labels are sorted. -/
theorem distinctLabelVectors_toDense (one : V) (leDense : List V → List V → Bool) (leSparse : List Nat → List Nat → Bool)
    (hd : (∀ a b c, leDense a b → leDense b c → leDense a c) ∧ (∀ a b, leDense a b || leDense b a)
      ∧ ∀ a b, leDense a b → leDense b a → a = b)
    (hs : (∀ a b c, leSparse a b → leSparse b c → leSparse a c) ∧ (∀ a b, leSparse a b || leSparse b a)
      ∧ ∀ a b, leSparse a b → leSparse b a → a = b)
    {cols : Nat} {rows : List (List (Nat × V))} (h : ∀ r ∈ rows, WellFormed cols r)
    (hone : ∀ r ∈ rows, ∀ e ∈ r, e.2 = one) (hsorted : ∀ r ∈ rows, (r.map fun e => e.1).Pairwise (· < ·)) :
    distinctLabelVectors leDense leSparse (.dense cols (rows.map (toDense cols)))
      = distinctLabelVectors leDense leSparse (.sparse cols rows)
    ∧ distinctLabelVectors leDense leSparse (.sparse cols rows) = (rows.map (toDense cols)).dedup.length := by
  have hinj : ∀ a ∈ rows, ∀ b ∈ rows, toDense cols a = toDense cols b → a = b := by
    intro a ha b hb hab
    have hel : ∀ j, j < cols → elementAt a j = elementAt b j := by
      intro j hj
      have h1 : (toDense cols a)[j]? = some (elementAt a j) := by simp [toDense, hj]
      have h2 : (toDense cols b)[j]? = some (elementAt b j) := by simp [toDense, hj]
      rw [hab, h2] at h1
      exact (Option.some.inj h1).symm
    have hidx : (a.map fun e => e.1) = b.map fun e => e.1 := by
      apply List.Perm.eq_of_pairwise (le := fun x y => x < y) (fun x y _ _ h1 h2 => by omega) (hsorted a ha) (hsorted b hb)
      rw [List.perm_ext_iff_of_nodup (h a ha).nodup (h b hb).nodup]
      intro j
      constructor
      · intro hj
        have hlt : j < cols := by
          obtain ⟨e, he, rfl⟩ := List.mem_map.1 hj
          exact (h a ha).lt e he
        have := (elementAt_ne_zero (h a ha) j).2 hj
        rw [hel j hlt] at this
        exact (elementAt_ne_zero (h b hb) j).1 this
      · intro hj
        have hlt : j < cols := by
          obtain ⟨e, he, rfl⟩ := List.mem_map.1 hj
          exact (h b hb).lt e he
        have := (elementAt_ne_zero (h b hb) j).2 hj
        rw [← hel j hlt] at this
        exact (elementAt_ne_zero (h a ha) j).1 this
    have hpair : ∀ r ∈ rows, r = (r.map fun e => e.1).map fun i => (i, one) := by
      intro r hr
      rw [List.map_map]
      conv_lhs => rw [← List.map_id r]
      apply List.map_congr_left
      intro e he
      show e = (e.1, one)
      rw [← hone r hr e he]
    rw [hpair a ha, hpair b hb, hidx]
  have hinj2 : ∀ a ∈ rows, ∀ b ∈ rows, (a.map fun e => e.1) = (b.map fun e => e.1) → a = b := by
    intro a ha b hb hab
    apply hinj a ha b hb
    have hpair : ∀ r ∈ rows, r = (r.map fun e => e.1).map fun i => (i, one) := by
      intro r hr
      rw [List.map_map]
      conv_lhs => rw [← List.map_id r]
      apply List.map_congr_left
      intro e he
      show e = (e.1, one)
      rw [← hone r hr e he]
    rw [hpair a ha, hpair b hb, hab]
  have e1 : distinctLabelVectors leDense leSparse (.dense cols (rows.map (toDense cols))) = rows.dedup.length := by
    rw [distinctLabelVectors, numUnique_eq leDense hd.1 hd.2.1 hd.2.2, dedup_map_length _ _ hinj]
  have e2 : distinctLabelVectors leDense leSparse (.sparse cols rows) = rows.dedup.length := by
    rw [distinctLabelVectors, numUnique_eq leSparse hs.1 hs.2.1 hs.2.2, dedup_map_length _ _ hinj2]
  refine ⟨e1.trans e2.symm, e2.trans ?_⟩
  rw [dedup_map_length _ _ hinj]

example : WellFormed 3 [(0, (1 : ℚ)), (2, 1)] := ⟨by decide, by decide, by simp⟩
example : (Mat.sparse 3 [[(0, (1 : ℚ)), (2, 1)], [(2, 1)], []]).Shaped := by
  intro r hr e he
  fin_cases hr <;> fin_cases he <;> decide
example : (Mat.sparse 3 [[(0, (1 : ℚ)), (2, 1)], [(2, 1)], []]).perCol = [1, 0, 2] := rfl
example : (Mat.dense 3 [[(1 : ℚ), 0, 1], [0, 0, 1], [0, 0, 0]]).perCol = [1, 0, 2] := by decide +kernel
example : labelCardinality (Mat.sparse 3 [[(0, (1 : ℚ)), (2, 1)], [(2, 1)], []]) = some 1 := by decide +kernel
example : labelImbalanceRatio (Mat.sparse 3 [[(0, (1 : ℚ)), (2, 1)], [(2, 1)], []]) = some (3 / 2) := by decide +kernel

end

end MLRL.LabelCharacteristics
