import Verif.Spec.Update
import Verif.Lemma.Refinement
import Verif.Lemma.SparseSet
import Mathlib.Algebra.Group.Basic

set_option linter.unusedSectionVars false

namespace MLRL.Update

open Predictor Predictor.Spec

variable {K R S : Type}

/-! ### dense rows -/

/-- The score for an output in a dense row. -/
def denseValue [Zero K] (r : List K) (j : Nat) : K := (r[j]?).getD 0

theorem modifyAt_ok [AddCommGroup K] (op : K → K → K) {i : Nat} (v : K) {row : List K} (h : i < row.length) :
    ∃ r', modifyAt op i v row = .ok r' ∧ r'.length = row.length ∧ denseValue r' i = op (denseValue row i) v ∧
      ∀ j, j ≠ i → denseValue r' j = denseValue row j := by
  refine ⟨row.set i (op row[i] v), ?_, by simp, ?_, ?_⟩
  · unfold modifyAt
    rw [readAt_of_lt h, ok_bind, writeAt_of_lt h]
  · simp [denseValue, h]
  · intro j hj
    simp only [denseValue]
    rw [List.getElem?_set_ne (by omega)]

theorem changeDense_complete [AddCommGroup K] (op : K → K → K) (values row : List K) (h : values.length = row.length) :
    ∃ r', changeDense op (.complete values) row = .ok r' ∧ r'.length = row.length ∧
      ∀ j < row.length, denseValue r' j = op (denseValue row j) (denseValue values j) := by
  obtain ⟨r', h1, h2, h3⟩ := loop_rule
    (body := fun i row => (do let v ← readAt values i; modifyAt op i v row : Res (List K)))
    (fun i r => r.length = row.length ∧
      ∀ j < row.length, denseValue r j = if j < i then op (denseValue row j) (denseValue values j) else denseValue row j)
    row.length row ⟨rfl, by simp⟩ (by
      rintro i r hi ⟨g1, g2⟩
      obtain ⟨r', m1, m2, m3, m4⟩ := modifyAt_ok op values[i] (i := i) (row := r) (by omega)
      refine ⟨r', ?_, by omega, ?_⟩
      · rw [readAt_of_lt (by omega : i < values.length), ok_bind, m1]
      · intro j hj
        by_cases hji : j = i
        · subst hji
          rw [m3, g2 j hj, if_neg (by omega), if_pos (by omega)]
          simp [denseValue, (by omega : j < values.length)]
        · rw [m4 j hji, g2 j hj]
          have : j < i + 1 ↔ j < i := by omega
          simp only [this])
  refine ⟨r', h1, h2, fun j hj => ?_⟩
  rw [h3 j hj, if_pos hj]

theorem addPartial_dense [AddCommGroup K] (entries : List (Nat × K)) : ∀ (row : List K), (∀ e ∈ entries, e.1 < row.length) →
    ∃ r', changeDense (· + ·) (.partial_ entries) row = .ok r' ∧ r'.length = row.length ∧
      ∀ j < row.length, denseValue r' j = denseValue row j + contribution j (.partial_ entries) := by
  induction entries with
  | nil => intro row _; exact ⟨row, rfl, rfl, by simp [contribution]⟩
  | cons e es ih =>
    intro row h
    obtain ⟨r1, m1, m2, m3, m4⟩ := modifyAt_ok (· + ·) e.2 (h e List.mem_cons_self)
    obtain ⟨r2, h1, h2, h3⟩ := ih r1 (fun e' he' => by rw [m2]; exact h e' (List.mem_cons_of_mem _ he'))
    refine ⟨r2, ?_, by omega, ?_⟩
    · simp only [changeDense, List.foldlM_cons] at h1 ⊢
      rw [m1, ok_bind, h1]
    · intro j hj
      rw [h3 j (by omega)]
      by_cases hje : j = e.1
      · subst hje
        rw [m3]
        simp [contribution, add_assoc]
      · rw [m4 j hje]
        have : ¬ e.1 = j := fun h => hje h.symm
        simp [contribution, this]

theorem removePartial_dense [AddCommGroup K] (entries : List (Nat × K)) : ∀ (row : List K), (∀ e ∈ entries, e.1 < row.length) →
    ∃ r', changeDense (· - ·) (.partial_ entries) row = .ok r' ∧ r'.length = row.length ∧
      ∀ j < row.length, denseValue r' j = denseValue row j - contribution j (.partial_ entries) := by
  induction entries with
  | nil => intro row _; exact ⟨row, rfl, rfl, by simp [contribution]⟩
  | cons e es ih =>
    intro row h
    obtain ⟨r1, m1, m2, m3, m4⟩ := modifyAt_ok (· - ·) e.2 (h e List.mem_cons_self)
    obtain ⟨r2, h1, h2, h3⟩ := ih r1 (fun e' he' => by rw [m2]; exact h e' (List.mem_cons_of_mem _ he'))
    refine ⟨r2, ?_, by omega, ?_⟩
    · simp only [changeDense, List.foldlM_cons] at h1 ⊢
      rw [m1, ok_bind, h1]
    · intro j hj
      rw [h3 j (by omega)]
      by_cases hje : j = e.1
      · subst hje
        rw [m3]
        simp [contribution, sub_sub]
      · rw [m4 j hje]
        have : ¬ e.1 = j := fun h => hje h.symm
        simp [contribution, this]

theorem addDense_ok [AddCommGroup K] {n : Nat} {h : Head K} {row : List K} (hf : Fits n h) (hr : row.length = n) :
    ∃ r', changeDense (· + ·) h row = .ok r' ∧ r'.length = n ∧ ∀ j < n, denseValue r' j = denseValue row j + contribution j h := by
  subst hr
  cases h with
  | complete values => exact changeDense_complete (· + ·) values row hf
  | partial_ entries => exact addPartial_dense entries row hf

theorem removeDense_ok [AddCommGroup K] {n : Nat} {h : Head K} {row : List K} (hf : Fits n h) (hr : row.length = n) :
    ∃ r', changeDense (· - ·) h row = .ok r' ∧ r'.length = n ∧ ∀ j < n, denseValue r' j = denseValue row j - contribution j h := by
  subst hr
  cases h with
  | complete values => exact changeDense_complete (· - ·) values row hf
  | partial_ entries => exact removePartial_dense entries row hf

/-! ### sparse rows -/

/-- The rows that represent some map. -/
def ValidSparse (n : Nat) (s : SparseSet K) : Prop := ∃ m, SparseSet.Rep n s m

/-- The score for an output in a sparse row: zero if there is no entry. -/
def sparseValue [Zero K] (s : SparseSet K) (j : Nat) : K :=
  match s.get j with
  | .ok (some e) => e.2
  | _ => 0

theorem sparseValue_rep [Zero K] {n : Nat} (hn : n ≤ SparseSet.maxIndex) {s : SparseSet K} {m : Nat → Option K}
    (h : SparseSet.Rep n s m) {j : Nat} (hj : j < n) : sparseValue s j = (m j).getD 0 := by
  unfold sparseValue
  rw [h.get hn hj]
  cases m j <;> rfl

theorem addToRow_ok [AddCommGroup K] {n : Nat} (hn : n ≤ SparseSet.maxIndex) (es : List (Nat × K)) :
    ∀ (s : SparseSet K), ValidSparse n s → (∀ e ∈ es, e.1 < n) →
      ∃ s', s.addToRow es = .ok s' ∧ ValidSparse n s' ∧ ∀ j < n, sparseValue s' j = sparseValue s j + contribution j (.partial_ es) := by
  induction es with
  | nil => intro s h _; exact ⟨s, rfl, h, by simp [contribution]⟩
  | cons e es ih =>
    rintro s ⟨m, h⟩ he
    obtain ⟨i, v⟩ := e
    obtain ⟨s1, h1, h2⟩ := h.modify hn (he (i, v) (by simp)) 0 (fun x => x + v)
    obtain ⟨s2, h3, h4, h5⟩ := ih s1 ⟨_, h2⟩ (fun e he' => he e (List.mem_cons_of_mem _ he'))
    refine ⟨s2, ?_, h4, ?_⟩
    · unfold SparseSet.addToRow
      rw [h1, ok_bind, h3]
    · intro c hc
      rw [h5 c hc, sparseValue_rep hn h2 hc, sparseValue_rep hn h hc]
      by_cases hic : i = c
      · subst hic; simp [contribution, add_assoc]
      · have hc' : ¬ c = i := fun e => hic e.symm
        simp [contribution, hic, hc']

theorem removeFromRow_ok [AddCommGroup K] {n : Nat} (hn : n ≤ SparseSet.maxIndex) (es : List (Nat × K)) :
    ∀ (s : SparseSet K), ValidSparse n s → (∀ e ∈ es, e.1 < n) →
      ∃ s', s.removeFromRow es = .ok s' ∧ ValidSparse n s' ∧
        ∀ j < n, sparseValue s' j = sparseValue s j - contribution j (.partial_ es) := by
  induction es with
  | nil => intro s h _; exact ⟨s, rfl, h, by simp [contribution]⟩
  | cons e es ih =>
    rintro s ⟨m, h⟩ he
    obtain ⟨i, v⟩ := e
    obtain ⟨s1, h1, h2⟩ := h.modify hn (he (i, v) (by simp)) 0 (fun x => x - v)
    obtain ⟨s2, h3, h4, h5⟩ := ih s1 ⟨_, h2⟩ (fun e he' => he e (List.mem_cons_of_mem _ he'))
    refine ⟨s2, ?_, h4, ?_⟩
    · unfold SparseSet.removeFromRow
      rw [h1, ok_bind, h3]
    · intro c hc
      rw [h5 c hc, sparseValue_rep hn h2 hc, sparseValue_rep hn h hc]
      by_cases hic : i = c
      · subst hic; simp [contribution, sub_sub]
      · have hc' : ¬ c = i := fun e => hic e.symm
        simp [contribution, hic, hc']

theorem readComplete_ok [AddCommGroup K] (values : List K) :
    ∃ es, readComplete values.length values = .ok es ∧ (∀ e ∈ es, e.1 < values.length) ∧
      ∀ j < values.length, contribution j (.partial_ es) = contribution j (.complete values) := by
  have main : ∀ n ≤ values.length, ∃ es, readComplete n values = .ok es ∧ (∀ e ∈ es, e.1 < n) ∧
      ∀ j, contribution j (.partial_ es) = if j < n then contribution j (.complete values) else 0 := by
    intro n
    induction n with
    | zero => intro _; exact ⟨[], rfl, by simp, by simp [contribution]⟩
    | succ n ih =>
      intro hn
      obtain ⟨es, h1, h2, h3⟩ := ih (by omega)
      refine ⟨es ++ [(n, values[n])], ?_, ?_, ?_⟩
      · unfold readComplete at h1 ⊢
        rw [List.range_succ, List.mapM_append, h1, ok_bind]
        simp only [List.mapM_cons, List.mapM_nil]
        rw [readAt_of_lt (by omega : n < values.length)]
        rfl
      · intro e he
        rcases List.mem_append.1 he with he | he
        · exact Nat.lt_succ_of_lt (h2 e he)
        · rw [List.mem_singleton] at he; subst he; exact Nat.lt_succ_self n
      · intro j
        have h3j := h3 j
        simp only [contribution] at h3j ⊢
        rw [List.filter_append, List.map_append, List.sum_append, h3j]
        by_cases hj : n = j
        · subst hj
          rw [if_neg (Nat.lt_irrefl _), if_pos (Nat.lt_succ_self _), List.getElem?_eq_getElem (by omega)]
          simp
        · have : j < n + 1 ↔ j < n := by omega
          simp only [this]
          simp [hj]
  obtain ⟨es, h1, h2, h3⟩ := main values.length (Nat.le_refl _)
  exact ⟨es, h1, h2, fun j hj => by rw [h3 j, if_pos hj]⟩

theorem addSparse_ok [AddCommGroup K] {n : Nat} (hn : n ≤ SparseSet.maxIndex) {h : Head K} {s : SparseSet K} (hf : Fits n h)
    (hs : ValidSparse n s) :
    ∃ s', addSparse n h s = .ok s' ∧ ValidSparse n s' ∧ ∀ j < n, sparseValue s' j = sparseValue s j + contribution j h := by
  cases h with
  | complete values =>
    simp only [Fits] at hf
    subst hf
    obtain ⟨es, h1, h2, h3⟩ := readComplete_ok values
    obtain ⟨s', g1, g2, g3⟩ := addToRow_ok hn es s hs h2
    refine ⟨s', ?_, g2, fun j hj => by rw [g3 j hj, h3 j hj]⟩
    simp only [addSparse]
    rw [h1, ok_bind, g1]
  | partial_ entries => exact addToRow_ok hn entries s hs hf

theorem removeSparse_ok [AddCommGroup K] {n : Nat} (hn : n ≤ SparseSet.maxIndex) {h : Head K} {s : SparseSet K} (hf : Fits n h)
    (hs : ValidSparse n s) :
    ∃ s', removeSparse n h s = .ok s' ∧ ValidSparse n s' ∧ ∀ j < n, sparseValue s' j = sparseValue s j - contribution j h := by
  cases h with
  | complete values =>
    simp only [Fits] at hf
    subst hf
    obtain ⟨es, h1, h2, h3⟩ := readComplete_ok values
    obtain ⟨s', g1, g2, g3⟩ := removeFromRow_ok hn es s hs h2
    refine ⟨s', ?_, g2, fun j hj => by rw [g3 j hj, h3 j hj]⟩
    simp only [removeSparse]
    rw [h1, ok_bind, g1]
  | partial_ entries => exact removeFromRow_ok hn entries s hs hf

/-! ### updates -/

/-- What is known of a cell. -/
structure CellOk (Valid : R → Prop) (Consistent : Nat → R → S → Prop) (i : Nat) (c : Cell R S) : Prop where
  valid : Valid c.scores
  consistent : Consistent i c.scores c.statistics

theorem steps_ok [AddCommGroup K] {ops : Ops K R S} {n : Nat} {Valid : R → Prop} {value : R → Nat → K}
    {Consistent : Nat → R → S → Prop} (laws : Laws ops n Valid value Consistent) {h : Head K} (hf : Fits n h) (revert : Bool) (i : Nat)
    {c : Cell R S} (hc : CellOk Valid Consistent i c) :
    ∃ c', (steps ops h revert i).foldlM (cellOps R S).consider c = .ok c' ∧ CellOk Valid Consistent i c' ∧
      ∀ j < n, value c'.scores j = value c.scores j + (if revert then -contribution j h else contribution j h) := by
  have hchange : ∃ r', ops.change revert h c.scores = .ok r' ∧ Valid r' ∧
      ∀ j < n, value r' j = value c.scores j + (if revert then -contribution j h else contribution j h) := by
    cases revert with
    | false => simpa [Ops.change] using laws.add h c.scores hf hc.valid
    | true => simpa [Ops.change, sub_eq_add_neg] using laws.remove h c.scores hf hc.valid
  obtain ⟨r', h1, h2, h3⟩ := hchange
  obtain ⟨s', g1, g2⟩ := laws.refresh i h c.scores r' c.statistics hf hc.valid h2 hc.consistent (by
    intro j hj h0
    rw [h3 j hj, h0]
    simp)
  refine ⟨⟨r', s'⟩, ?_, ⟨h2, g2⟩, h3⟩
  simp only [steps, List.foldlM_cons, List.foldlM_nil, cellOps]
  rw [h1, ok_bind]
  simp only [pure_eq_ok, ok_bind]
  rw [g1]
  rfl

end MLRL.Update
