import Verif.Lemma.StatisticVector

/-!
# C30, C31: sums of statistics of covered and uncovered examples

The theorems are stated for dense and sparse vectors of decomposable statistics and for vectors of non-decomposable statistics.
-/

namespace MLRL.Statistics

set_option linter.unusedSectionVars false

variable {K : Type} [CommRing K] [DecidableEq K]

theorem subset_sound_of_laws {V R M : Type} [AddCommGroup M] [Module K M] {ops : VecOps K V R} {n : Nat} {valid : Nat → V → Prop}
    {rowValid : R → Prop} {idxValid : IndexVec → Prop} {value : V → M} {row : R → M} {select : IndexVec → M → M}
    (L : Laws ops n valid rowValid idxValid value row select) :
    SubsetSound ops n valid rowValid idxValid value row select := by
  intro d m total excluded idx l hd ht hidx hexc hl
  obtain ⟨t, h1, h2, h3⟩ := removeAll_spec L hd excluded hexc total ht
  obtain ⟨s, r1, r2⟩ := run_spec L hd hidx l hl
    (s := { sum := ops.new idx.size, acc := none, tmp := ops.new idx.size, total := t }) (sum := 0) (acc := none)
    (total := value total - (excluded.map (stat row d)).sum) ⟨L.new _, trivial, (L.new _).1, ⟨h2, h3⟩⟩
  obtain ⟨u, u1, u2, u3⟩ := L.difference s.tmp s.total idx s.sum hidx r2.tmp r2.total.1 r2.sum.1
  refine ⟨_, s, ?_, r1, ?_, ⟨u, u1, ?_⟩, ?_⟩
  · simp only [SubsetState.create]
    rw [h1, ok_bind]
    rfl
  · rw [r2.sum.2, accAfter_spec]
    split <;> simp
  · rw [u3, r2.total.2]; abel
  · have hacc := r2.acc
    rw [accAfter_spec] at hacc
    split
    · rename_i hr
      rw [if_pos hr] at hacc
      cases hsa : s.acc with
      | none => rw [hsa] at hacc; exact hacc.elim
      | some a =>
        rw [hsa] at hacc
        simp only [Option.getD_none, zero_add] at hacc
        obtain ⟨u', v1, v2, v3⟩ := L.difference s.tmp s.total idx a hidx r2.tmp r2.total.1 hacc.1
        refine ⟨a, u', by simp [SubsetState.accumulated, hsa, useInit], ?_, hacc.2, ?_⟩
        · simp only [SubsetState.uncoveredAccumulated, hsa, useInit, ok_bind]
          exact v1
        · rw [v3, r2.total.2]; abel
    · rename_i hr
      rw [if_neg hr] at hacc
      cases hsa : s.acc with
      | none => simp [SubsetState.accumulated, hsa, useInit]
      | some a => rw [hsa] at hacc; exact hacc.elim

/-- **C30**, dense decomposable statistics. -/
theorem dense_subset_sound (n : Nat) : SubsetSound (K := K) denseOps n DenseVec.Valid (DenseVec.Valid n) (IndexVec.Valid n)
    DenseVec.value DenseVec.value selectDecomposable := subset_sound_of_laws (denseLaws n)

/-- **C30**, sparse decomposable statistics. -/
theorem sparse_subset_sound (n : Nat) : SubsetSound (K := K) sparseOps n SparseVec.Valid (SparseRow.Valid n) (IndexVec.Valid n)
    SparseVec.value (rowValue n) selectDecomposable := subset_sound_of_laws (sparseLaws n)

/-- **C30**, non-decomposable statistics, for indices in increasing order. -/
theorem nonDecomposable_subset_sound_partial (n : Nat) : SubsetSound (K := K) nonDecomposableOps n DenseVec.MatrixValid
    (DenseVec.MatrixValid n) (IndexVec.SortedValid n) DenseVec.matrixValue DenseVec.matrixValue selectNonDecomposable :=
  subset_sound_of_laws (nonDecomposableLaws n)

/-- Part of **C30**: what the statistics of covered and uncovered examples add up to is, in the beginning, the sum of the weighted
statistics of all examples. -/
theorem dense_totalSum (n : Nat) {d : Data K (DenseVec K)} (hd : d.Valid d.weights.size (DenseVec.Valid n)) (hn : d.numCols = n) :
    ∃ v, totalSum denseOps d = .ok v ∧ DenseVec.Valid n v ∧
      v.value = ((List.range d.weights.size).map (stat DenseVec.value d)).sum := totalSum_spec (denseLaws n) hd hn

/-- Part of **C30**. -/
theorem sparse_totalSum (n : Nat) {d : Data K (SparseRow K)} (hd : d.Valid d.weights.size (SparseRow.Valid n))
    (hn : d.numCols = n) :
    ∃ v, totalSum sparseOps d = .ok v ∧ SparseVec.Valid n v ∧
      v.value = ((List.range d.weights.size).map (stat (rowValue n) d)).sum := totalSum_spec (sparseLaws n) hd hn

/-- Part of **C30**. -/
theorem nonDecomposable_totalSum (n : Nat) {d : Data K (DenseVec K)} (hd : d.Valid d.weights.size (DenseVec.MatrixValid n))
    (hn : d.numCols = n) :
    ∃ v, totalSum nonDecomposableOps d = .ok v ∧ DenseVec.MatrixValid n v ∧
      v.matrixValue = ((List.range d.weights.size).map (stat DenseVec.matrixValue d)).sum :=
  totalSum_spec (nonDecomposableLaws n) hd hn

/-- Reading a sparse vector provides what it stands for. -/
theorem sparse_read (v : SparseVec K) (i : Nat) (hi : i < v.triples.length) : v.read i = .ok (v.value i) := by
  unfold SparseVec.read SparseVec.value
  rw [readAt_of_lt hi, ok_bind, List.getElem?_eq_getElem hi]
  rfl

theorem stat_same {n : Nat} {d : Data K (DenseVec K)} {d' : Data K (SparseRow K)} (h : SameData n d d') (e : Nat) :
    stat (rowValue n) d' e = stat DenseVec.value d e := by
  unfold stat
  rw [h.weights]
  by_cases he : e < d.rows.length
  · have he' : e < d'.rows.length := by rw [h.length]; exact he
    have := h.rows e _ _ (List.getElem?_eq_getElem he) (List.getElem?_eq_getElem he')
    rw [List.getElem?_eq_getElem he, List.getElem?_eq_getElem he']
    cases d.weights <;> simp [this]
  · have := h.length
    rw [List.getElem?_eq_none (by omega), List.getElem?_eq_none (by omega)]

/-- **C31**: whatever examples have been added, excluded and accumulated, and whatever their weights are, the gradients and Hessians that
are read from the sparse vectors are those in the dense vectors, for covered and uncovered examples. -/
theorem sparse_refines_dense (n m : Nat) (d : Data K (DenseVec K)) (d' : Data K (SparseRow K)) (hs : SameData n d d')
    (hd : d.Valid m (DenseVec.Valid n)) (hd' : d'.Valid m (SparseRow.Valid n)) (total : DenseVec K) (total' : SparseVec K)
    (ht : DenseVec.Valid n total) (ht' : SparseVec.Valid n total') (htt : total'.value = total.value) (excluded : List Nat)
    (idx : IndexVec) (hidx : idx.Valid n) (l : List SubsetOp) (hexc : ∀ e ∈ excluded, e < m) (hl : ∀ e ∈ opExamples l, e < m) :
    ∃ s0 s t0 t u v, SubsetState.create denseOps d total excluded idx = .ok s0 ∧ SubsetState.run denseOps d idx l s0 = .ok s ∧
      SubsetState.create sparseOps d' total' excluded idx = .ok t0 ∧ SubsetState.run sparseOps d' idx l t0 = .ok t ∧
      s.uncovered denseOps idx = .ok u ∧ t.uncovered sparseOps idx = .ok v ∧
      t.sum.value = s.sum.value ∧ v.value = u.value ∧
      (.reset ∈ l → ∃ a b p q, s.accumulated = .ok a ∧ t.accumulated = .ok b ∧ s.uncoveredAccumulated denseOps idx = .ok p ∧
        t.uncoveredAccumulated sparseOps idx = .ok q ∧ b.value = a.value ∧ q.value = p.value) := by
  obtain ⟨s0, s, h1, h2, h3, ⟨u, h4, h5⟩, h6⟩ := dense_subset_sound n d m total excluded idx l hd ht hidx hexc hl
  obtain ⟨t0, t, g1, g2, g3, ⟨v, g4, g5⟩, g6⟩ := sparse_subset_sound n d' m total' excluded idx l hd' ht' hidx hexc hl
  have hst : stat (rowValue n) d' = stat DenseVec.value d := funext (stat_same hs)
  rw [hst] at g3 g5
  have hsum : t.sum.value = s.sum.value := by rw [g3, h3]
  refine ⟨s0, s, t0, t, u, v, h1, h2, g1, g2, h4, g4, hsum, ?_, fun hr => ?_⟩
  · rw [htt, ← h5, hsum] at g5
    exact add_left_cancel g5
  · rw [if_pos hr] at h6 g6
    obtain ⟨a, p, a1, a2, a3, a4⟩ := h6
    obtain ⟨b, q, b1, b2, b3, b4⟩ := g6
    rw [hst] at b3 b4
    have hab : b.value = a.value := by rw [b3, a3]
    refine ⟨a, b, p, q, a1, b1, a2, b2, hab, ?_⟩
    rw [htt, ← a4, hab] at b4
    exact add_left_cancel b4

/-- Part of **C31**: the sum of all statistics. -/
theorem sparse_refines_dense_total (n : Nat) (d : Data K (DenseVec K)) (d' : Data K (SparseRow K)) (hs : SameData n d d')
    (hd : d.Valid d.weights.size (DenseVec.Valid n)) (hd' : d'.Valid d.weights.size (SparseRow.Valid n)) (hn : d.numCols = n)
    (hn' : d'.numCols = n) :
    ∃ v v', totalSum denseOps d = .ok v ∧ totalSum sparseOps d' = .ok v' ∧ v'.value = v.value := by
  obtain ⟨v, h1, _, h3⟩ := dense_totalSum n hd hn
  obtain ⟨v', g1, _, g3⟩ := sparse_totalSum n (d := d') (by rw [hs.weights]; exact hd') hn'
  refine ⟨v, v', h1, g1, ?_⟩
  rw [g3, h3, hs.weights, funext (stat_same hs)]

/-- Negation of **C30** for non-decomposable statistics and indices that are not in increasing order: if the outputs 2 and 0 of three
outputs are selected (in this order), the Hessian of the outputs 2 and 0 is taken from the position of the Hessian of output 1. Such index
vectors occur, because the indices that are sampled by `OutputSamplingWithoutReplacement` are not sorted. -/
theorem nonDecomposable_unsorted_wrong :
    ∃ (r v : DenseVec ℤ), DenseVec.MatrixValid 3 r ∧ IndexVec.Valid 3 (.select [2, 0]) ∧
      nonDecomposableOps.addToSubset (nonDecomposableOps.new 2) r (.select [2, 0]) none = .ok v ∧
      v.matrixValue.2 1 0 = r.matrixValue.2 1 1 ∧ r.matrixValue.2 1 1 ≠ r.matrixValue.2 2 0 := by
  refine ⟨⟨[7, 8, 9], [10, 11, 12, 13, 14, 15]⟩, ⟨[9, 7], [15, 12, 10]⟩, ⟨rfl, rfl⟩, ?_, rfl, by decide, by decide⟩
  intro i hi
  simp at hi
  omega

/-! ### Examples -/

/-- Three examples, two outputs, weights 2, 0 and 3. -/
def exampleData : Data ℤ (DenseVec ℤ) :=
  { rows := [⟨[1, -2], [3, 4]⟩, ⟨[5, 0], [6, 1]⟩, ⟨[0, 7], [1, 8]⟩], weights := .vector [2, 0, 3], numCols := 2 }

/-- The same statistics, where elements with gradient 0 and Hessian 1 are not stored. -/
def exampleSparse : Data ℤ (SparseRow ℤ) :=
  { rows := [[(1, -2, 4), (0, 1, 3)], [(0, 5, 6)], [(1, 7, 8)]], weights := .vector [2, 0, 3], numCols := 2 }

/-- The hypotheses of `dense_subset_sound` are met. -/
example : exampleData.Valid 3 (DenseVec.Valid 2) ∧ IndexVec.Valid 2 (.select [1]) ∧
    sinceReset [.add 0, .reset, .add 2, .add 1] = [2, 1] ∧ beforeReset [.add 0, .reset, .add 2, .add 1] = [0] := by
  refine ⟨⟨by decide, ?_, ?_⟩, ?_, by decide, by decide⟩
  · intro l hl; cases hl; decide
  · intro r hr
    simp only [exampleData, List.mem_cons, List.not_mem_nil, or_false] at hr
    rcases hr with rfl | rfl | rfl <;> exact ⟨rfl, rfl⟩
  · intro i hi; simp at hi; omega

/-- The hypotheses of `sparse_refines_dense` are met. -/
example : SameData 2 exampleData exampleSparse ∧ exampleSparse.Valid 3 (SparseRow.Valid 2) := by
  refine ⟨⟨rfl, rfl, ?_⟩, ⟨by decide, ?_, ?_⟩⟩
  · intro e r r' h h'
    funext i
    rcases e with _ | _ | _ | e
    all_goals simp only [exampleData, exampleSparse, List.getElem?_cons_zero, List.getElem?_cons_succ, List.getElem?_nil,
      Option.some.injEq, reduceCtorEq] at h h'
    all_goals subst h; subst h'; rcases i with _ | _ | i <;> simp [DenseVec.value, rowValue, element]
    all_goals rfl
  · intro l hl; cases hl; decide
  · intro r hr
    simp only [exampleSparse, List.mem_cons, List.not_mem_nil, or_false] at hr
    rcases hr with rfl | rfl | rfl <;> exact ⟨by decide, by decide⟩

/-- The weights are applied, and unselected outputs are ignored. -/
example : (do
    let t ← totalSum denseOps exampleData
    let s ← SubsetState.create denseOps exampleData t [1] (.select [1])
    let s ← SubsetState.run denseOps exampleData (.select [1]) [.add 0, .reset, .add 2, .add 1] s
    let u ← s.uncovered denseOps (.select [1])
    let a ← s.accumulated
    return (s.sum.gradients, u.gradients, a.gradients, a.hessians) : Res _) = .ok ([21], [-4], [-4], [8]) := by decide +kernel

end MLRL.Statistics
