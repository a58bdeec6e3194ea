import Verif.Lemma.LossUpdate
import Verif.Props.LossNorm

/-!
# C34, C35: evaluation measures and updates of statistics
-/

namespace MLRL.LossUpdate

open RuleEval Iterators Iterators.Spec Finset
open Loss (row)

variable {K T : Type}

/-! ### Specification -/

/-- The statistics of the given outputs are replaced by the values of `f`, all others are left unchanged. -/
def Updated (indices : List Nat) (f : Nat → Stat K) (before after : List (Stat K)) : Prop :=
  after.length = before.length ∧ ∀ c, after[c]? = if c ∈ indices then some (f c) else before[c]?

theorem row_getElem? {A : Type} {n c : Nat} {f : Nat → A} (h : c < n) : (row n f)[c]? = some (f c) := by
  unfold row
  simp [h]

theorem row_ext {A : Type} {n : Nat} {f : Nat → A} {l st : List A} (hl : l.length = n) (h : ∀ c, l[c]? = if c < n then some (f c) else st[c]?) :
    l = row n f := by
  refine List.ext_getElem? (fun c => ?_)
  rw [h]
  split_ifs with hc
  · rw [row_getElem? hc]
  · have h1 := h c
    rw [if_neg hc] at h1
    rw [← h1, List.getElem?_eq_none (by omega), List.getElem?_eq_none (by simp [row]; omega)]

theorem iterate_succ (k i : Nat) : iterate (fun i => i + 1) k i = i + k := by
  induction k with
  | zero => rfl
  | succ k ih =>
    simp only [iterate, ih]
    omega

theorem dense_iterate {n : Nat} (y : Nat → T) {c : Nat} (hc : c < n) :
    (denseForward (row n y)).deref (iterate (denseForward (row n y)).next c 0) = .ok (y c) := by
  simp only [denseForward, iterate_succ, Nat.zero_add]
  exact readAt_of_getElem? (row_getElem? hc)

theorem binary_iterate {labels : List Nat} (hl : labels.Pairwise (· < ·)) (c : Nat) :
    binaryForward.deref (iterate binaryForward.next c (BinarySparseForward.create labels 0)) = .ok (decide (c ∈ labels)) := by
  have := binarySparseForward_spec labels 0 hl (by simp) c
  rw [Nat.zero_add] at this
  exact congrArg Except.ok this

theorem sparse_iterate [Zero T] {truth : List (Nat × T)} (ht : (truth.map Prod.fst).Pairwise (· < ·)) (c : Nat) :
    sparseForward.deref (iterate sparseForward.next c (SparseForward.create truth 0 0)) = .ok (valueAt truth 0 c) := by
  have := sparseForward_spec truth (0 : T) 0 (by rwa [List.pairwise_map] at ht) (by simp) c
  rw [Nat.zero_add] at this
  exact congrArg Except.ok this

/-! ### C35: dense matrices of statistics -/

/-- **C35**, all outputs: the statistics of all outputs are recalculated, no matter how labels or targets are stored. -/
theorem complete_update (update : T → K → Stat K) (n : Nat) (s : Nat → K) (st : List (Stat K)) (hst : st.length = n) :
    (∀ y : Nat → T, updateComplete update (row n s) (denseForward (row n y)) 0 st n = .ok (row n (fun c => update (y c) (s c)))) ∧
    (∀ (zero : Zero T) (truth : List (Nat × T)), (truth.map Prod.fst).Pairwise (· < ·) →
      updateComplete update (row n s) sparseForward (SparseForward.create truth 0 0) st n =
        .ok (row n (fun c => update (valueAt truth 0 c) (s c)))) := by
  constructor
  · intro y
    obtain ⟨st', h1, h2, h3⟩ := updateComplete_ok (update := update) (st := st) (n := n) (by omega) (fun c hc => row_getElem? (f := s) hc)
      (fun c hc => dense_iterate y hc)
    rw [h1, row_ext (by omega) h3]
  · intro zero truth ht
    obtain ⟨st', h1, h2, h3⟩ := updateComplete_ok (update := update) (st := st) (n := n) (by omega) (fun c hc => row_getElem? (f := s) hc)
      (fun c _ => sparse_iterate ht c)
    rw [h1, row_ext (by omega) h3]

/-- **C35**, all outputs, sparse labels. -/
theorem complete_update_csr (update : Bool → K → Stat K) (n : Nat) (s : Nat → K) (st : List (Stat K)) (hst : st.length = n) {labels : List Nat}
    (hl : labels.Pairwise (· < ·)) :
    updateComplete update (row n s) binaryForward (BinarySparseForward.create labels 0) st n =
      .ok (row n (fun c => update (decide (c ∈ labels)) (s c))) := by
  obtain ⟨st', h1, h2, h3⟩ := updateComplete_ok (update := update) (st := st) (n := n) (by omega) (fun c hc => row_getElem? (f := s) hc)
    (fun c _ => binary_iterate hl c)
  rw [h1, row_ext (by omega) h3]

/-- **C35**, some outputs, dense labels: exactly the statistics of the given outputs are recalculated. -/
theorem partial_update (update : T → K → Stat K) (n : Nat) (y : Nat → T) (s : Nat → K) (st : List (Stat K)) (hst : st.length = n)
    {indices : List Nat} (hi : ∀ c ∈ indices, c < n) :
    ∃ st', updatePartial update (row n s) (row n y) indices st = .ok st' ∧ Updated indices (fun c => update (y c) (s c)) st st' := by
  subst hst
  obtain ⟨st', h1, h2, h3⟩ := updatePartial_ok (update := update) hi (fun c hc => row_getElem? (f := s) hc)
    (fun c hc => row_getElem? (f := y) hc)
  exact ⟨st', h1, h2, h3⟩

/-- **C35**, some outputs, sparse labels: holds if the indices are in increasing order. -/
theorem partial_update_csr_partial (update : Bool → K → Stat K) (n : Nat) (s : Nat → K) (st : List (Stat K)) (hst : st.length = n)
    {labels indices : List Nat} (hl : labels.Pairwise (· < ·)) (hi : ∀ c ∈ indices, c < n) (hsorted : indices.Pairwise (· < ·)) :
    ∃ st', updatePartialCsr update (row n s) labels indices st = .ok st' ∧
      Updated indices (fun c => update (decide (c ∈ labels)) (s c)) st st' := by
  subst hst
  obtain ⟨st', h1, h2, h3⟩ := updatePartialCsr_ok (update := update) hi (fun c hc => row_getElem? (f := s) hc) hl hsorted
  exact ⟨st', h1, h2, h3⟩

/-- **C35**, some outputs, sparse targets: holds if the indices are in increasing order. -/
theorem partial_update_regression_csr_partial [Zero T] (update : T → K → Stat K) (n : Nat) (s : Nat → K) (st : List (Stat K))
    (hst : st.length = n) {truth : List (Nat × T)} {indices : List Nat} (ht : (truth.map Prod.fst).Pairwise (· < ·))
    (hi : ∀ c ∈ indices, c < n) (hsorted : indices.Pairwise (· < ·)) :
    ∃ st', updatePartialRegressionCsr update (row n s) truth indices st = .ok st' ∧
      Updated indices (fun c => update (valueAt truth 0 c) (s c)) st st' := by
  subst hst
  obtain ⟨st', h1, h2, h3⟩ := updatePartialRegressionCsr_ok (update := update) hi (fun c hc => row_getElem? (f := s) hc) ht hsorted
  exact ⟨st', h1, h2, h3⟩

/-- A function that keeps label and score apart. -/
def probe (y : Bool) (x : ℚ) : Stat ℚ := ⟨if y then x - 1 else x, 1⟩

/-- The hypotheses of the theorems above are met by a row with four outputs, two of which are relevant and three of which are updated. -/
example : updatePartialCsr probe [1, 2, 3, 4] [1, 3] [0, 1, 3] [⟨7, 7⟩, ⟨7, 7⟩, ⟨7, 7⟩, ⟨7, 7⟩] =
    .ok [⟨1, 1⟩, ⟨1, 1⟩, ⟨7, 7⟩, ⟨3, 1⟩] := by decide +kernel

/-- **C35** does not hold for sparse labels if the indices are not in increasing order, as it is the case for the heads that result from beam
search: the output `0` is relevant, but taken for irrelevant. -/
theorem partial_update_csr_unsorted :
    updatePartialCsr probe [5, 5] [0, 1] [1, 0] [⟨7, 7⟩, ⟨7, 7⟩] = .ok [⟨5, 1⟩, ⟨4, 1⟩] ∧
      ¬ Updated [1, 0] (fun c => probe (decide (c ∈ [0, 1])) 5) [⟨7, 7⟩, ⟨7, 7⟩] [⟨5, 1⟩, ⟨4, 1⟩] := by
  refine ⟨by decide +kernel, fun h => ?_⟩
  have := h.2 0
  revert this
  decide +kernel

/-- **C35** does not hold for dense targets: the indices are ignored. The statistics of the output `1` should be updated, instead those of the
output `0` are. -/
theorem partial_update_regression_wrong :
    updatePartialRegression (fun (y : ℚ) x => (⟨x - y, 1⟩ : Stat ℚ)) [5, 6] [1, 1] [1] [⟨7, 7⟩, ⟨8, 8⟩] = .ok [⟨4, 1⟩, ⟨8, 8⟩] ∧
      ¬ Updated [1] (fun c => ⟨([5, 6][c]?).getD 0 - 1, 1⟩) [⟨7, 7⟩, ⟨8, 8⟩] [(⟨4, 1⟩ : Stat ℚ), ⟨8, 8⟩] := by
  refine ⟨by decide +kernel, fun h => ?_⟩
  have := h.2 0
  revert this
  decide +kernel

/-- What holds for dense targets: the first outputs are updated, as many as there are indices. -/
theorem partial_update_regression_partial (update : T → K → Stat K) (n : Nat) (y : Nat → T) (s : Nat → K) (st : List (Stat K))
    (hst : st.length = n) {indices : List Nat} (hi : indices.length ≤ n) :
    ∃ st', updatePartialRegression update (row n s) (row n y) indices st = .ok st' ∧
      Updated (List.range indices.length) (fun c => update (y c) (s c)) st st' := by
  obtain ⟨st', h1, h2, h3⟩ := updateComplete_ok (update := update) (st := st) (n := indices.length) (by omega)
    (fun c hc => row_getElem? (f := s) (n := n) (by omega)) (fun c hc => dense_iterate (n := n) y (by omega))
  refine ⟨st', h1, h2, fun c => ?_⟩
  rw [h3 c]
  simp

/-! ### C35: sparse matrices of statistics -/

/-- The statistics of the given outputs are replaced by the values of `f`, unless the gradient is zero, in which case they are removed. -/
def UpdatedSparse (isZero : K → Bool) (indices : Nat → Prop) [DecidablePred indices] (f : Nat → Stat K) (before after : Nat → Option (Stat K)) :
    Prop :=
  ∀ c, after c = if indices c then (if isZero (f c).gradient then none else some (f c)) else before c

theorem scoreOf_ok [Zero K] {n : Nat} {scores : SparseSet K} {m : Nat → Option K} (h : SparseSet.Rep n scores m) (hn : n ≤ SparseSet.maxIndex)
    {c : Nat} (hc : c < n) : scoreOf scores c = .ok ((m c).getD 0) := by
  unfold scoreOf
  rw [h.get hn hc, ok_bind]
  cases m c <;> rfl

theorem putOrErase_ok [Zero K] {n : Nat} {R : SparseSet (Stat K)} {m : Nat → Option (Stat K)} (h : SparseSet.Rep n R m)
    (hn : n ≤ SparseSet.maxIndex) {c : Nat} (hc : c < n) (isZero : K → Bool) (t : Stat K) :
    ∃ R', putOrErase isZero R c t = .ok R' ∧
      SparseSet.Rep n R' (fun c' => if c' = c then (if isZero t.gradient then none else some t) else m c') := by
  unfold putOrErase put
  by_cases hz : isZero t.gradient = true
  · simp only [hz, Bool.not_true, Bool.false_eq_true, if_false, if_true]
    exact h.erase hn hc
  · simp only [hz, Bool.not_eq_true, Bool.not_false, if_true, Bool.false_eq_true, if_false]
    exact h.modify hn hc _ _

theorem updatedSparse_step {isZero : K → Bool} {f : Nat → Stat K} {m m' : Nat → Option (Stat K)} {indices : List Nat} {i x : Nat}
    (hx : indices[i]? = some x) (h : UpdatedSparse isZero (fun c => c ∈ indices.take i) f m m') :
    UpdatedSparse isZero (fun c => c ∈ indices.take (i + 1)) f m
      (fun c' => if c' = x then (if isZero (f x).gradient then none else some (f x)) else m' c') := by
  intro c
  have hm := mem_take_succ hx c
  simp only
  by_cases e : c = x
  · subst e
    rw [if_pos rfl, if_pos (hm.2 (Or.inr rfl))]
  · rw [if_neg e, h c]
    by_cases h' : c ∈ indices.take i
    · rw [if_pos h', if_pos (hm.2 (Or.inl h'))]
    · rw [if_neg h', if_neg (fun hh => (hm.1 hh).elim h' e)]

/-- **C35**, sparse statistics, some outputs, dense labels. Score and statistics rows represent the maps `scores` and `before`, which is the case
for all rows that result from operations on sparse sets (C18). -/
theorem sparse_partial_update [Zero K] (update : Bool → K → Stat K) (isZero : K → Bool) {n : Nat} (hn : n ≤ SparseSet.maxIndex)
    {S : SparseSet K} {scores : Nat → Option K} (hS : SparseSet.Rep n S scores) {R : SparseSet (Stat K)} {before : Nat → Option (Stat K)}
    (hR : SparseSet.Rep n R before) (y : Nat → Bool) {indices : List Nat} (hi : ∀ c ∈ indices, c < n) :
    ∃ R' after, updateSparsePartial update isZero (row n y) S indices R = .ok R' ∧ SparseSet.Rep n R' after ∧
      UpdatedSparse isZero (fun c => c ∈ indices) (fun c => update (y c) ((scores c).getD 0)) before after := by
  unfold updateSparsePartial
  obtain ⟨r, h1, m, h2, h3⟩ := loop_rule (body := fun i row' => do
      let index ← readAt indices i
      let predictedScore ← scoreOf S index
      let trueLabel ← readAt (row n y) index
      putOrErase isZero row' index (update trueLabel predictedScore))
    (fun i r => ∃ m, SparseSet.Rep n r m ∧ UpdatedSparse isZero (fun c => c ∈ indices.take i) (fun c => update (y c) ((scores c).getD 0)) before m)
    indices.length R ⟨before, hR, fun c => by simp⟩ (by
    rintro i b hil ⟨m, g1, g2⟩
    have hx := List.getElem?_eq_getElem hil
    have hlt : indices[i] < n := hi _ (List.getElem_mem hil)
    obtain ⟨R', k1, k2⟩ := putOrErase_ok g1 hn hlt isZero (update (y indices[i]) ((scores indices[i]).getD 0))
    refine ⟨R', ?_, _, k2, updatedSparse_step hx g2⟩
    rw [readAt_of_lt hil, ok_bind, scoreOf_ok hS hn hlt, ok_bind, readAt_of_getElem? (row_getElem? hlt), ok_bind, k1])
  rw [List.take_length] at h3
  exact ⟨r, m, h1, h2, h3⟩

/-- **C35**, sparse statistics, some outputs in increasing order, sparse labels. -/
theorem sparse_partial_update_csr_partial [Zero K] (update : Bool → K → Stat K) (isZero : K → Bool) {n : Nat} (hn : n ≤ SparseSet.maxIndex)
    {S : SparseSet K} {scores : Nat → Option K} (hS : SparseSet.Rep n S scores) {R : SparseSet (Stat K)} {before : Nat → Option (Stat K)}
    (hR : SparseSet.Rep n R before) {labels indices : List Nat} (hl : labels.Pairwise (· < ·)) (hi : ∀ c ∈ indices, c < n)
    (hsorted : indices.Pairwise (· < ·)) :
    ∃ R' after, updateSparsePartialCsr update isZero labels S indices R = .ok R' ∧ SparseSet.Rep n R' after ∧
      UpdatedSparse isZero (fun c => c ∈ indices) (fun c => update (decide (c ∈ labels)) ((scores c).getD 0)) before after := by
  unfold updateSparsePartialCsr
  obtain ⟨r, h1, m, h2, h3⟩ := running_lowerBound hl hsorted
    (body := fun x _ b => putOrErase isZero b x (update (decide (x ∈ labels)) ((scores x).getD 0)))
    (fun i r => ∃ m, SparseSet.Rep n r m ∧
      UpdatedSparse isZero (fun c => c ∈ indices.take i) (fun c => update (decide (c ∈ labels)) ((scores c).getD 0)) before m)
    (b := R) ⟨before, hR, fun c => by simp⟩ (by
      rintro i b x hx ⟨m, g1, g2⟩
      have hlt := hi x (List.mem_of_getElem? hx)
      obtain ⟨R', k1, k2⟩ := putOrErase_ok g1 hn hlt isZero (update (decide (x ∈ labels)) ((scores x).getD 0))
      exact ⟨R', k1, _, k2, updatedSparse_step hx g2⟩)
    (body' := fun i (s : Nat × SparseSet (Stat K)) => do
      let index ← readAt indices i
      let position := lowerBound labels s.1 index
      let trueLabel := decide (labels[position]? = some index)
      let predictedScore ← scoreOf S index
      let row ← putOrErase isZero s.2 index (update trueLabel predictedScore)
      return (position, row)) (by
      intro i p x hx he b' hb
      have hlt := hi x (List.mem_of_getElem? hx)
      rw [readAt_of_getElem? hx, ok_bind]
      simp only [he]
      rw [scoreOf_ok hS hn hlt, ok_bind, hb]
      rfl)
  rw [List.take_length] at h3
  exact ⟨r.2, m, by rw [h1]; rfl, h2, h3⟩

theorem rep_valueAt [Zero K] {n : Nat} {S : SparseSet K} {m : Nat → Option K} (h : SparseSet.Rep n S m) {c : Nat} (hc : c < n) :
    valueAt S.values 0 c = (m c).getD 0 ∧ (c ∈ S.values.map Prod.fst ↔ (m c).isSome) := by
  cases hm : m c with
  | none =>
    have hnot : c ∉ S.values.map Prod.fst := by
      intro hmem
      obtain ⟨⟨c', v⟩, he, e⟩ := List.mem_map.1 hmem
      simp only at e
      subst e
      obtain ⟨k, hk⟩ := List.mem_iff_getElem?.1 he
      have := (h.cols k c' v hk).2.2
      rw [hm] at this
      cases this
    exact ⟨valueAt_absent hnot, by simpa using hnot⟩
  | some v =>
    obtain ⟨k, -, h2⟩ := h.present c v hc hm
    have hmem := List.mem_of_getElem? h2
    refine ⟨?_, by simpa using ⟨v, hmem⟩⟩
    unfold valueAt
    cases hf : S.values.find? (fun e => decide (e.1 = c)) with
    | none =>
      have := List.find?_eq_none.1 hf _ hmem
      simp at this
    | some e' =>
      have h1 := List.find?_some hf
      simp only [decide_eq_true_eq] at h1
      have h3 := List.mem_of_find?_eq_some hf
      have := List.inj_on_of_nodup_map h.nodup hmem h3 (by rw [h1])
      rw [← this]
      rfl

theorem rep_keys_lt {V : Type} {n : Nat} {S : SparseSet V} {m : Nat → Option V} (h : SparseSet.Rep n S m) : ∀ e ∈ S.values, e.1 < n := by
  rintro ⟨c, v⟩ he
  obtain ⟨k, hk⟩ := List.mem_iff_getElem?.1 he
  exact (h.cols k c v hk).1

/-- **C35**, sparse statistics, all outputs: if the entries of the row of scores are in increasing order, all statistics are recalculated, those of
the previous row are removed. The number of iterations is bounded by the number of relevant labels and scores. -/
theorem sparse_complete_update_partial [Zero K] (update : Bool → K → Stat K) (isZero : K → Bool) (hz : isZero (update false 0).gradient = true)
    {n : Nat} (hn : n ≤ SparseSet.maxIndex) {S : SparseSet K} {scores : Nat → Option K} (hS : SparseSet.Rep n S scores)
    (hsorted : (S.values.map Prod.fst).Pairwise (· < ·)) {R : SparseSet (Stat K)} {before : Nat → Option (Stat K)}
    (hR : SparseSet.Rep n R before) {I : Type} {ops : IndexIterator I} {it : I} {labels : List Nat} (hit : Represents ops it labels)
    (hl : labels.Pairwise (· < ·)) (hlt : ∀ c ∈ labels, c < n) {fuel : Nat} (hf : labels.length + S.values.length < fuel) :
    ∃ R' after, updateSparse update isZero ops fuel it S.values R = Run.done R' ∧ SparseSet.Rep n R' after ∧
      ∀ c < n, after c = if isZero (update (decide (c ∈ labels)) ((scores c).getD 0)).gradient then none
        else some (update (decide (c ∈ labels)) ((scores c).getD 0)) := by
  have hkeys := rep_keys_lt hS
  have hsort : Sorted labels S.values := ⟨hl, hsorted⟩
  have hkeys' : ∀ i ∈ S.values.map Prod.fst, i < n := by
    intro i hi
    obtain ⟨e, he, rfl⟩ := List.mem_map.1 hi
    exact hkeys e he
  have hmerged := merged_eq hsort hlt hkeys'
  obtain ⟨R0, c1, c2⟩ := hR.clear
  let es := nonZero update (fun t => isZero t.gradient) (merged labels S.values)
  obtain ⟨R', v1, v2⟩ := rep_visit hn update es c2
    (by
      refine ((merged_sorted labels S.values hsort).1.imp (fun h => Nat.ne_of_lt h)).sublist ?_
      exact List.Sublist.map _ List.filter_sublist)
    (by
      intro e he
      have := (List.mem_filter.1 he).1
      rcases (merged_keys labels S.values e.1).1 (List.mem_map_of_mem this) with h' | h'
      · exact hlt _ h'
      · exact hkeys' _ h')
  refine ⟨R', _, ?_, v2, fun c hc => ?_⟩
  · unfold updateSparse
    rw [c1, Run.lift_ok, Run.done_bind]
    exact whileNext_ok update _ _ fuel R0 hit (fun i hi => by have := hlt i hi; omega) (fun e he => by have := hkeys e he; omega)
      (by have := merged_length labels S.values; omega) v1
  · obtain ⟨hv, hk⟩ := rep_valueAt hS hc
    have hes : ∀ e, e ∈ es ↔ e ∈ merged labels S.values ∧ isZero (update e.2.1 e.2.2).gradient = false := by
      intro e
      simp only [es, nonZero, List.mem_filter, Bool.not_eq_true']
    have hval : ∀ e ∈ merged labels S.values, e.1 = c → e.2 = (decide (c ∈ labels), (scores c).getD 0) := by
      rintro e he rfl
      rw [← hv]
      exact (merged_sorted labels S.values hsort).2 e he
    cases hfind : es.find? (fun e => decide (e.1 = c)) with
    | some e =>
      have h1 := List.find?_some hfind
      simp only [decide_eq_true_eq] at h1
      obtain ⟨h2, h3⟩ := (hes e).1 (List.mem_of_find?_eq_some hfind)
      show some (update e.2.1 e.2.2) = _
      rw [hval e h2 h1] at h3 ⊢
      simp only at h3 ⊢
      rw [h3]
      rfl
    | none =>
      simp only
      rw [if_pos]
      by_contra hne
      have hne' : isZero (update (decide (c ∈ labels)) ((scores c).getD 0)).gradient = false := by simpa using hne
      by_cases hp : c ∈ labels ∨ c ∈ S.values.map Prod.fst
      · have : c ∈ (merged labels S.values).map Prod.fst := (merged_keys _ _ c).2 hp
        obtain ⟨e, he, hec⟩ := List.mem_map.1 this
        have hmem : e ∈ es := (hes e).2 ⟨he, by rw [hval e he hec]; exact hne'⟩
        have := List.find?_eq_none.1 hfind e hmem
        simp only [decide_eq_true_eq] at this
        exact this hec
      · rw [not_or] at hp
        have h1 : scores c = none := by
          have := hp.2
          rw [hk] at this
          simpa using this
        rw [decide_eq_false hp.1, h1] at hne'
        simp only [Option.getD_none] at hne'
        rw [hz] at hne'
        cases hne'

/-! ### C34: evaluation measures -/

/-- **C34**: the evaluation measure of a decomposable loss returns the mean of the losses of the individual outputs, no matter how labels or targets
are stored; `measureDistance` returns the same value. -/
theorem evaluate_mean [Field K] [CharZero K] (n : Nat) (s : Nat → K) :
    (∀ (evaluate : T → K → K) (y : Nat → T), evaluateInternally evaluate (row n s) (denseForward (row n y)) 0 n =
      .ok ((∑ c ∈ range n, evaluate (y c) (s c)) / (n : K))) ∧
    (∀ (zero : Zero T) (evaluate : T → K → K) (truth : List (Nat × T)), (truth.map Prod.fst).Pairwise (· < ·) →
      evaluateInternally evaluate (row n s) sparseForward (SparseForward.create truth 0 0) n =
        .ok ((∑ c ∈ range n, evaluate (valueAt truth 0 c) (s c)) / (n : K))) ∧
    ∀ (evaluate : Bool → K → K) (labels : List Nat), labels.Pairwise (· < ·) →
      evaluateInternally evaluate (row n s) binaryForward (BinarySparseForward.create labels 0) n =
        .ok ((∑ c ∈ range n, evaluate (decide (c ∈ labels)) (s c)) / (n : K)) ∧
      measureDistance evaluate labels (row n s) = .ok ((∑ c ∈ range n, evaluate (decide (c ∈ labels)) (s c)) / (n : K)) := by
  have hs : ∀ c < n, (row n s)[c]? = some (s c) := fun c hc => row_getElem? hc
  have hlen : (row n s).length = n := by simp [row]
  refine ⟨fun evaluate y => evaluateInternally_ok hs (fun c hc => dense_iterate y hc),
    fun zero evaluate truth ht => evaluateInternally_ok hs (fun c _ => sparse_iterate ht c), fun evaluate labels hl => ⟨?_, ?_⟩⟩
  · exact evaluateInternally_ok hs (fun c _ => binary_iterate hl c)
  · unfold measureDistance
    rw [hlen]
    exact evaluateInternally_ok hs (fun c _ => binary_iterate hl c)

/-- **C34**, sparse scores: if the entries of the row of scores are in increasing order, the result is the mean of the losses, where losses that are
taken for zero are ignored. -/
theorem evaluate_sparse_partial [Field K] [CharZero K] (evaluate : Bool → K → K) (isZero : K → Bool) (hz : isZero (evaluate false 0) = true)
    {n : Nat} (hn : n ≤ SparseSet.maxIndex) {S : SparseSet K} {scores : Nat → Option K} (hS : SparseSet.Rep n S scores)
    (hsorted : (S.values.map Prod.fst).Pairwise (· < ·)) {I : Type} {ops : IndexIterator I} {it : I} {labels : List Nat}
    (hit : Represents ops it labels) (hl : labels.Pairwise (· < ·)) (hlt : ∀ c ∈ labels, c < n) {fuel : Nat}
    (hf : labels.length + S.values.length < fuel) :
    evaluateSparse evaluate isZero ops fuel it S.values n =
      Run.done ((∑ c ∈ range n, if isZero (evaluate (decide (c ∈ labels)) ((scores c).getD 0)) then 0
        else evaluate (decide (c ∈ labels)) ((scores c).getD 0)) / (n : K)) := by
  have hkeys := rep_keys_lt hS
  have hsort : Sorted labels S.values := ⟨hl, hsorted⟩
  have hkeys' : ∀ i ∈ S.values.map Prod.fst, i < n := by
    intro i hi
    obtain ⟨e, he, rfl⟩ := List.mem_map.1 hi
    exact hkeys e he
  obtain ⟨mean, v1, v2⟩ := visit_mean evaluate (nonZero evaluate isZero (merged labels S.values)) 0 0
  unfold evaluateSparse
  rw [whileNext_ok evaluate isZero _ fuel _ hit (fun i hi => by have := hlt i hi; omega) (fun e he => by have := hkeys e he; omega)
    (by have := merged_length labels S.values; omega) v1, Run.done_bind, Run.pure_eq]
  refine congrArg Run.done ?_
  simp only
  rw [← mul_div_assoc, v2, zero_mul, zero_add]
  congr 1
  unfold nonZero
  rw [merged_eq hsort hlt hkeys', List.filter_map, List.map_map, List.filter_filter, list_sum_filter_range]
  refine sum_congr rfl (fun c hc => ?_)
  obtain ⟨hv, hk⟩ := rep_valueAt hS (mem_range.1 hc)
  simp only [Function.comp, hv, hk, Bool.and_eq_true, Bool.not_eq_true', decide_eq_true_eq]
  by_cases hzero : isZero (evaluate (decide (c ∈ labels)) ((scores c).getD 0)) = true
  · rw [if_pos hzero, if_neg]
    rintro ⟨h, -⟩
    rw [hzero] at h
    cases h
  · rw [if_neg hzero, if_pos]
    refine ⟨by simpa using hzero, ?_⟩
    by_contra hp
    rw [not_or] at hp
    have h1 : scores c = none := by simpa using hp.2
    rw [decide_eq_false hp.1, h1] at hzero
    exact hzero hz

/-- **C34**, sparse scores: if only zero is taken for zero, the result is the one of the dense implementation, for sparse labels as well as for dense
labels. -/
theorem evaluate_sparse_eq_dense_partial [Field K] [CharZero K] (evaluate : Bool → K → K) (isZero : K → Bool) (hexact : ∀ x, isZero x = true ↔ x = 0)
    (hz : evaluate false 0 = 0) {n : Nat} (hn : n ≤ SparseSet.maxIndex) {S : SparseSet K} {scores : Nat → Option K}
    (hS : SparseSet.Rep n S scores) (hsorted : (S.values.map Prod.fst).Pairwise (· < ·)) {labels : List Nat} (hl : labels.Pairwise (· < ·))
    (hlt : ∀ c ∈ labels, c < n) {fuel : Nat} (hf : labels.length + S.values.length < fuel) :
    ∃ v, evaluateSparse evaluate isZero csrIndices fuel labels S.values n = Run.done v ∧
      evaluateSparse evaluate isZero (nonZeroIndices (fun b => !b)) fuel (NonZeroIndex.create (fun b => !b) (row n (fun c => decide (c ∈ labels))))
        S.values n = Run.done v ∧
      evaluateInternally evaluate (row n (fun c => (scores c).getD 0)) binaryForward (BinarySparseForward.create labels 0) n = .ok v ∧
      evaluateInternally evaluate (row n (fun c => (scores c).getD 0)) (denseForward (row n (fun c => decide (c ∈ labels)))) 0 n = .ok v := by
  have hz' : isZero (evaluate false 0) = true := by rw [hexact, hz]
  have hsum : (∑ c ∈ range n, if isZero (evaluate (decide (c ∈ labels)) ((scores c).getD 0)) then 0
      else evaluate (decide (c ∈ labels)) ((scores c).getD 0)) = ∑ c ∈ range n, evaluate (decide (c ∈ labels)) ((scores c).getD 0) := by
    refine sum_congr rfl (fun c _ => ?_)
    split_ifs with h
    · exact ((hexact _).1 h).symm
    · rfl
  have hcols : nonZeroColumns (fun b => !b) (row n (fun c => decide (c ∈ labels))) = labels := by
    refine sorted_ext ?_ hl (fun c => ?_)
    · unfold nonZeroColumns
      exact List.pairwise_lt_range.sublist List.filter_sublist
    · unfold nonZeroColumns
      by_cases hc : c < n
      · simp [row, hc]
      · have := fun h => hc (hlt c h)
        simpa [row, hc] using this
  have hrep := represents_nonZero (fun b => !b) (row n (fun c => decide (c ∈ labels)))
  rw [hcols] at hrep
  refine ⟨_, evaluate_sparse_partial evaluate isZero hz' hn hS hsorted (represents_csr labels) hl hlt hf,
    evaluate_sparse_partial evaluate isZero hz' hn hS hsorted hrep hl hlt hf, ?_, ?_⟩
  · rw [hsum]
    exact ((evaluate_mean (T := Bool) n (fun c => (scores c).getD 0)).2.2 evaluate labels hl).1
  · rw [hsum]
    exact (evaluate_mean (T := Bool) n (fun c => (scores c).getD 0)).1 evaluate (fun c => decide (c ∈ labels))

/-- The hypotheses on the loss are met by the squared hinge loss, which is the only one that supports sparse scores. -/
example : Loss.squaredHingeEvaluate false 0 = 0 ∧ (Loss.squaredHingeUpdate false 0).gradient = 0 := by
  simp [Loss.squaredHingeEvaluate, Loss.squaredHingeUpdate]

/-- The loss of the examples below: the squared hinge loss. -/
def hingeUpdate (y : Bool) (x : ℚ) : Stat ℚ := ⟨if y then (if x < 1 then x - 1 else 0) else (if x > 0 then x else 0), 1⟩

/-- The loss of the examples below: the squared hinge loss. -/
def hingeEvaluate (y : Bool) (x : ℚ) : ℚ := if y then (if x < 1 then (1 - x) * (1 - x) else 0) else (if x > 0 then x * x else 0)

deriving instance DecidableEq for SparseSet

/-- The scores of a row with five outputs after the prediction of `1/2` for the output `3` and of `1/4` for the output `1`. -/
def unsortedScores : Res (SparseSet ℚ) := do
  let s ← SparseSet.addToRow [(3, 1 / 2)] (SparseSet.init 5)
  SparseSet.addToRow [(1, 1 / 4)] s

/-- **C34** and **C35** do not hold if the entries of the row of scores are not in increasing order: the label `1` is relevant, but the score `1/4` is
taken for the one of an irrelevant label, in addition to the score `0` of the relevant label. -/
theorem sparse_unsorted : ∃ S, unsortedScores = .ok S ∧
    evaluateSparse hingeEvaluate (fun x => x == 0) csrIndices 9 [1] S.values 5 = Run.done (21 / 80) ∧
    evaluateInternally hingeEvaluate [0, 1 / 4, 0, 1 / 2, 0] binaryForward (BinarySparseForward.create [1] 0) 5 = .ok (13 / 80) ∧
    (∃ R, updateSparse hingeUpdate (fun x => x == 0) csrIndices 9 [1] S.values (SparseSet.init 5) = Run.done R ∧
      R.get 1 = .ok (some (1, ⟨1 / 4, 1⟩)) ∧ hingeUpdate true (1 / 4) = ⟨-(3 / 4), 1⟩) := by
  refine ⟨⟨[(3, 1 / 2), (1, 1 / 4)], [SparseSet.maxIndex, 1, SparseSet.maxIndex, 0, SparseSet.maxIndex]⟩, by decide +kernel,
    by decide +kernel, by decide +kernel, ⟨[(1, ⟨1 / 4, 1⟩), (3, ⟨1 / 2, 1⟩)], [SparseSet.maxIndex, 0, SparseSet.maxIndex, 1, SparseSet.maxIndex]⟩,
    by decide +kernel, by decide +kernel, by decide +kernel⟩

/-- A sorted row, for which dense and sparse evaluation agree. -/
example : evaluateSparse hingeEvaluate (fun x => x == 0) csrIndices 9 [1, 4] [(1, 1 / 4), (3, 1 / 2)] 5 = Run.done (29 / 80) ∧
    evaluateInternally hingeEvaluate [0, 1 / 4, 0, 1 / 2, 0] binaryForward (BinarySparseForward.create [1, 4] 0) 5 = .ok (29 / 80) := by
  decide +kernel

/-- **C34**: the mean of losses that are not negative is not negative, and it is zero if and only if the loss of every output is zero. -/
theorem mean_nonneg [Field K] [LinearOrder K] [IsStrictOrderedRing K] {n : Nat} (hn : 0 < n) {f : Nat → K} (hf : ∀ c < n, 0 ≤ f c) :
    0 ≤ (∑ c ∈ range n, f c) / (n : K) ∧ ((∑ c ∈ range n, f c) / (n : K) = 0 ↔ ∀ c < n, f c = 0) := by
  have hpos : (0 : K) < n := by exact_mod_cast hn
  have hsum : 0 ≤ ∑ c ∈ range n, f c := sum_nonneg (fun c hc => hf c (mem_range.1 hc))
  refine ⟨div_nonneg hsum (le_of_lt hpos), ?_⟩
  rw [div_eq_zero_iff, or_iff_left (ne_of_gt hpos), sum_eq_zero_iff_of_nonneg (fun c hc => hf c (mem_range.1 hc))]
  exact ⟨fun h c hc => h c (mem_range.2 hc), fun h c hc => h c (mem_range.1 hc)⟩

/-- **C34**: the values of all losses are not negative. Those of the squared error loss and the squared hinge loss are zero exactly for perfect
predictions; the logistic loss is always positive. -/
theorem losses_nonneg :
    (∀ y x, 0 < Loss.logisticEvaluate y x) ∧
    (∀ e x, 0 ≤ Loss.squaredErrorEvaluateRegression e x ∧ (Loss.squaredErrorEvaluateRegression e x = 0 ↔ x = e)) ∧
    (∀ y x, 0 ≤ Loss.squaredErrorEvaluate y x ∧ (Loss.squaredErrorEvaluate y x = 0 ↔ x = Loss.expected y)) ∧
    ∀ y x, 0 ≤ Loss.squaredHingeEvaluate y x ∧ (Loss.squaredHingeEvaluate y x = 0 ↔ if y then 1 ≤ x else x ≤ 0) := by
  have hreg : ∀ e x : ℝ, 0 ≤ Loss.squaredErrorEvaluateRegression e x ∧ (Loss.squaredErrorEvaluateRegression e x = 0 ↔ x = e) := by
    intro e x
    simp only [Loss.squaredErrorEvaluateRegression]
    refine ⟨mul_self_nonneg _, ?_⟩
    rw [mul_self_eq_zero, sub_eq_zero]
    exact eq_comm
  refine ⟨fun y x => ?_, hreg, fun y x => hreg _ x, fun y x => ?_⟩
  · rw [(Loss.logistic_derivatives y x).1]
    exact Real.log_pos (by linarith [Real.exp_pos (Loss.margin y x)])
  · unfold Loss.squaredHingeEvaluate
    cases y
    · simp only [Bool.false_eq_true, if_false, gt_iff_lt]
      split_ifs with h
      · exact ⟨mul_self_nonneg _, by rw [mul_self_eq_zero]; constructor <;> intro h' <;> linarith⟩
      · exact ⟨le_refl _, by simpa using h⟩
    · simp only [if_true]
      split_ifs with h
      · exact ⟨mul_self_nonneg _, by rw [mul_self_eq_zero]; constructor <;> intro h' <;> linarith⟩
      · exact ⟨le_refl _, by simpa using h⟩

/-- **C34**: the same for the non-decomposable losses. -/
theorem joint_losses_nonneg (n : Nat) :
    (∀ y s, 0 ≤ Loss.jointLogisticLoss n y s) ∧
    (∀ e s, 0 ≤ Loss.jointSquaredLoss n e s ∧ (Loss.jointSquaredLoss n e s = 0 ↔ ∀ c < n, s c = e c)) ∧
    ∀ y s, 0 ≤ Loss.jointHingeLoss n y s ∧ (Loss.jointHingeLoss n y s = 0 ↔ ∀ c < n, if y c then 1 ≤ s c else s c ≤ 0) := by
  have key : ∀ f : Nat → ℝ, 0 ≤ Real.sqrt (∑ c ∈ range n, f c ^ 2) ∧ (Real.sqrt (∑ c ∈ range n, f c ^ 2) = 0 ↔ ∀ c < n, f c = 0) := by
    intro f
    refine ⟨Real.sqrt_nonneg _, ?_⟩
    rw [Real.sqrt_eq_zero (sum_nonneg (fun _ _ => sq_nonneg _)), sum_eq_zero_iff_of_nonneg (fun _ _ => sq_nonneg _)]
    simp
  refine ⟨fun y s => ?_, fun e s => ?_, fun y s => ?_⟩
  · unfold Loss.jointLogisticLoss
    have : 0 ≤ ∑ i ∈ range n, Real.exp (Loss.margin (y i) (s i)) := sum_nonneg (fun _ _ => le_of_lt (Real.exp_pos _))
    exact Real.log_nonneg (by linarith)
  · have := key (fun c => s c - e c)
    simp only [sub_eq_zero] at this
    exact this
  · have h := key (fun c => Loss.hinge (y c) (s c))
    refine ⟨h.1, h.2.trans (forall₂_congr (fun c _ => ?_))⟩
    unfold Loss.hinge
    cases y c <;> simp [sub_nonpos]

end MLRL.LossUpdate
