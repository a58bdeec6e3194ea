import Verif.Spec.Confusion
import Verif.Lemma.Coverage
import Verif.Lemma.StatisticVector
import Verif.Lemma.LossUpdate

/-! # Lemmas about vectors of confusion matrices -/

set_option linter.unusedSectionVars false

namespace MLRL.Seco

open Iterators Statistics

variable {K : Type} [CommRing K]

theorem addElement_eq (c : Confusion K) (trueLabel majorityLabel : Bool) (w : K) :
    c.addElement trueLabel majorityLabel w = c + w • unitConfusion trueLabel majorityLabel := by
  obtain ⟨a, b, d, e⟩ := c
  cases trueLabel <;> cases majorityLabel <;> simp [Confusion.addElement, unitConfusion]

theorem element_set {α : Type} [Zero α] {l : List α} {j : Nat} (h : j < l.length) (x : α) (i : Nat) :
    element (l.set j x) i = if i = j then x else element l i := by
  unfold element
  rw [List.getElem?_set]
  by_cases e : j = i
  · subst e
    rw [if_pos rfl, if_pos h, if_pos rfl]
    rfl
  · rw [if_neg e, if_neg (fun h => e h.symm)]

/-- The iterator for labels after `i` steps. -/
def labelItAt (labels : LabelRow) (i : Nat) : LabelIt :=
  match labels with
  | .dense array offset => .dense array (offset + i)
  | .csr indices => .csr (iterate BinarySparseForward.next i (BinarySparseForward.create indices 0))

theorem labelItAt_zero (labels : LabelRow) : labels.begin = labelItAt labels 0 := by
  cases labels <;> rfl

theorem labelItAt_next (labels : LabelRow) (i : Nat) : (labelItAt labels i).next = labelItAt labels (i + 1) := by
  cases labels <;> rfl

theorem labelItAt_deref {n : Nat} {r : Row} (hr : r.Valid n) {i : Nat} (hi : i < n) :
    (labelItAt r.labels i).deref = .ok (r.labels.isRelevant i) := by
  cases e : r.labels with
  | dense array offset =>
    have hl := hr.dense array offset e
    show readAt array (offset + i) = _
    rw [readAt_of_lt (by omega)]
    simp only [LabelRow.isRelevant]
    rw [List.getElem?_eq_getElem (by omega)]
    congr 1
    cases array[offset + i] <;> simp
  | csr indices =>
    show Except.ok _ = _
    rw [LabelVectors.forward_iterate (hr.csr indices e)]
    rfl

theorem isUncovered_iff {n : Nat} {r : Row} (hr : r.Valid n) {i : Nat} (hi : i < n) :
    ∃ c, readAt r.coverage (r.offset + i) = .ok c ∧ (c = 0 ↔ r.isUncovered i = true) := by
  have := hr.coverage
  refine ⟨r.coverage[r.offset + i]'(by omega), readAt_of_lt (by omega), ?_⟩
  unfold Row.isUncovered
  rw [List.getElem?_eq_getElem (by omega)]
  simp

theorem rowValue_of_lt {majority : List Nat} {n : Nat} (r : Row) {i : Nat} (hi : i < n) : (Row.value majority n r : ConfusionMatrices K) i =
    if r.isUncovered i = true then unitConfusion (r.labels.isRelevant i) (decide (i ∈ majority)) else 0 := by
  unfold Row.value
  by_cases e : r.isUncovered i = true
  · rw [if_pos ⟨hi, e⟩, if_pos e]
  · rw [if_neg (fun h => e h.2), if_neg e]

theorem addInternally_ok {majority : List Nat} (hm : majority.Pairwise (· < ·)) {n : Nat} {r : Row} (hr : r.Valid n) (w : K)
    {v : List (Confusion K)} (hv : v.length = n) :
    ∃ v', addInternally majority r w v = .ok v' ∧ v'.length = n ∧ ∀ j, element v' j = element v j + w • r.value majority n j := by
  unfold addInternally
  obtain ⟨s, h1, h2⟩ := loop_rule (body := fun i (s : (LabelIt × BinarySparseForward) × List (Confusion K)) => do
      let coverage ← readAt r.coverage (r.offset + i)
      let v ← addLabel s.1.1 s.1.2.deref coverage w s.2 i
      return ((s.1.1.next, s.1.2.next), v))
    (fun i s => s.1.1 = labelItAt r.labels i ∧ s.1.2 = iterate BinarySparseForward.next i (BinarySparseForward.create majority 0) ∧
      s.2.length = n ∧ ∀ j, element s.2 j = if j < i then element v j + w • r.value majority n j else element v j) v.length
    ((r.labels.begin, BinarySparseForward.create majority 0), v)
    ⟨labelItAt_zero _, rfl, hv, fun j => by rw [if_neg (by omega)]⟩ (by
      rintro i ⟨⟨lit, mit⟩, u⟩ hi ⟨rfl, rfl, hu, hel⟩
      simp only at hu hel
      rw [hv] at hi
      obtain ⟨c, hc, hc'⟩ := isUncovered_iff hr hi
      simp only [hc, ok_bind]
      have key : ∃ u', addLabel (labelItAt r.labels i) (iterate BinarySparseForward.next i (BinarySparseForward.create majority 0)).deref c w u i
          = .ok u' ∧ u'.length = n ∧ ∀ j, element u' j = if j = i then element u i + w • r.value majority n i else element u j := by
        unfold addLabel
        rw [rowValue_of_lt r hi]
        by_cases e : c = 0
        · rw [if_pos e, if_pos (hc'.1 e), labelItAt_deref hr hi, ok_bind, readAt_element (by omega), ok_bind,
            writeAt_of_lt (by omega), LabelVectors.forward_iterate hm, addElement_eq]
          exact ⟨_, rfl, by rw [List.length_set, hu], fun j => element_set (by omega) _ j⟩
        · rw [if_neg e, if_neg (fun h => e (hc'.2 h))]
          refine ⟨u, rfl, hu, fun j => ?_⟩
          split
          · next h => rw [h, smul_zero, add_zero]
          · rfl
      obtain ⟨u', k1, k2, k3⟩ := key
      rw [k1, ok_bind]
      refine ⟨_, rfl, labelItAt_next _ _, rfl, k2, fun j => ?_⟩
      rw [k3]
      by_cases e : j = i
      · subst e
        rw [if_pos rfl, if_pos (by omega), hel, if_neg (by omega)]
      · rw [if_neg e, hel]
        by_cases h : j < i
        · rw [if_pos h, if_pos (by omega)]
        · rw [if_neg h, if_neg (by omega)])
  rw [h1, ok_bind]
  obtain ⟨-, -, k3, k4⟩ := h2
  refine ⟨_, rfl, k3, fun j => ?_⟩
  rw [k4]
  by_cases e : j < v.length
  · rw [if_pos e]
  · rw [if_neg e]
    have : (r.value majority n : ConfusionMatrices K) j = 0 := by
      unfold Row.value
      exact if_neg (fun h => e (by omega))
    rw [this, smul_zero, add_zero]

theorem labelAt_ok {n : Nat} {r : Row} (hr : r.Valid n) {p i : Nat} (hi : i < n)
    (hp : ∀ indices, r.labels = .csr indices → ∀ k < p, ∀ x, indices[k]? = some x → x < i) :
    ∃ p', labelAt r.labels p i = .ok (r.labels.isRelevant i, p') ∧
      ∀ indices, r.labels = .csr indices → ∀ k < p', ∀ x, indices[k]? = some x → x < i := by
  cases e : r.labels with
  | dense array offset =>
    have hl := hr.dense array offset e
    refine ⟨p, ?_, by simp⟩
    simp only [labelAt, LabelRow.isRelevant]
    rw [readAt_of_lt (by omega), ok_bind, List.getElem?_eq_getElem (by omega)]
    show Except.ok _ = _
    congr 2
    cases array[offset + i] <;> simp
  | csr indices =>
    obtain ⟨h1, h2⟩ := LossUpdate.lowerBound_spec (hr.csr indices e) (hp indices e)
    refine ⟨LossUpdate.lowerBound indices p i, ?_, ?_⟩
    · simp only [labelAt, LabelRow.isRelevant]
      congr 2
      exact decide_eq_decide.2 h1
    · intro l hl
      cases hl
      exact h2

theorem addToSubsetPartial_ok {majority : List Nat} (hm : majority.Pairwise (· < ·)) {n : Nat} {r : Row} (hr : r.Valid n) (w : K)
    {indices : List Nat} (hi : ∀ i ∈ indices, i < n) (hs : indices.Pairwise (· ≤ ·)) {v : List (Confusion K)} (hv : v.length = indices.length) :
    ∃ v', addToSubsetPartial majority r indices w v = .ok v' ∧ v'.length = indices.length ∧
      ∀ j, element v' j = element v j + w • selectConfusion (.select indices) (r.value majority n) j := by
  unfold addToSubsetPartial
  obtain ⟨s, h1, h2⟩ := loop_rule (body := fun i (s : SubsetIt × List (Confusion K)) => do
      let index ← readAt indices i
      let coverage ← readAt r.coverage (r.offset + index)
      addIndex r.labels index coverage w s.1 s.2 i)
    (fun i s => s.1.majority = iterate BinarySparseForward.next s.1.previousIndex (BinarySparseForward.create majority 0) ∧
      (∀ (k x : Nat), i ≤ k → indices[k]? = some x → s.1.previousIndex ≤ x ∧
        ∀ labels, r.labels = .csr labels → ∀ k < s.1.position, ∀ y, labels[k]? = some y → y < x) ∧
      s.2.length = indices.length ∧
      ∀ j, element s.2 j = if j < i then element v j + w • selectConfusion (.select indices) (r.value majority n) j else element v j)
    indices.length ({ position := 0, majority := BinarySparseForward.create majority 0, previousIndex := 0 }, v)
    ⟨rfl, fun k x _ _ => ⟨Nat.zero_le _, fun l _ k hk => absurd hk (Nat.not_lt_zero _)⟩, hv, fun j => by rw [if_neg (by omega)]⟩ (by
      rintro i ⟨⟨p, mit, previous⟩, u⟩ hil ⟨hmit, hpos, hu, hel⟩
      simp only at hmit hpos hu hel
      subst hmit
      have hmem : indices[i] ∈ indices := List.getElem_mem hil
      have hin := hi _ hmem
      simp only [readAt_of_lt hil, ok_bind]
      obtain ⟨c, hc, hc'⟩ := isUncovered_iff hr hin
      simp only [hc, ok_bind]
      have hsel : (selectConfusion (.select indices) (r.value majority n) : ConfusionMatrices K) i = r.value majority n indices[i] := by
        unfold selectConfusion
        rw [if_pos (show i < (IndexVec.select indices).size from hil)]
        simp only [IndexVec.index]
        rw [element_of_lt hil]
      have hrest : ∀ (k x : Nat), i + 1 ≤ k → indices[k]? = some x → indices[i] ≤ x := by
        intro k x hk hx
        obtain ⟨hkl, rfl⟩ := List.getElem?_eq_some_iff.1 hx
        exact List.pairwise_iff_getElem.1 hs i k hil hkl (by omega)
      have hfin : ∀ (u' : List (Confusion K)), (∀ j, element u' j = if j = i then element u i + w • r.value majority n indices[i] else element u j) →
          ∀ j, element u' j = if j < i + 1 then element v j + w • selectConfusion (.select indices) (r.value majority n) j else element v j := by
        intro u' h j
        rw [h]
        by_cases e : j = i
        · subst e
          rw [if_pos rfl, if_pos (by omega), hel, if_neg (by omega), hsel]
        · rw [if_neg e, hel]
          by_cases h : j < i
          · rw [if_pos h, if_pos (by omega)]
          · rw [if_neg h, if_neg (by omega)]
      obtain ⟨hprev, hlab⟩ := hpos i indices[i] (Nat.le_refl _) (List.getElem?_eq_getElem hil)
      unfold addIndex
      by_cases e : c = 0
      · obtain ⟨p', hp1, hp2⟩ := labelAt_ok hr (p := p) hin hlab
        rw [if_pos e, hp1, ok_bind]
        simp only
        rw [advance_ok hprev, ok_bind, readAt_element (by omega), ok_bind, writeAt_of_lt (by omega), ok_bind, LabelVectors.forward_iterate hm,
          addElement_eq]
        refine ⟨_, rfl, rfl, fun k x hk hx => ⟨hrest k x hk hx, fun l hl k' hk' y hy => ?_⟩, by simp only [List.length_set, hu], ?_⟩
        · exact Nat.lt_of_lt_of_le (hp2 l hl k' hk' y hy) (hrest k x hk hx)
        · refine hfin _ (fun j => ?_)
          rw [element_set (by omega), rowValue_of_lt r hin, if_pos (hc'.1 e)]
      · rw [if_neg e]
        refine ⟨_, rfl, rfl, fun k x hk hx => hpos k x (by omega) hx, hu, ?_⟩
        refine hfin _ (fun j => ?_)
        rw [rowValue_of_lt r hin, if_neg (fun h => e (hc'.2 h)), smul_zero, add_zero]
        split
        · next h => rw [h]
        · rfl)
  rw [h1, ok_bind]
  obtain ⟨-, -, k3, k4⟩ := h2
  refine ⟨_, rfl, k3, fun j => ?_⟩
  rw [k4]
  by_cases e : j < indices.length
  · rw [if_pos e]
  · rw [if_neg e]
    have : (selectConfusion (.select indices) (r.value majority n) : ConfusionMatrices K) j = 0 := if_neg e
    rw [this, smul_zero, add_zero]

theorem weightOf_times {M : Type} [AddCommGroup M] [Module K M] (w : Option K) (m : M) : weightOf w • m = times w m := by
  cases w with
  | none => exact one_smul K m
  | some w => rfl

theorem element_replicate_zero {α : Type} [Zero α] (n i : Nat) : element (List.replicate n (0 : α)) i = 0 := by
  unfold element
  rw [List.getElem?_replicate]
  split <;> rfl

theorem element_map_zero' {α : Type} [Zero α] (l : List α) (i : Nat) : element (l.map (fun _ => (0 : α))) i = 0 := by
  unfold element
  rw [List.getElem?_map]
  cases l[i]? <;> rfl

theorem times_function {A : Type} [AddCommGroup A] [Module K A] (w : Option K) (f : Nat → A) (i : Nat) : times w f i = times w (f i) := by
  cases w <;> rfl

theorem confusionLaws {majority : List Nat} (hm : majority.Pairwise (· < ·)) (n : Nat) :
    Laws (K := K) (confusionOps majority) n (fun k v => v.length = k) (Row.Valid n) (IndicesOk n) (fun v => (element v : ConfusionMatrices K))
      (Row.value majority n) selectConfusion where
  new k := ⟨List.length_replicate, by funext i; exact element_replicate_zero k i⟩
  clear k v hv := ⟨by show (v.map _).length = k; rw [List.length_map, hv], by funext i; exact element_map_zero' v i⟩
  add v r w hv hr := by
    obtain ⟨v', h1, h2, h3⟩ := addInternally_ok hm hr (weightOf w) hv
    refine ⟨v', h1, h2, ?_⟩
    funext i
    rw [h3, weightOf_times, Pi.add_apply, times_function]
  remove v r w hv hr := by
    obtain ⟨v', h1, h2, h3⟩ := addInternally_ok hm hr (-weightOf w) hv
    refine ⟨v', h1, h2, ?_⟩
    funext i
    rw [h3, neg_smul, weightOf_times, Pi.sub_apply, times_function, sub_eq_add_neg]
  addToSubset v r idx w hidx hv hr := by
    cases idx with
    | complete m =>
      have hmn : m = n := hidx.1
      subst hmn
      obtain ⟨v', h1, h2, h3⟩ := addInternally_ok hm hr (weightOf w) hv
      refine ⟨v', h1, h2, ?_⟩
      funext i
      have : (selectConfusion (.complete m) (r.value majority m) : ConfusionMatrices K) i = r.value majority m i := by
        unfold selectConfusion
        by_cases e : i < m
        · rw [if_pos (show i < (IndexVec.complete m).size from e)]
          rfl
        · rw [if_neg (show ¬i < (IndexVec.complete m).size from e)]
          unfold Row.value
          rw [if_neg (fun h => e h.1)]
      rw [h3, weightOf_times, Pi.add_apply, times_function, this]
    | select l =>
      obtain ⟨v', h1, h2, h3⟩ := addToSubsetPartial_ok hm hr (weightOf w) hidx.1 hidx.2 hv
      refine ⟨v', h1, h2, ?_⟩
      funext i
      rw [h3, weightOf_times, Pi.add_apply, times_function]
  addVector k v u hv hu := by
    obtain ⟨v', h1, h2, h3⟩ := updateRange_element (a := v) (off := 0) (n := v.length) (g := fun i x => do let y ← readAt u i; pure (x + y))
      (v := fun i => element v i + element u i) (by omega) (fun i hi => by
        rw [readAt_element (by omega), Nat.zero_add]
        rfl)
    refine ⟨v', h1, by omega, ?_⟩
    funext i
    rw [h3, Pi.add_apply]
    by_cases e : i < v.length
    · rw [if_pos ⟨Nat.zero_le _, by omega⟩, Nat.sub_zero]
    · rw [if_neg (by omega), element_of_le (l := u) (by omega), add_zero]
  difference v a idx b hidx hv ha hb := by
    have key : ∀ (g : Nat → Confusion K → Res (Confusion K)), (∀ i < idx.size, ∀ x, g i x = .ok (element a (idx.index i) - element b i)) →
        ∃ v', updateRange v 0 v.length g = .ok v' ∧ v'.length = idx.size ∧
          (element v' : ConfusionMatrices K) = selectConfusion idx (element a) - element b := by
      intro g hg
      obtain ⟨v', h1, h2, h3⟩ := updateRange_element (a := v) (off := 0) (n := v.length) (g := g)
        (v := fun i => element a (idx.index i) - element b i) (by omega) (fun i hi => hg i (by omega) _)
      refine ⟨v', h1, by omega, ?_⟩
      funext i
      rw [h3, Pi.sub_apply]
      unfold selectConfusion
      by_cases e : i < v.length
      · rw [if_pos ⟨Nat.zero_le _, by omega⟩, Nat.sub_zero, if_pos (by omega)]
      · rw [if_neg (by omega), if_neg (by omega), element_of_le (l := v) (by omega), element_of_le (l := b) (by omega), sub_zero]
    cases idx with
    | complete m =>
      have hmn : m = n := hidx.1
      subst hmn
      refine key _ (fun i hi x => ?_)
      simp only [IndexVec.size] at hi hb
      rw [readAt_element (l := a) (by omega), ok_bind, readAt_element (l := b) (by omega)]
      rfl
    | select l =>
      refine key _ (fun i hi x => ?_)
      simp only [IndexVec.size] at hi hb
      have : element l i < n := index_lt (idx := .select l) hidx.1 hi
      rw [readAt_element (l := l) hi, ok_bind, readAt_element (l := a) (by omega), ok_bind, readAt_element (l := b) (by omega)]
      rfl
  select_sub idx a b := by
    funext i
    unfold selectConfusion
    simp only [Pi.sub_apply]
    split <;> simp
  select_sum idx l := by
    induction l with
    | nil =>
      funext i
      simp [selectConfusion]
    | cons x l ih =>
      rw [List.map_cons, List.sum_cons, List.sum_cons, ← ih]
      funext i
      unfold selectConfusion
      simp only [Pi.add_apply]
      split <;> simp
  select_times idx w a := by
    funext i
    unfold selectConfusion
    simp only [times_function]
    split
    · rfl
    · cases w <;> simp [times]

/-! ### Executions without faults -/

theorem loopFrom_inv {σ : Type} {body : Nat → σ → Res σ} (P : Nat → σ → Prop) (n : Nat) :
    ∀ (start : Nat) (s r : σ), loopFrom body start n s = .ok r → P start s →
      (∀ i s s', start ≤ i → i < start + n → P i s → body i s = .ok s' → P (i + 1) s') → P (start + n) r := by
  induction n with
  | zero =>
    intro start s r h h0 _
    cases h
    exact h0
  | succ k ih =>
    intro start s r h h0 step
    rw [loopFrom_succ] at h
    cases e : body start s with
    | error f =>
      rw [e, error_bind] at h
      cases h
    | ok s' =>
      rw [e, ok_bind] at h
      have := ih (start + 1) s' r h (step start s s' (Nat.le_refl _) (by omega) h0 e)
        (fun i t t' h1 h2 => step i t t' (by omega) (by omega))
      rwa [show start + 1 + k = start + (k + 1) by omega] at this

theorem loop_inv {σ : Type} {body : Nat → σ → Res σ} (P : Nat → σ → Prop) {n : Nat} {s r : σ} (h : loop n body s = .ok r) (h0 : P 0 s)
    (step : ∀ i s s', i < n → P i s → body i s = .ok s' → P (i + 1) s') : P n r := by
  have := loopFrom_inv P n 0 s r h h0 (fun i s s' _ hi => step i s s' (by omega))
  rwa [Nat.zero_add] at this

theorem bind_ok {α β : Type} {a : Res α} {f : α → Res β} {b : β} (h : (a >>= f) = .ok b) : ∃ x, a = .ok x ∧ f x = .ok b := by
  cases a with
  | error e => cases h
  | ok x => exact ⟨x, rfl, h⟩

theorem addLabel_length {labels : LabelIt} {m : Bool} {c : Nat} {w : K} {v v' : List (Confusion K)} {i : Nat}
    (h : addLabel labels m c w v i = .ok v') : v'.length = v.length := by
  unfold addLabel at h
  split at h
  · obtain ⟨t, -, h⟩ := bind_ok h
    obtain ⟨x, -, h⟩ := bind_ok h
    by_cases e : i < v.length
    · rw [writeAt_of_lt e] at h
      cases h
      exact List.length_set
    · rw [writeAt_of_le (by omega)] at h
      cases h
  · cases h
    rfl

/-- If `addInternally` does not fail, coverages have been read for all elements of the vector. -/
theorem addInternally_inv {majority : List Nat} {r : Row} {w : K} {v v' : List (Confusion K)} (h : addInternally majority r w v = .ok v') :
    v'.length = v.length ∧ (0 < v.length → r.offset + v.length ≤ r.coverage.length) := by
  unfold addInternally at h
  obtain ⟨s, hs, e⟩ := bind_ok h
  cases e
  obtain ⟨h1, h2⟩ := loop_inv (fun i (s : (LabelIt × BinarySparseForward) × List (Confusion K)) =>
    s.2.length = v.length ∧ (0 < i → r.offset + i ≤ r.coverage.length)) hs ⟨rfl, by omega⟩ (by
    rintro i s s' hi ⟨g1, g2⟩ g
    obtain ⟨c, hc, g⟩ := bind_ok g
    obtain ⟨u, hu, g⟩ := bind_ok g
    cases g
    refine ⟨by rw [← g1]; exact addLabel_length hu, fun _ => ?_⟩
    have := (List.getElem?_eq_some_iff.1 (readAt_eq_ok_iff.1 hc)).1
    omega)
  exact ⟨h1, h2⟩

end MLRL.Seco
