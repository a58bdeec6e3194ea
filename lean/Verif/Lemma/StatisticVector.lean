import Verif.Spec.StatisticVector
import Mathlib.Tactic.Ring
import Mathlib.Tactic.Abel
import Mathlib.Algebra.BigOperators.Group.List.Lemmas

/-! # Lemmas about vectors of statistics -/

namespace MLRL.Statistics

set_option linter.unusedSectionVars false

variable {K : Type} [CommRing K] [DecidableEq K]

theorem updateRange_spec {α : Type} {a : List α} {off n : Nat} {g : Nat → α → Res α} {v : Nat → α} (h : off + n ≤ a.length)
    (hg : ∀ i (hi : i < n), g i (a[off + i]'(by omega)) = .ok (v i)) :
    ∃ a', updateRange a off n g = .ok a' ∧ a'.length = a.length ∧
      ∀ k, a'[k]? = if off ≤ k ∧ k < off + n then some (v (k - off)) else a[k]? := by
  unfold updateRange
  obtain ⟨a', h1, h2, h3⟩ := loop_rule (body := fun i a => do
      let x ← readAt a (off + i)
      let y ← g i x
      writeAt a (off + i) y)
    (fun m (t : List α) => t.length = a.length ∧ ∀ k, t[k]? = if off ≤ k ∧ k < off + m then some (v (k - off)) else a[k]?) n a
    ⟨rfl, fun k => by rw [if_neg (by omega)]⟩ (by
      rintro i t hi ⟨ht, hk⟩
      have hlt : off + i < t.length := by omega
      have hx : t[off + i] = a[off + i] := by
        have := hk (off + i)
        rw [if_neg (by omega), List.getElem?_eq_getElem hlt, List.getElem?_eq_getElem (by omega)] at this
        exact Option.some.inj this
      refine ⟨t.set (off + i) (v i), ?_, by simp [ht], fun k => ?_⟩
      · rw [readAt_of_lt hlt, ok_bind, hx, hg i hi, ok_bind, writeAt_of_lt hlt]
      · rw [List.getElem?_set]
        by_cases hki : off + i = k
        · subst hki
          rw [if_pos rfl, if_pos hlt, if_pos (by omega)]
          congr 2
          omega
        · rw [if_neg hki, hk k]
          by_cases hr : off ≤ k ∧ k < off + i
          · rw [if_pos hr, if_pos (by omega)]
          · rw [if_neg hr, if_neg (by omega)])
  exact ⟨a', h1, h2, h3⟩

theorem element_of_lt {α : Type} [Zero α] {l : List α} {i : Nat} (h : i < l.length) : element l i = l[i] := by
  simp [element, List.getElem?_eq_getElem h]

theorem element_of_le {α : Type} [Zero α] {l : List α} {i : Nat} (h : l.length ≤ i) : element l i = 0 := by
  simp [element, List.getElem?_eq_none h]

theorem readAt_element {α : Type} [Zero α] {l : List α} {i : Nat} (h : i < l.length) : readAt l i = .ok (element l i) := by
  rw [readAt_of_lt h, element_of_lt h]

/-- The result of updating a range, in terms of elements. -/
theorem updateRange_element {α : Type} [Zero α] {a : List α} {off n : Nat} {g : Nat → α → Res α} {v : Nat → α}
    (h : off + n ≤ a.length) (hg : ∀ i, i < n → g i (element a (off + i)) = .ok (v i)) :
    ∃ a', updateRange a off n g = .ok a' ∧ a'.length = a.length ∧
      ∀ k, element a' k = if off ≤ k ∧ k < off + n then v (k - off) else element a k := by
  obtain ⟨a', h1, h2, h3⟩ := updateRange_spec (v := v) h (fun i hi => by
    rw [← element_of_lt (by omega : off + i < a.length)]
    exact hg i hi)
  refine ⟨a', h1, h2, fun k => ?_⟩
  unfold element
  rw [h3 k]
  split <;> rfl

theorem scaled_eq (w : Option K) (x : K) : scaled w x = times w x := by
  cases w with
  | none => rfl
  | some w => simp [scaled, times, mul_comm]

theorem addToView_spec {a b : List K} {n : Nat} (ha : n = a.length) (hb : n ≤ b.length) (w : Option K) :
    ∃ a', addToView a b n w = .ok a' ∧ a'.length = a.length ∧
      ∀ k, element a' k = if k < n then element a k + times w (element b k) else 0 := by
  obtain ⟨a', h1, h2, h3⟩ := updateRange_element (a := a) (off := 0) (n := n)
    (g := fun i x => do let y ← readAt b i; pure (x + scaled w y)) (v := fun i => element a i + times w (element b i))
    (by omega) (fun i hi => by
      rw [readAt_element (by omega), ok_bind, scaled_eq, Nat.zero_add]; rfl)
  refine ⟨a', h1, h2, fun k => ?_⟩
  rw [h3 k]
  by_cases hk : k < n
  · rw [if_pos hk, if_pos (by omega), Nat.sub_zero]
  · rw [if_neg hk, if_neg (by omega), element_of_le (by omega)]

theorem removeFromView_spec {a b : List K} {n : Nat} (ha : n = a.length) (hb : n ≤ b.length) (w : Option K) :
    ∃ a', removeFromView a b n w = .ok a' ∧ a'.length = a.length ∧
      ∀ k, element a' k = if k < n then element a k - times w (element b k) else 0 := by
  obtain ⟨a', h1, h2, h3⟩ := updateRange_element (a := a) (off := 0) (n := n)
    (g := fun i x => do let y ← readAt b i; pure (x - scaled w y)) (v := fun i => element a i - times w (element b i))
    (by omega) (fun i hi => by
      rw [readAt_element (by omega), ok_bind, scaled_eq, Nat.zero_add]; rfl)
  refine ⟨a', h1, h2, fun k => ?_⟩
  rw [h3 k]
  by_cases hk : k < n
  · rw [if_pos hk, if_pos (by omega), Nat.sub_zero]
  · rw [if_neg hk, if_neg (by omega), element_of_le (by omega)]

theorem setViewToDifference_spec {a b c : List K} {n : Nat} (ha : n = a.length) (hb : n ≤ b.length) (hc : n ≤ c.length) :
    ∃ a', setViewToDifference a b c n = .ok a' ∧ a'.length = a.length ∧
      ∀ k, element a' k = if k < n then element b k - element c k else 0 := by
  obtain ⟨a', h1, h2, h3⟩ := updateRange_element (a := a) (off := 0) (n := n)
    (g := fun i _ => do let y ← readAt b i; let z ← readAt c i; pure (y - z)) (v := fun i => element b i - element c i)
    (by omega) (fun i hi => by
      rw [readAt_element (by omega : i < b.length), ok_bind, readAt_element (by omega : i < c.length)]; rfl)
  refine ⟨a', h1, h2, fun k => ?_⟩
  rw [h3 k]
  by_cases hk : k < n
  · rw [if_pos hk, if_pos (by omega), Nat.sub_zero]
  · rw [if_neg hk, if_neg (by omega), element_of_le (by omega)]

theorem addToViewIndexed_spec {a b : List K} {offA offB n : Nat} {l : List Nat} (ha : offA + n ≤ a.length) (hl : n ≤ l.length)
    (hb : ∀ i, i < n → offB + element l i < b.length) (w : Option K) :
    ∃ a', addToViewIndexed a offA b offB l n w = .ok a' ∧ a'.length = a.length ∧
      ∀ k, element a' k = if offA ≤ k ∧ k < offA + n then element a k + times w (element b (offB + element l (k - offA)))
        else element a k := by
  obtain ⟨a', h1, h2, h3⟩ := updateRange_element (a := a) (off := offA) (n := n)
    (g := fun i x => do
      let j ← readAt l i
      let y ← readAt b (offB + j)
      pure (x + scaled w y)) (v := fun i => element a (offA + i) + times w (element b (offB + element l i)))
    ha (fun i hi => by
      rw [readAt_element (by omega : i < l.length), ok_bind, readAt_element (hb i hi), ok_bind, scaled_eq]; rfl)
  refine ⟨a', h1, h2, fun k => ?_⟩
  rw [h3 k]
  by_cases hk : offA ≤ k ∧ k < offA + n
  · rw [if_pos hk, if_pos hk]
    have : offA + (k - offA) = k := by omega
    rw [this]
  · rw [if_neg hk, if_neg hk]

theorem setViewToDifferenceIndexed_spec {a b c : List K} {offA offB offC n : Nat} {l : List Nat} (ha : offA + n ≤ a.length)
    (hl : n ≤ l.length) (hb : ∀ i, i < n → offB + element l i < b.length) (hc : offC + n ≤ c.length) :
    ∃ a', setViewToDifferenceIndexed a offA b offB c offC l n = .ok a' ∧ a'.length = a.length ∧
      ∀ k, element a' k = if offA ≤ k ∧ k < offA + n then
        element b (offB + element l (k - offA)) - element c (offC + (k - offA)) else element a k := by
  obtain ⟨a', h1, h2, h3⟩ := updateRange_element (a := a) (off := offA) (n := n)
    (g := fun i _ => do
      let j ← readAt l i
      let y ← readAt b (offB + j)
      let z ← readAt c (offC + i)
      pure (y - z)) (v := fun i => element b (offB + element l i) - element c (offC + i))
    ha (fun i hi => by
      rw [readAt_element (by omega : i < l.length), ok_bind, readAt_element (hb i hi), ok_bind,
        readAt_element (by omega : offC + i < c.length)]; rfl)
  exact ⟨a', h1, h2, h3⟩

/-! ### Selections -/

theorem times_prod (w : Option K) (a b : K) : times w (a, b) = (times w a, times w b) := by
  cases w <;> rfl

theorem times_apply (w : Option K) (m : Decomposable K) (i : Nat) : times w m i = times w (m i) := by
  cases w <;> rfl

theorem times_zero {M : Type} [AddCommGroup M] [Module K M] (w : Option K) : times w (0 : M) = 0 := by
  cases w <;> simp [times]

theorem times_one (w : Option K) : times w (1 : K) = scaled w 1 := (scaled_eq w 1).symm

theorem index_lt {n : Nat} {idx : IndexVec} (h : idx.Valid n) {i : Nat} (hi : i < idx.size) : idx.index i < n := by
  cases idx with
  | complete m => simp only [IndexVec.Valid] at h; simp only [IndexVec.size] at hi; simp only [IndexVec.index]; omega
  | select l =>
    simp only [IndexVec.size] at hi
    simp only [IndexVec.index, element_of_lt hi]
    exact h _ (List.getElem_mem _)

/-! ### Lists of gradients or Hessians -/

/-- Selection of elements. -/
def selectList (idx : IndexVec) (f : Nat → K) : Nat → K := fun i => if i < idx.size then f (idx.index i) else 0

theorem selectList_select (l : List Nat) (f : Nat → K) (i : Nat) :
    selectList (.select l) f i = if i < l.length then f (element l i) else 0 := rfl

theorem addToView_list {a b : List K} {n : Nat} (ha : a.length = n) (hb : b.length = n) (w : Option K) :
    ∃ a', addToView a b n w = .ok a' ∧ a'.length = n ∧ ∀ i, element a' i = element a i + times w (element b i) := by
  obtain ⟨a', h1, h2, h3⟩ := addToView_spec (a := a) (b := b) ha.symm (Nat.le_of_eq hb.symm) w
  refine ⟨a', h1, h2.trans ha, fun i => ?_⟩
  rw [h3]
  split
  · rfl
  · rw [element_of_le (by omega), element_of_le (by omega), times_zero, add_zero]

theorem removeFromView_list {a b : List K} {n : Nat} (ha : a.length = n) (hb : b.length = n) (w : Option K) :
    ∃ a', removeFromView a b n w = .ok a' ∧ a'.length = n ∧ ∀ i, element a' i = element a i - times w (element b i) := by
  obtain ⟨a', h1, h2, h3⟩ := removeFromView_spec (a := a) (b := b) ha.symm (Nat.le_of_eq hb.symm) w
  refine ⟨a', h1, h2.trans ha, fun i => ?_⟩
  rw [h3]
  split
  · rfl
  · rw [element_of_le (by omega), element_of_le (by omega), times_zero, sub_zero]

theorem setViewToDifference_list {a b c : List K} {n : Nat} (ha : a.length = n) (hb : b.length = n) (hc : c.length = n) :
    ∃ a', setViewToDifference a b c n = .ok a' ∧ a'.length = n ∧ ∀ i, element a' i = element b i - element c i := by
  obtain ⟨a', h1, h2, h3⟩ := setViewToDifference_spec (a := a) (b := b) (c := c) ha.symm (Nat.le_of_eq hb.symm)
    (Nat.le_of_eq hc.symm)
  refine ⟨a', h1, h2.trans ha, fun i => ?_⟩
  rw [h3]
  split
  · rfl
  · rw [element_of_le (by omega), element_of_le (by omega), sub_zero]

theorem addToViewIndexed_list {a b : List K} {l : List Nat} {n : Nat} (ha : a.length = l.length) (hb : b.length = n)
    (hl : ∀ i ∈ l, i < n) (w : Option K) :
    ∃ a', addToViewIndexed a 0 b 0 l l.length w = .ok a' ∧ a'.length = l.length ∧
      ∀ i, element a' i = element a i + times w (selectList (.select l) (element b) i) := by
  obtain ⟨a', h1, h2, h3⟩ := addToViewIndexed_spec (a := a) (b := b) (offA := 0) (offB := 0) (n := l.length) (l := l)
    (by omega) (Nat.le_refl _) (fun i hi => by
      rw [Nat.zero_add, hb]; exact index_lt (idx := .select l) hl hi) w
  refine ⟨a', h1, h2.trans ha, fun i => ?_⟩
  rw [h3, selectList_select]
  by_cases hi : i < l.length
  · rw [if_pos (by omega), if_pos hi, Nat.sub_zero, Nat.zero_add]
  · rw [if_neg (by omega), if_neg hi, times_zero, add_zero]

theorem setViewToDifferenceIndexed_list {a b c : List K} {l : List Nat} {n : Nat} (ha : a.length = l.length) (hb : b.length = n)
    (hc : c.length = l.length) (hl : ∀ i ∈ l, i < n) :
    ∃ a', setViewToDifferenceIndexed a 0 b 0 c 0 l l.length = .ok a' ∧ a'.length = l.length ∧
      ∀ i, element a' i = selectList (.select l) (element b) i - element c i := by
  obtain ⟨a', h1, h2, h3⟩ := setViewToDifferenceIndexed_spec (a := a) (b := b) (c := c) (offA := 0) (offB := 0) (offC := 0)
    (n := l.length) (l := l) (by omega) (Nat.le_refl _) (fun i hi => by
      rw [Nat.zero_add, hb]; exact index_lt (idx := .select l) hl hi) (by omega)
  refine ⟨a', h1, h2.trans ha, fun i => ?_⟩
  rw [h3, selectList_select]
  by_cases hi : i < l.length
  · rw [if_pos (by omega), if_pos hi, Nat.sub_zero, Nat.zero_add, Nat.zero_add]
  · rw [if_neg (by omega), if_neg hi, element_of_le (by omega), element_of_le (by omega), sub_zero]

theorem selectList_complete {b : List K} {n : Nat} (hb : b.length = n) (i : Nat) :
    selectList (.complete n) (element b) i = element b i := by
  change (if i < n then element b i else 0) = element b i
  split
  · rfl
  · rw [element_of_le (by omega)]

/-! ### Dense vectors -/

/-- A dense vector has `n` gradients and `n` Hessians. -/
def DenseVec.Valid (n : Nat) (v : DenseVec K) : Prop := v.gradients.length = n ∧ v.hessians.length = n

theorem both_ok {a b : List K} {f g : Res (List K)} (hf : f = .ok a) (hg : g = .ok b) : DenseVec.both f g = .ok ⟨a, b⟩ := by
  rw [hf, hg]; rfl

theorem element_replicate (n i : Nat) : element (List.replicate n (0 : K)) i = 0 := by
  unfold element
  rw [List.getElem?_replicate]
  split <;> rfl

theorem element_map_zero (l : List K) (i : Nat) : element (l.map (fun _ => (0 : K))) i = 0 := by
  unfold element
  rw [List.getElem?_map]
  cases l[i]? <;> rfl

theorem selectDecomposable_sum (idx : IndexVec) (l : List (Decomposable K)) :
    selectDecomposable idx l.sum = (l.map (selectDecomposable idx)).sum := by
  induction l with
  | nil => funext i; simp [selectDecomposable]
  | cons a l ih =>
    rw [List.sum_cons, List.map_cons, List.sum_cons, ← ih]
    funext i
    simp only [selectDecomposable, Pi.add_apply]
    split <;> simp

theorem selectDecomposable_sub (idx : IndexVec) (a b : Decomposable K) :
    selectDecomposable idx (a - b) = selectDecomposable idx a - selectDecomposable idx b := by
  funext i
  simp only [selectDecomposable, Pi.sub_apply]
  split <;> simp

theorem selectDecomposable_times (idx : IndexVec) (w : Option K) (a : Decomposable K) :
    selectDecomposable idx (times w a) = times w (selectDecomposable idx a) := by
  funext i
  simp only [selectDecomposable, times_apply]
  split
  · rfl
  · exact (times_zero w).symm

theorem select_value (idx : IndexVec) (r : DenseVec K) (i : Nat) :
    selectDecomposable idx r.value i = (selectList idx (element r.gradients) i, selectList idx (element r.hessians) i) := by
  unfold selectDecomposable selectList DenseVec.value
  split <;> rfl

theorem denseLaws (n : Nat) : Laws (K := K) denseOps n DenseVec.Valid (DenseVec.Valid n) (IndexVec.Valid n) DenseVec.value
    DenseVec.value selectDecomposable where
  new k := by
    refine ⟨⟨by simp [denseOps], by simp [denseOps]⟩, ?_⟩
    funext i
    simp only [denseOps, DenseVec.value, element_replicate]
    rfl
  clear k v hv := by
    refine ⟨⟨by simp [denseOps, hv.1], by simp [denseOps, hv.2]⟩, ?_⟩
    funext i
    simp only [denseOps, DenseVec.value, element_map_zero]
    rfl
  add v r w hv hr := by
    obtain ⟨g, hg, hg1, hg2⟩ := addToView_list hv.1 hr.1 w
    obtain ⟨h, hh, hh1, hh2⟩ := addToView_list hv.2 hr.2 w
    refine ⟨⟨g, h⟩, by simp only [denseOps, hv.1]; exact both_ok hg hh, ⟨hg1, hh1⟩, ?_⟩
    funext i
    simp only [DenseVec.value, Pi.add_apply, times_apply, times_prod, hg2, hh2, Prod.mk_add_mk]
  remove v r w hv hr := by
    obtain ⟨g, hg, hg1, hg2⟩ := removeFromView_list hv.1 hr.1 w
    obtain ⟨h, hh, hh1, hh2⟩ := removeFromView_list hv.2 hr.2 w
    refine ⟨⟨g, h⟩, by simp only [denseOps, hv.1]; exact both_ok hg hh, ⟨hg1, hh1⟩, ?_⟩
    funext i
    simp only [DenseVec.value, Pi.sub_apply, times_apply, times_prod, hg2, hh2, Prod.mk_sub_mk]
  addToSubset v r idx w hidx hv hr := by
    have key : ∃ g h, denseOps.addToSubset v r idx w = .ok ⟨g, h⟩ ∧ g.length = idx.size ∧ h.length = idx.size ∧
        (∀ i, element g i = element v.gradients i + times w (selectList idx (element r.gradients) i)) ∧
        ∀ i, element h i = element v.hessians i + times w (selectList idx (element r.hessians) i) := by
      cases idx with
      | complete m =>
        simp only [IndexVec.Valid] at hidx
        subst hidx
        simp only [IndexVec.size] at hv
        obtain ⟨g, hg, hg1, hg2⟩ := addToView_list hv.1 hr.1 w
        obtain ⟨h, hh, hh1, hh2⟩ := addToView_list hv.2 hr.2 w
        refine ⟨g, h, by simp only [denseOps, hv.1]; exact both_ok hg hh, hg1, hh1, fun i => ?_, fun i => ?_⟩
        · rw [hg2, selectList_complete hr.1]
        · rw [hh2, selectList_complete hr.2]
      | select l =>
        simp only [IndexVec.size] at hv
        obtain ⟨g, hg, hg1, hg2⟩ := addToViewIndexed_list hv.1 hr.1 hidx w
        obtain ⟨h, hh, hh1, hh2⟩ := addToViewIndexed_list hv.2 hr.2 hidx w
        exact ⟨g, h, by simp only [denseOps, hv.1]; exact both_ok hg hh, hg1, hh1, hg2, hh2⟩
    obtain ⟨g, h, h1, h2, h3, h4, h5⟩ := key
    refine ⟨⟨g, h⟩, h1, ⟨h2, h3⟩, ?_⟩
    funext i
    rw [Pi.add_apply, times_apply, select_value, times_prod]
    simp only [DenseVec.value, h4, h5, Prod.mk_add_mk]
  addVector k v u hv hu := by
    obtain ⟨g, hg, hg1, hg2⟩ := addToView_list hv.1 hu.1 none
    obtain ⟨h, hh, hh1, hh2⟩ := addToView_list hv.2 hu.2 none
    refine ⟨⟨g, h⟩, by simp only [denseOps, hv.1]; exact both_ok hg hh, ⟨hg1, hh1⟩, ?_⟩
    funext i
    simp only [DenseVec.value, Pi.add_apply, hg2, hh2, Prod.mk_add_mk, times]
  difference v a idx b hidx hv ha hb := by
    have key : ∃ g h, denseOps.difference v a idx b = .ok ⟨g, h⟩ ∧ g.length = idx.size ∧ h.length = idx.size ∧
        (∀ i, element g i = selectList idx (element a.gradients) i - element b.gradients i) ∧
        ∀ i, element h i = selectList idx (element a.hessians) i - element b.hessians i := by
      cases idx with
      | complete m =>
        simp only [IndexVec.Valid] at hidx
        subst hidx
        simp only [IndexVec.size] at hv hb
        obtain ⟨g, hg, hg1, hg2⟩ := setViewToDifference_list hv.1 ha.1 hb.1
        obtain ⟨h, hh, hh1, hh2⟩ := setViewToDifference_list hv.2 ha.2 hb.2
        refine ⟨g, h, by simp only [denseOps, hv.1]; exact both_ok hg hh, hg1, hh1, fun i => ?_, fun i => ?_⟩
        · rw [hg2, selectList_complete ha.1]
        · rw [hh2, selectList_complete ha.2]
      | select l =>
        simp only [IndexVec.size] at hv hb
        obtain ⟨g, hg, hg1, hg2⟩ := setViewToDifferenceIndexed_list hv.1 ha.1 hb.1 hidx
        obtain ⟨h, hh, hh1, hh2⟩ := setViewToDifferenceIndexed_list hv.2 ha.2 hb.2 hidx
        exact ⟨g, h, by simp only [denseOps, hv.1]; exact both_ok hg hh, hg1, hh1, hg2, hh2⟩
    obtain ⟨g, h, h1, h2, h3, h4, h5⟩ := key
    refine ⟨⟨g, h⟩, h1, ⟨h2, h3⟩, ?_⟩
    funext i
    rw [Pi.sub_apply, select_value]
    simp only [DenseVec.value, h4, h5, Prod.mk_sub_mk]
  select_sub := selectDecomposable_sub
  select_sum := selectDecomposable_sum
  select_times := selectDecomposable_times

/-! ### Sparse vectors -/

/-- The numbers in a triple. -/
def Triple.val (t : Triple K) : K × K × K := (t.first, t.second, t.third)

/-- The triple at a position. -/
def tripleAt (t : List (Triple K)) (i : Nat) : K × K × K :=
  match t[i]? with
  | some t => t.val
  | none => 0

/-- What a row contributes to the triple with a given index. -/
def rowTriple (r : SparseRow K) (i : Nat) : K × K × K :=
  match r.find? (fun e => e.1 == i) with
  | some e => (e.2.1, e.2.2, 1)
  | none => 0

/-- A sparse vector has `n` triples. -/
def SparseVec.Valid (n : Nat) (v : SparseVec K) : Prop := v.triples.length = n

/-- The indices in a row of a sparse matrix are distinct and less than the number of columns. -/
def SparseRow.Valid (n : Nat) (r : SparseRow K) : Prop := (r.map Prod.fst).Nodup ∧ ∀ e ∈ r, e.1 < n

theorem tripleAt_of_lt {t : List (Triple K)} {i : Nat} (h : i < t.length) : tripleAt t i = t[i].val := by
  simp [tripleAt, List.getElem?_eq_getElem h]

theorem tripleAt_of_le {t : List (Triple K)} {i : Nat} (h : t.length ≤ i) : tripleAt t i = 0 := by
  simp [tripleAt, List.getElem?_eq_none h]

theorem tripleAt_set {t : List (Triple K)} {j : Nat} (h : j < t.length) (x : Triple K) (i : Nat) :
    tripleAt (t.set j x) i = if i = j then x.val else tripleAt t i := by
  unfold tripleAt
  rw [List.getElem?_set]
  by_cases hj : j = i
  · subst hj; simp [h]
  · rw [if_neg hj, if_neg (fun h => hj h.symm)]

theorem val_update (add : Bool) (w : Option K) (t : Triple K) (g h : K) :
    (t.update add w g h).val = if add then t.val + times w (g, h, (1 : K)) else t.val - times w (g, h, (1 : K)) := by
  cases add <;> cases w <;> simp [Triple.update, Triple.val, times, scaled, mul_comm]

theorem updateTriples_spec (add : Bool) (w : Option K) (n : Nat) (r : SparseRow K) (hr : SparseRow.Valid n r) (t : List (Triple K))
    (ht : t.length = n) :
    ∃ t', updateTriples add w r t = .ok t' ∧ t'.length = n ∧
      ∀ i, tripleAt t' i = if add then tripleAt t i + times w (rowTriple r i) else tripleAt t i - times w (rowTriple r i) := by
  induction r generalizing t with
  | nil =>
    refine ⟨t, rfl, ht, fun i => ?_⟩
    simp only [rowTriple, List.find?_nil, times_zero, add_zero, sub_zero, ite_self]
  | cons e r ih =>
    obtain ⟨j, g, h⟩ := e
    obtain ⟨hn, hlt⟩ := hr
    rw [List.map_cons, List.nodup_cons] at hn
    have hj : j < t.length := by rw [ht]; exact hlt _ (List.mem_cons_self)
    obtain ⟨t', h1, h2, h3⟩ := ih ⟨hn.2, fun e he => hlt e (List.mem_cons_of_mem _ he)⟩ (t.set j (t[j].update add w g h))
      (by simp [ht])
    refine ⟨t', ?_, h2, fun i => ?_⟩
    · simp only [updateTriples]
      rw [readAt_of_lt hj, ok_bind, writeAt_of_lt hj, ok_bind]
      exact h1
    · rw [h3, tripleAt_set hj]
      by_cases hi : i = j
      · subst hi
        have hnone : rowTriple r i = 0 := by
          unfold rowTriple
          rw [List.find?_eq_none.2]
          intro e he hcon
          apply hn.1
          rw [List.mem_map]
          exact ⟨e, he, by simpa using hcon⟩
        have hsome : rowTriple ((i, g, h) :: r) i = (g, h, 1) := by
          unfold rowTriple
          rw [List.find?_cons_of_pos (by simp)]
        rw [hnone, hsome, times_zero, add_zero, sub_zero, ite_self, if_pos rfl, val_update, tripleAt_of_lt hj]
      · have : rowTriple ((j, g, h) :: r) i = rowTriple r i := by
          unfold rowTriple
          rw [List.find?_cons_of_neg (by simpa using fun h => hi h.symm)]
        rw [if_neg hi, this]

theorem updateTriplesIndexed_spec (w : Option K) (r : SparseRow K) (l : List Nat) (t : List (Triple K)) (ht : t.length = l.length) :
    ∃ t', updateTriplesIndexed w r l t = .ok t' ∧ t'.length = l.length ∧
      ∀ i, tripleAt t' i = tripleAt t i + times w (if i < l.length then rowTriple r (element l i) else 0) := by
  unfold updateTriplesIndexed
  obtain ⟨t', h1, h2, h3⟩ := loop_rule (body := fun i t => do
      let index ← readAt l i
      match r.find? (fun e => e.1 == index) with
      | some e => do
        let x ← readAt t i
        writeAt t i (x.update true w e.2.1 e.2.2)
      | none => pure t)
    (fun m (s : List (Triple K)) => s.length = l.length ∧
      ∀ i, tripleAt s i = tripleAt t i + times w (if i < m then rowTriple r (element l i) else 0)) l.length t
    ⟨ht, fun i => by rw [if_neg (by omega), times_zero, add_zero]⟩ (by
      rintro i s hi ⟨hs, hk⟩
      rw [readAt_element hi, ok_bind]
      cases hf : r.find? (fun e => e.1 == element l i) with
      | none =>
        refine ⟨s, rfl, hs, fun k => ?_⟩
        rw [hk k]
        by_cases hki : k = i
        · subst hki
          have : rowTriple r (element l k) = 0 := by unfold rowTriple; rw [hf]
          rw [this, ite_self, ite_self]
        · have : k < i + 1 ↔ k < i := by omega
          simp only [this]
      | some e =>
        have his : i < s.length := by omega
        refine ⟨s.set i (s[i].update true w e.2.1 e.2.2), ?_, by simp [hs], fun k => ?_⟩
        · simp only
          rw [readAt_of_lt his, ok_bind, writeAt_of_lt his]
        · rw [tripleAt_set his]
          by_cases hki : k = i
          · subst hki
            have : rowTriple r (element l k) = (e.2.1, e.2.2, 1) := by unfold rowTriple; rw [hf]
            rw [if_pos rfl, if_pos (by omega), val_update, if_pos rfl, this, ← tripleAt_of_lt his, hk k, if_neg (by omega),
              times_zero, add_zero]
          · have : k < i + 1 ↔ k < i := by omega
            rw [if_neg hki, hk k]
            simp only [this])
  exact ⟨t', h1, h2, h3⟩

/-- The gradient and Hessian that result from the numbers in a triple and the sum of weights. -/
def combine (x : K × K × K) (s : K) : K × K := (x.1, x.2.1 + (s - x.2.2))

theorem combine_add (x y : K × K × K) (s t : K) : combine (x + y) (s + t) = combine x s + combine y t := by
  simp only [combine, Prod.fst_add, Prod.snd_add, Prod.mk_add_mk, Prod.mk.injEq, true_and]
  ring

theorem combine_sub (x y : K × K × K) (s t : K) : combine (x - y) (s - t) = combine x s - combine y t := by
  simp only [combine, Prod.fst_sub, Prod.snd_sub, Prod.mk_sub_mk, Prod.mk.injEq, true_and]
  ring

theorem combine_times (w : Option K) (x : K × K × K) (s : K) : combine (times w x) (times w s) = times w (combine x s) := by
  cases w with
  | none => rfl
  | some w =>
    simp only [combine, times, Prod.smul_fst, Prod.smul_snd, Prod.smul_mk, smul_eq_mul, Prod.mk.injEq, true_and]
    ring

theorem sparse_value {v : SparseVec K} {n : Nat} (h : v.Valid n) (i : Nat) :
    v.value i = if i < n then combine (tripleAt v.triples i) v.sumOfWeights else 0 := by
  unfold SparseVec.value
  unfold SparseVec.Valid at h
  by_cases hi : i < n
  · rw [if_pos hi, List.getElem?_eq_getElem (by omega), tripleAt_of_lt (by omega)]
    rfl
  · rw [if_neg hi, List.getElem?_eq_none (by omega)]

theorem row_value (n : Nat) (r : SparseRow K) (i : Nat) :
    rowValue n r i = if i < n then combine (rowTriple r i) 1 else 0 := by
  unfold rowValue rowTriple combine
  cases r.find? (fun e => e.1 == i) with
  | none => simp
  | some e => simp

theorem zeroWeight_times {M : Type} [AddCommGroup M] [Module K M] {w : Option K} (h : zeroWeight w = true) (m : M) :
    times w m = 0 := by
  cases w with
  | none => cases h
  | some w =>
    simp only [zeroWeight, decide_eq_true_eq] at h
    simp [times, h]

theorem val_add (a b : Triple K) : (a.add b).val = a.val + b.val := rfl

theorem val_sub (a b : Triple K) : (a.sub b).val = a.val - b.val := rfl

theorem select_row (n : Nat) {idx : IndexVec} (hidx : idx.Valid n) (r : SparseRow K) (i : Nat) :
    selectDecomposable idx (rowValue n r) i = if i < idx.size then combine (rowTriple r (idx.index i)) 1 else 0 := by
  unfold selectDecomposable
  by_cases hi : i < idx.size
  · rw [if_pos hi, if_pos hi, row_value, if_pos (index_lt hidx hi)]
  · rw [if_neg hi, if_neg hi]

theorem sparseLaws (n : Nat) : Laws (K := K) sparseOps n SparseVec.Valid (SparseRow.Valid n) (IndexVec.Valid n) SparseVec.value
    (rowValue n) selectDecomposable where
  new k := by
    refine ⟨by simp [sparseOps, SparseVec.Valid], ?_⟩
    funext i
    rw [sparse_value (n := k) (by simp [sparseOps, SparseVec.Valid])]
    by_cases hi : i < k
    · rw [if_pos hi, tripleAt_of_lt (by simpa [sparseOps] using hi)]
      simp [sparseOps, combine, Triple.val]
    · rw [if_neg hi]; rfl
  clear k v hv := by
    have hc : SparseVec.Valid k (sparseOps.clear v) := by simpa [sparseOps, SparseVec.Valid] using hv
    refine ⟨hc, ?_⟩
    funext i
    rw [sparse_value hc]
    by_cases hi : i < k
    · rw [if_pos hi, tripleAt_of_lt (by rw [hc]; exact hi)]
      simp [sparseOps, combine, Triple.val]
    · rw [if_neg hi]; rfl
  add v r w hv hr := by
    cases hw : zeroWeight w with
    | true => exact ⟨v, by simp [sparseOps, hw, pure_eq_ok], hv, by rw [zeroWeight_times hw, add_zero]⟩
    | false =>
      obtain ⟨t, h1, h2, h3⟩ := updateTriples_spec true w n r hr v.triples hv
      refine ⟨⟨t, v.sumOfWeights + scaled w 1⟩, by simp [sparseOps, hw, h1, ok_bind, pure_eq_ok], h2, ?_⟩
      funext i
      rw [sparse_value (n := n) (v := ⟨t, _⟩) h2, Pi.add_apply, times_apply, sparse_value hv, row_value]
      by_cases hi : i < n
      · rw [if_pos hi, if_pos hi, if_pos hi]
        simp only [h3, if_true, scaled_eq]
        rw [combine_add, combine_times]
      · rw [if_neg hi, if_neg hi, if_neg hi, times_zero, add_zero]
  remove v r w hv hr := by
    cases hw : zeroWeight w with
    | true => exact ⟨v, by simp [sparseOps, hw, pure_eq_ok], hv, by rw [zeroWeight_times hw, sub_zero]⟩
    | false =>
      obtain ⟨t, h1, h2, h3⟩ := updateTriples_spec false w n r hr v.triples hv
      refine ⟨⟨t, v.sumOfWeights - scaled w 1⟩, by simp [sparseOps, hw, h1, ok_bind, pure_eq_ok], h2, ?_⟩
      funext i
      rw [sparse_value (n := n) (v := ⟨t, _⟩) h2, Pi.sub_apply, times_apply, sparse_value hv, row_value]
      by_cases hi : i < n
      · rw [if_pos hi, if_pos hi, if_pos hi]
        simp only [h3, scaled_eq]
        rw [if_neg (by simp), combine_sub, combine_times]
      · rw [if_neg hi, if_neg hi, if_neg hi, times_zero, sub_zero]
  addToSubset v r idx w hidx hv hr := by
    cases hw : zeroWeight w with
    | true => exact ⟨v, by simp [sparseOps, hw, pure_eq_ok], hv, by rw [zeroWeight_times hw, add_zero]⟩
    | false =>
      have key : ∃ t, sparseOps.addToSubset v r idx w = .ok ⟨t, v.sumOfWeights + scaled w 1⟩ ∧ t.length = idx.size ∧
          ∀ i, i < idx.size → tripleAt t i = tripleAt v.triples i + times w (rowTriple r (idx.index i)) := by
        cases idx with
        | complete m =>
          simp only [IndexVec.Valid] at hidx
          subst hidx
          obtain ⟨t, h1, h2, h3⟩ := updateTriples_spec true w m r hr v.triples hv
          exact ⟨t, by simp [sparseOps, hw, h1, ok_bind, pure_eq_ok], h2, fun i _ => by rw [h3, if_pos rfl]; rfl⟩
        | select l =>
          obtain ⟨t, h1, h2, h3⟩ := updateTriplesIndexed_spec w r l v.triples hv
          exact ⟨t, by simp [sparseOps, hw, h1, ok_bind, pure_eq_ok], h2, fun i hi => by rw [h3, if_pos (show i < l.length from hi)]; rfl⟩
      obtain ⟨t, h1, h2, h3⟩ := key
      refine ⟨_, h1, h2, ?_⟩
      funext i
      rw [sparse_value (n := idx.size) (v := ⟨t, _⟩) h2, Pi.add_apply, times_apply, sparse_value hv, select_row n hidx]
      by_cases hi : i < idx.size
      · rw [if_pos hi, if_pos hi, if_pos hi]
        simp only [h3 i hi, scaled_eq]
        rw [combine_add, combine_times]
      · rw [if_neg hi, if_neg hi, if_neg hi, times_zero, add_zero]
  addVector k v u hv hu := by
    have hv' : v.triples.length = k := hv
    have hu' : u.triples.length = k := hu
    obtain ⟨t, h1, h2, h3⟩ := updateRange_spec (a := v.triples) (off := 0) (n := v.triples.length)
      (g := fun i x => do let y ← readAt u.triples i; pure (x.add y))
      (v := fun i => if h : i < k then (v.triples[i]).add (u.triples[i]) else ⟨0, 0, 0⟩) (by omega) (fun i hi => by
        rw [readAt_of_lt (by omega), ok_bind, dif_pos (by omega)]
        simp only [Nat.zero_add]
        rfl)
    have hval : SparseVec.Valid k (⟨t, v.sumOfWeights + u.sumOfWeights⟩ : SparseVec K) := h2.trans hv
    refine ⟨⟨t, v.sumOfWeights + u.sumOfWeights⟩, by simp only [sparseOps]; rw [h1, ok_bind]; rfl, hval, ?_⟩
    funext i
    rw [sparse_value hval, Pi.add_apply, sparse_value hv, sparse_value hu]
    by_cases hi : i < k
    · rw [if_pos hi, if_pos hi, if_pos hi, ← combine_add]
      simp only
      congr 1
      rw [tripleAt_of_lt (by omega : i < v.triples.length), tripleAt_of_lt (by omega : i < u.triples.length), ← val_add]
      unfold tripleAt
      rw [h3, if_pos (by omega)]
      simp only [Nat.sub_zero, dif_pos hi]
    · rw [if_neg hi, if_neg hi, if_neg hi, add_zero]
  difference v a idx b hidx hv ha hb := by
    have hv' : v.triples.length = idx.size := hv
    have hb' : b.triples.length = idx.size := hb
    have ha' : a.triples.length = n := ha
    have key : ∃ t, sparseOps.difference v a idx b = .ok ⟨t, a.sumOfWeights - b.sumOfWeights⟩ ∧ t.length = idx.size ∧
        ∀ i, i < idx.size → tripleAt t i = tripleAt a.triples (idx.index i) - tripleAt b.triples i := by
      cases idx with
      | complete m =>
        simp only [IndexVec.Valid] at hidx
        subst hidx
        simp only [IndexVec.size] at hv' hb'
        obtain ⟨t, h1, h2, h3⟩ := updateRange_spec (a := v.triples) (off := 0) (n := v.triples.length)
          (g := fun i _ => do let y ← readAt a.triples i; let z ← readAt b.triples i; pure (y.sub z))
          (v := fun i => if h : i < m then (a.triples[i]).sub (b.triples[i]) else ⟨0, 0, 0⟩) (by omega) (fun i hi => by
            rw [readAt_of_lt (by omega), ok_bind, readAt_of_lt (by omega), ok_bind, dif_pos (by omega)]
            rfl)
        refine ⟨t, by simp only [sparseOps]; rw [h1, ok_bind]; rfl, h2.trans hv', fun i hi => ?_⟩
        simp only [IndexVec.size] at hi
        rw [show (IndexVec.complete m).index i = i from rfl, tripleAt_of_lt (by omega : i < a.triples.length),
          tripleAt_of_lt (by omega : i < b.triples.length), ← val_sub]
        unfold tripleAt
        rw [h3, if_pos (by omega)]
        simp only [Nat.sub_zero, dif_pos hi]
      | select l =>
        simp only [IndexVec.size] at hv' hb'
        have hl : ∀ i, i < l.length → element l i < a.triples.length := fun i hi => by
          rw [ha']; exact index_lt (idx := .select l) hidx hi
        obtain ⟨t, h1, h2, h3⟩ := updateRange_spec (a := v.triples) (off := 0) (n := v.triples.length)
          (g := fun i _ => do
            let j ← readAt l i
            let y ← readAt a.triples j
            let z ← readAt b.triples i
            pure (y.sub z))
          (v := fun i => if h : i < l.length then (a.triples[element l i]'(hl i h)).sub (b.triples[i]) else ⟨0, 0, 0⟩)
          (by omega) (fun i hi => by
            rw [readAt_element (by omega), ok_bind, readAt_of_lt (hl i (by omega)), ok_bind, readAt_of_lt (by omega), ok_bind,
              dif_pos (by omega)]
            rfl)
        refine ⟨t, by simp only [sparseOps]; rw [h1, ok_bind]; rfl, h2.trans hv', fun i hi => ?_⟩
        simp only [IndexVec.size] at hi
        rw [show (IndexVec.select l).index i = element l i from rfl, tripleAt_of_lt (hl i hi),
          tripleAt_of_lt (by omega : i < b.triples.length), ← val_sub]
        unfold tripleAt
        rw [h3, if_pos (by omega)]
        simp only [Nat.sub_zero, dif_pos hi]
    obtain ⟨t, h1, h2, h3⟩ := key
    refine ⟨_, h1, h2, ?_⟩
    funext i
    rw [sparse_value (n := idx.size) (v := ⟨t, _⟩) h2, Pi.sub_apply, sparse_value hb]
    unfold selectDecomposable
    by_cases hi : i < idx.size
    · rw [if_pos hi, if_pos hi, if_pos hi, sparse_value ha, if_pos (index_lt hidx hi)]
      simp only [h3 i hi]
      rw [combine_sub]
    · rw [if_neg hi, if_neg hi, if_neg hi, sub_zero]
  select_sub := selectDecomposable_sub
  select_sum := selectDecomposable_sum
  select_times := selectDecomposable_times

/-! ### Non-decomposable statistics -/

/-- `n` gradients and `n * (n + 1) / 2` Hessians. -/
def DenseVec.MatrixValid (n : Nat) (v : DenseVec K) : Prop := v.gradients.length = n ∧ v.hessians.length = triangularNumber n

/-- The indices are valid and in increasing order. -/
def IndexVec.SortedValid (n : Nat) (idx : IndexVec) : Prop := idx.Valid n ∧ idx.Sorted

theorem triangularNumber_succ (n : Nat) : triangularNumber (n + 1) = triangularNumber n + (n + 1) := by
  unfold triangularNumber
  have : (n + 1) * (n + 1 + 1) = n * (n + 1) + 2 * (n + 1) := by ring
  rw [this, Nat.add_mul_div_left _ _ (by omega)]

theorem triangularNumber_mono {a b : Nat} (h : a ≤ b) : triangularNumber a ≤ triangularNumber b :=
  Nat.div_le_div_right (Nat.mul_le_mul h (by omega))

theorem triangular_lt {i j n : Nat} (hj : j ≤ i) (hi : i < n) : triangularNumber i + j < triangularNumber n := by
  have := triangularNumber_succ i
  have := triangularNumber_mono (show i + 1 ≤ n by omega)
  omega

/-- Positions in the triangle determine row and column. -/
theorem triangular_range {i j k : Nat} (hj : j ≤ i) (hk : triangularNumber k ≤ triangularNumber i + j)
    (hk' : triangularNumber i + j < triangularNumber k + (k + 1)) : k = i := by
  rcases Nat.lt_trichotomy k i with h | h | h
  · have := triangularNumber_mono (show k + 1 ≤ i by omega)
    have := triangularNumber_succ k
    omega
  · exact h
  · have := triangularNumber_mono (show i + 1 ≤ k by omega)
    have := triangularNumber_succ i
    omega

theorem sorted_element_le {l : List Nat} (h : l.Pairwise (· ≤ ·)) {i j : Nat} (hij : j ≤ i) (hi : i < l.length) :
    element l j ≤ element l i := by
  rw [element_of_lt (by omega), element_of_lt hi]
  rcases Nat.lt_or_eq_of_le hij with hlt | heq
  · exact List.pairwise_iff_getElem.1 h j i (by omega) hi hlt
  · subst heq; exact Nat.le_refl _

theorem addHessiansIndexed_spec {h r : List K} {l : List Nat} {n : Nat} (hh : h.length = triangularNumber l.length)
    (hr : r.length = triangularNumber n) (hl : ∀ i ∈ l, i < n) (hs : l.Pairwise (· ≤ ·)) (w : Option K) :
    ∃ h', addHessiansIndexed h r l l.length w = .ok h' ∧ h'.length = triangularNumber l.length ∧
      ∀ i j, j ≤ i → i < l.length → element h' (triangularNumber i + j) = element h (triangularNumber i + j) +
        times w (element r (triangularNumber (element l i) + element l j)) := by
  unfold addHessiansIndexed
  obtain ⟨h', h1, h2, h3⟩ := loop_rule (body := fun i h => do
      let index ← readAt l i
      addToViewIndexed h (triangularNumber i) r (triangularNumber index) l (i + 1) w)
    (fun m (s : List K) => s.length = triangularNumber l.length ∧ ∀ i j, j ≤ i → i < l.length →
      element s (triangularNumber i + j) = element h (triangularNumber i + j) +
        (if i < m then times w (element r (triangularNumber (element l i) + element l j)) else 0)) l.length h
    ⟨hh, fun i j _ _ => by rw [if_neg (by omega), add_zero]⟩ (by
      rintro i s hi ⟨hs1, hs2⟩
      rw [readAt_element hi, ok_bind]
      obtain ⟨s', e1, e2, e3⟩ := addToViewIndexed_spec (a := s) (b := r) (offA := triangularNumber i)
        (offB := triangularNumber (element l i)) (n := i + 1) (l := l)
        (by rw [hs1, ← triangularNumber_succ]; exact triangularNumber_mono (by omega)) (by omega) (fun j hj => by
          rw [hr]
          exact triangular_lt (sorted_element_le hs (by omega) hi) (index_lt (idx := .select l) hl hi)) w
      refine ⟨s', e1, e2.trans hs1, fun p q hq hp => ?_⟩
      rw [e3]
      by_cases hpi : p = i
      · subst hpi
        have hz : triangularNumber p + q - triangularNumber p = q := by omega
        rw [if_pos (by omega), if_pos (by omega), hs2 p q hq hp, if_neg (by omega), add_zero, hz]
      · rw [if_neg (fun hc => hpi (triangular_range hq hc.1 (by omega)).symm), hs2 p q hq hp]
        have : p < i + 1 ↔ p < i := by omega
        simp only [this])
  refine ⟨h', h1, h2, fun i j hj hi => ?_⟩
  rw [h3 i j hj hi, if_pos hi]

theorem subtractHessiansIndexed_spec {h a b : List K} {l : List Nat} {n : Nat} (hh : h.length = triangularNumber l.length)
    (ha : a.length = triangularNumber n) (hb : b.length = triangularNumber l.length) (hl : ∀ i ∈ l, i < n)
    (hs : l.Pairwise (· ≤ ·)) :
    ∃ h', subtractHessiansIndexed h a b l l.length = .ok h' ∧ h'.length = triangularNumber l.length ∧
      ∀ i j, j ≤ i → i < l.length → element h' (triangularNumber i + j) =
        element a (triangularNumber (element l i) + element l j) - element b (triangularNumber i + j) := by
  unfold subtractHessiansIndexed
  obtain ⟨h', h1, h2, h3⟩ := loop_rule (body := fun i h => do
      let index ← readAt l i
      setViewToDifferenceIndexed h (triangularNumber i) a (triangularNumber index) b (triangularNumber i) l (i + 1))
    (fun m (s : List K) => s.length = triangularNumber l.length ∧ ∀ i j, j ≤ i → i < m →
      element s (triangularNumber i + j) =
        element a (triangularNumber (element l i) + element l j) - element b (triangularNumber i + j)) l.length h
    ⟨hh, fun i j _ h => absurd h (by omega)⟩ (by
      rintro i s hi ⟨hs1, hs2⟩
      rw [readAt_element hi, ok_bind]
      have hle : triangularNumber i + (i + 1) ≤ triangularNumber l.length := by
        rw [← triangularNumber_succ]; exact triangularNumber_mono (by omega)
      obtain ⟨s', e1, e2, e3⟩ := setViewToDifferenceIndexed_spec (a := s) (b := a) (c := b) (offA := triangularNumber i)
        (offB := triangularNumber (element l i)) (offC := triangularNumber i) (n := i + 1) (l := l)
        (by rw [hs1]; exact hle) (by omega) (fun j hj => by
          rw [ha]
          exact triangular_lt (sorted_element_le hs (by omega) hi) (index_lt (idx := .select l) hl hi)) (by rw [hb]; exact hle)
      refine ⟨s', e1, e2.trans hs1, fun p q hq hp => ?_⟩
      rw [e3]
      by_cases hpi : p = i
      · subst hpi
        have hz : triangularNumber p + q - triangularNumber p = q := by omega
        rw [if_pos (by omega), hz]
      · rw [if_neg (fun hc => hpi (triangular_range hq hc.1 (by omega)).symm), hs2 p q hq (by omega)])
  exact ⟨h', h1, h2, fun i j hj hi => h3 i j hj hi⟩

theorem times_prod' {A B : Type} [AddCommGroup A] [AddCommGroup B] [Module K A] [Module K B] (w : Option K) (x : A × B) :
    times w x = (times w x.1, times w x.2) := by
  cases w <;> rfl

theorem times_fun {A : Type} [AddCommGroup A] [Module K A] (w : Option K) (f : Nat → A) (i : Nat) : times w f i = times w (f i) := by
  cases w <;> rfl

theorem matrixValue_gradient (v : DenseVec K) : v.matrixValue.1 = element v.gradients := rfl

theorem matrixValue_hessian {v : DenseVec K} {n : Nat} (h : v.MatrixValid n) (i j : Nat) :
    v.matrixValue.2 i j = if j ≤ i ∧ i < n then element v.hessians (triangularNumber i + j) else 0 := by
  simp only [DenseVec.matrixValue, h.1]
  rfl

theorem selectNonDecomposable_gradient (idx : IndexVec) (m : NonDecomposable K) (i : Nat) :
    (selectNonDecomposable idx m).1 i = selectList idx m.1 i := rfl

theorem select_hessian {n : Nat} {idx : IndexVec} (hidx : idx.SortedValid n) {r : DenseVec K} (hr : r.MatrixValid n) (i j : Nat) :
    (selectNonDecomposable idx r.matrixValue).2 i j = if j ≤ i ∧ i < idx.size then
      element r.hessians (triangularNumber (idx.index i) + idx.index j) else 0 := by
  simp only [selectNonDecomposable]
  by_cases h : j ≤ i ∧ i < idx.size
  · have hle : idx.index j ≤ idx.index i := by
      cases idx with
      | complete m => exact h.1
      | select l => exact sorted_element_le hidx.2 h.1 h.2
    rw [if_pos h, if_pos h, matrixValue_hessian hr, if_pos ⟨hle, index_lt hidx.1 h.2⟩]
  · rw [if_neg h, if_neg h]

theorem nonDecomposable_ext {a b : NonDecomposable K} (h1 : ∀ i, a.1 i = b.1 i) (h2 : ∀ i j, a.2 i j = b.2 i j) : a = b :=
  Prod.ext (funext h1) (funext fun i => funext fun j => h2 i j)

theorem nonDecomposableLaws (n : Nat) : Laws (K := K) nonDecomposableOps n DenseVec.MatrixValid (DenseVec.MatrixValid n)
    (IndexVec.SortedValid n) DenseVec.matrixValue DenseVec.matrixValue selectNonDecomposable where
  new k := by
    refine ⟨⟨by simp [nonDecomposableOps], by simp [nonDecomposableOps]⟩, nonDecomposable_ext (fun i => ?_) (fun i j => ?_)⟩
    · simp only [matrixValue_gradient, nonDecomposableOps, element_replicate]; rfl
    · simp only [DenseVec.matrixValue, nonDecomposableOps, element_replicate, ite_self]; rfl
  clear k v hv := by
    refine ⟨⟨by simp [nonDecomposableOps, hv.1], by simp [nonDecomposableOps, hv.2]⟩,
      nonDecomposable_ext (fun i => ?_) (fun i j => ?_)⟩
    · simp only [matrixValue_gradient, nonDecomposableOps, element_map_zero]; rfl
    · simp only [DenseVec.matrixValue, nonDecomposableOps, element_map_zero, ite_self]; rfl
  add v r w hv hr := by
    obtain ⟨g, hg, hg1, hg2⟩ := addToView_list hv.1 hr.1 w
    obtain ⟨h, hh, hh1, hh2⟩ := addToView_list hv.2 hr.2 w
    have hval : DenseVec.MatrixValid n (⟨g, h⟩ : DenseVec K) := ⟨hg1, hh1⟩
    refine ⟨⟨g, h⟩, by simp only [nonDecomposableOps, hv.1, hv.2]; exact both_ok hg hh, hval,
      nonDecomposable_ext (fun i => ?_) (fun i j => ?_)⟩
    · simp only [Prod.fst_add, times_prod', Pi.add_apply, times_fun, matrixValue_gradient, hg2]
    · simp only [Prod.snd_add, times_prod', Pi.add_apply, times_fun, matrixValue_hessian hval, matrixValue_hessian hv,
        matrixValue_hessian hr, hh2]
      split
      · rfl
      · rw [times_zero, add_zero]
  remove v r w hv hr := by
    obtain ⟨g, hg, hg1, hg2⟩ := removeFromView_list hv.1 hr.1 w
    obtain ⟨h, hh, hh1, hh2⟩ := removeFromView_list hv.2 hr.2 w
    have hval : DenseVec.MatrixValid n (⟨g, h⟩ : DenseVec K) := ⟨hg1, hh1⟩
    refine ⟨⟨g, h⟩, by simp only [nonDecomposableOps, hv.1, hv.2]; exact both_ok hg hh, hval,
      nonDecomposable_ext (fun i => ?_) (fun i j => ?_)⟩
    · simp only [Prod.fst_sub, times_prod', Pi.sub_apply, times_fun, matrixValue_gradient, hg2]
    · simp only [Prod.snd_sub, times_prod', Pi.sub_apply, times_fun, matrixValue_hessian hval, matrixValue_hessian hv,
        matrixValue_hessian hr, hh2]
      split
      · rfl
      · rw [times_zero, sub_zero]
  addToSubset v r idx w hidx hv hr := by
    have key : ∃ g h, nonDecomposableOps.addToSubset v r idx w = .ok ⟨g, h⟩ ∧ g.length = idx.size ∧
        h.length = triangularNumber idx.size ∧
        (∀ i, element g i = element v.gradients i + times w (selectList idx (element r.gradients) i)) ∧
        ∀ i j, j ≤ i → i < idx.size → element h (triangularNumber i + j) = element v.hessians (triangularNumber i + j) +
          times w (element r.hessians (triangularNumber (idx.index i) + idx.index j)) := by
      cases idx with
      | complete m =>
        have hm : m = n := hidx.1
        subst hm
        obtain ⟨g, hg, hg1, hg2⟩ := addToView_list hv.1 hr.1 w
        obtain ⟨h, hh, hh1, hh2⟩ := addToView_list hv.2 hr.2 w
        refine ⟨g, h, by simp only [nonDecomposableOps, hv.1, hv.2]; exact both_ok hg hh, hg1, hh1, fun i => ?_, fun i j _ _ => hh2 _⟩
        rw [hg2, selectList_complete hr.1]
      | select l =>
        obtain ⟨g, hg, hg1, hg2⟩ := addToViewIndexed_list hv.1 hr.1 hidx.1 w
        obtain ⟨h, hh, hh1, hh2⟩ := addHessiansIndexed_spec hv.2 hr.2 hidx.1 hidx.2 w
        exact ⟨g, h, by simp only [nonDecomposableOps, hv.1]; exact both_ok hg hh, hg1, hh1, hg2, hh2⟩
    obtain ⟨g, h, h1, h2, h3, h4, h5⟩ := key
    have hval : DenseVec.MatrixValid idx.size (⟨g, h⟩ : DenseVec K) := ⟨h2, h3⟩
    refine ⟨⟨g, h⟩, h1, hval, nonDecomposable_ext (fun i => ?_) (fun i j => ?_)⟩
    · simp only [Prod.fst_add, times_prod', Pi.add_apply, times_fun, selectNonDecomposable_gradient, matrixValue_gradient, h4]
    · simp only [Prod.snd_add, times_prod', Pi.add_apply, times_fun, matrixValue_hessian hval, matrixValue_hessian hv,
        select_hessian hidx hr]
      by_cases hij : j ≤ i ∧ i < idx.size
      · rw [if_pos hij, if_pos hij, if_pos hij, h5 i j hij.1 hij.2]
      · rw [if_neg hij, if_neg hij, if_neg hij, times_zero, add_zero]
  addVector k v u hv hu := by
    obtain ⟨g, hg, hg1, hg2⟩ := addToView_list hv.1 hu.1 none
    obtain ⟨h, hh, hh1, hh2⟩ := addToView_list hv.2 hu.2 none
    have hval : DenseVec.MatrixValid k (⟨g, h⟩ : DenseVec K) := ⟨hg1, hh1⟩
    refine ⟨⟨g, h⟩, by simp only [nonDecomposableOps, hv.1, hv.2]; exact both_ok hg hh, hval,
      nonDecomposable_ext (fun i => ?_) (fun i j => ?_)⟩
    · simp only [Prod.fst_add, Pi.add_apply, matrixValue_gradient, hg2, times]
    · simp only [Prod.snd_add, Pi.add_apply, matrixValue_hessian hval, matrixValue_hessian hv, matrixValue_hessian hu, hh2, times]
      split
      · rfl
      · rw [add_zero]
  difference v a idx b hidx hv ha hb := by
    have key : ∃ g h, nonDecomposableOps.difference v a idx b = .ok ⟨g, h⟩ ∧ g.length = idx.size ∧
        h.length = triangularNumber idx.size ∧
        (∀ i, element g i = selectList idx (element a.gradients) i - element b.gradients i) ∧
        ∀ i j, j ≤ i → i < idx.size → element h (triangularNumber i + j) =
          element a.hessians (triangularNumber (idx.index i) + idx.index j) - element b.hessians (triangularNumber i + j) := by
      cases idx with
      | complete m =>
        have hm : m = n := hidx.1
        subst hm
        obtain ⟨g, hg, hg1, hg2⟩ := setViewToDifference_list hv.1 ha.1 hb.1
        obtain ⟨h, hh, hh1, hh2⟩ := setViewToDifference_list hv.2 ha.2 hb.2
        refine ⟨g, h, by simp only [nonDecomposableOps, hv.1, hv.2]; exact both_ok hg hh, hg1, hh1, fun i => ?_, fun i j _ _ => hh2 _⟩
        rw [hg2, selectList_complete ha.1]
      | select l =>
        obtain ⟨g, hg, hg1, hg2⟩ := setViewToDifferenceIndexed_list hv.1 ha.1 hb.1 hidx.1
        obtain ⟨h, hh, hh1, hh2⟩ := subtractHessiansIndexed_spec hv.2 ha.2 hb.2 hidx.1 hidx.2
        exact ⟨g, h, by simp only [nonDecomposableOps, hv.1]; exact both_ok hg hh, hg1, hh1, hg2, hh2⟩
    obtain ⟨g, h, h1, h2, h3, h4, h5⟩ := key
    have hval : DenseVec.MatrixValid idx.size (⟨g, h⟩ : DenseVec K) := ⟨h2, h3⟩
    refine ⟨⟨g, h⟩, h1, hval, nonDecomposable_ext (fun i => ?_) (fun i j => ?_)⟩
    · simp only [Prod.fst_sub, Pi.sub_apply, selectNonDecomposable_gradient, matrixValue_gradient, h4]
    · simp only [Prod.snd_sub, Pi.sub_apply, matrixValue_hessian hval, matrixValue_hessian hb, select_hessian hidx ha]
      by_cases hij : j ≤ i ∧ i < idx.size
      · rw [if_pos hij, if_pos hij, if_pos hij, h5 i j hij.1 hij.2]
      · rw [if_neg hij, if_neg hij, if_neg hij, sub_zero]
  select_sub idx a b := by
    refine nonDecomposable_ext (fun i => ?_) (fun i j => ?_)
    · simp only [selectNonDecomposable, Prod.fst_sub, Pi.sub_apply]; split <;> simp
    · simp only [selectNonDecomposable, Prod.snd_sub, Pi.sub_apply]; split <;> simp
  select_sum idx l := by
    induction l with
    | nil =>
      refine nonDecomposable_ext (fun i => ?_) (fun i j => ?_)
      · simp [selectNonDecomposable]
      · simp [selectNonDecomposable]
    | cons a l ih =>
      rw [List.sum_cons, List.map_cons, List.sum_cons, ← ih]
      refine nonDecomposable_ext (fun i => ?_) (fun i j => ?_)
      · simp only [selectNonDecomposable, Prod.fst_add, Pi.add_apply]; split <;> simp
      · simp only [selectNonDecomposable, Prod.snd_add, Pi.add_apply]; split <;> simp
  select_times idx w a := by
    refine nonDecomposable_ext (fun i => ?_) (fun i j => ?_)
    · simp only [selectNonDecomposable, times_prod', times_fun]
      split
      · rfl
      · exact (times_zero w).symm
    · simp only [selectNonDecomposable, times_prod', times_fun]
      split
      · rfl
      · exact (times_zero w).symm

/-! ### Subsets of statistics -/

section
variable {V R M : Type} [AddCommGroup M] [Module K M] {ops : VecOps K V R} {n : Nat} {valid : Nat → V → Prop}
  {rowValid : R → Prop} {idxValid : IndexVec → Prop} {value : V → M} {row : R → M} {select : IndexVec → M → M}

theorem access {d : Data K R} {m : Nat} (hd : d.Valid m rowValid) {e : Nat} (he : e < m) :
    ∃ w r, d.weights.get e = .ok w ∧ readAt d.rows e = .ok r ∧ rowValid r ∧ stat row d e = times w (row r) := by
  have hr : e < d.rows.length := Nat.lt_of_lt_of_le he hd.rows
  cases hw : d.weights with
  | equal k =>
    refine ⟨none, d.rows[e], rfl, readAt_of_lt hr, hd.row _ (List.getElem_mem _), ?_⟩
    simp [stat, List.getElem?_eq_getElem hr, hw, times]
  | vector l =>
    have hl : e < l.length := Nat.lt_of_lt_of_le he (hd.weights l hw)
    refine ⟨some (element l e), d.rows[e], ?_, readAt_of_lt hr, hd.row _ (List.getElem_mem _), ?_⟩
    · simp only [Weights.get]
      rw [readAt_element hl]; rfl
    · simp [stat, List.getElem?_eq_getElem hr, hw, times]

/-- The state of a subset stands for the given statistics. -/
structure Repr (valid : Nat → V → Prop) (value : V → M) (n k : Nat) (s : SubsetState V) (sum : M) (acc : Option M) (total : M) :
    Prop where
  sum : valid k s.sum ∧ value s.sum = sum
  acc : match s.acc, acc with
    | none, none => True
    | some a, some m => valid k a ∧ value a = m
    | _, _ => False
  tmp : valid k s.tmp
  total : valid n s.total ∧ value s.total = total

theorem removeAll_spec (L : Laws ops n valid rowValid idxValid value row select) {d : Data K R} {m : Nat}
    (hd : d.Valid m rowValid) (excluded : List Nat) (he : ∀ e ∈ excluded, e < m) (v : V) (hv : valid n v) :
    ∃ v', removeAll ops d excluded v = .ok v' ∧ valid n v' ∧ value v' = value v - (excluded.map (stat row d)).sum := by
  induction excluded generalizing v with
  | nil => exact ⟨v, rfl, hv, by simp⟩
  | cons e l ih =>
    obtain ⟨w, r, h1, h2, h3, h4⟩ := access (row := row) hd (he e (List.mem_cons_self))
    obtain ⟨v1, e1, e2, e3⟩ := L.remove v r w hv h3
    obtain ⟨v2, f1, f2, f3⟩ := ih (fun e' he' => he e' (List.mem_cons_of_mem _ he')) v1 e2
    refine ⟨v2, ?_, f2, ?_⟩
    · simp only [removeAll, removeStatistic]
      rw [h1, ok_bind, h2, ok_bind, e1, ok_bind, f1]
    · rw [f3, e3, List.map_cons, List.sum_cons, h4]
      abel

theorem totalSum_spec (L : Laws ops n valid rowValid idxValid value row select) {d : Data K R}
    (hd : d.Valid d.weights.size rowValid) (hn : d.numCols = n) :
    ∃ v, totalSum ops d = .ok v ∧ valid n v ∧ value v = ((List.range d.weights.size).map (stat row d)).sum := by
  unfold totalSum
  obtain ⟨v, h1, h2⟩ := loop_rule (body := fun i v => addStatistic ops d v i)
    (fun i (v : V) => valid n v ∧ value v = ((List.range i).map (stat row d)).sum) d.weights.size (ops.new d.numCols)
    ⟨hn ▸ (L.new _).1, by simpa using (L.new _).2⟩ (by
      rintro i v hi ⟨hv1, hv2⟩
      obtain ⟨w, r, h1, h2, h3, h4⟩ := access (row := row) hd hi
      obtain ⟨v1, e1, e2, e3⟩ := L.add v r w hv1 h3
      refine ⟨v1, ?_, e2, ?_⟩
      · simp only [addStatistic]
        rw [h1, ok_bind, h2, ok_bind, e1]
      · rw [e3, hv2, List.range_succ, List.map_append, List.sum_append, List.map_singleton, List.sum_singleton, h4])
  exact ⟨v, h1, h2⟩

/-- The sum of statistics that have been added before the last reset, after some operations. -/
def accAfter (select : IndexVec → M → M) (row : R → M) (d : Data K R) (idx : IndexVec) (sum : M) (acc : Option M) : List SubsetOp → M × Option M
  | [] => (sum, acc)
  | .add e :: l => accAfter select row d idx (sum + select idx (stat row d e)) acc l
  | .reset :: l => accAfter select row d idx 0 (some (acc.getD 0 + sum)) l

theorem select_stat (L : Laws ops n valid rowValid idxValid value row select) {d : Data K R} (idx : IndexVec) (w : Option K) (r : R)
    {e : Nat} (h : stat row d e = times w (row r)) : select idx (stat row d e) = times w (select idx (row r)) := by
  rw [h, L.select_times]

theorem run_spec (L : Laws ops n valid rowValid idxValid value row select) {d : Data K R} {m : Nat} (hd : d.Valid m rowValid)
    {idx : IndexVec} (hidx : idxValid idx) (l : List SubsetOp) (hl : ∀ e ∈ opExamples l, e < m) {s : SubsetState V} {sum total : M}
    {acc : Option M} (hs : Repr valid value n idx.size s sum acc total) :
    ∃ s', SubsetState.run ops d idx l s = .ok s' ∧
      Repr valid value n idx.size s' (accAfter select row d idx sum acc l).1 (accAfter select row d idx sum acc l).2 total := by
  induction l generalizing s sum acc with
  | nil => exact ⟨s, rfl, hs⟩
  | cons op l ih =>
    cases op with
    | add e =>
      obtain ⟨w, r, h1, h2, h3, h4⟩ := access (row := row) hd (hl e (List.mem_cons_self))
      obtain ⟨v, e1, e2, e3⟩ := L.addToSubset s.sum r idx w hidx hs.sum.1 h3
      obtain ⟨s', f1, f2⟩ := ih (fun e' he' => hl e' (List.mem_cons_of_mem _ he'))
        (s := { s with sum := v }) (sum := sum + select idx (stat row d e)) (acc := acc)
        ⟨⟨e2, by rw [e3, hs.sum.2, select_stat L idx w r h4]⟩, hs.acc, hs.tmp, hs.total⟩
      refine ⟨s', ?_, f2⟩
      simp only [SubsetState.run, SubsetState.add]
      rw [h1, ok_bind, h2, ok_bind, e1, ok_bind]
      exact f1
    | reset =>
      have key : ∃ a, s.reset ops = .ok { s with acc := some a, sum := ops.clear s.sum } ∧ valid idx.size a ∧
          value a = acc.getD 0 + sum := by
        have ha := hs.acc
        cases hsa : s.acc with
        | none =>
          rw [hsa] at ha
          cases acc with
          | some _ => exact ha.elim
          | none =>
            refine ⟨s.sum, ?_, hs.sum.1, by simpa using hs.sum.2⟩
            simp only [SubsetState.reset, hsa, pure_eq_ok]
        | some a =>
          rw [hsa] at ha
          cases acc with
          | none => exact ha.elim
          | some b =>
            obtain ⟨a', g1, g2, g3⟩ := L.addVector idx.size a s.sum ha.1 hs.sum.1
            refine ⟨a', ?_, g2, by rw [g3, ha.2, hs.sum.2]; rfl⟩
            simp only [SubsetState.reset, hsa, pure_eq_ok]
            rw [g1, ok_bind]
      obtain ⟨a, g1, g2, g3⟩ := key
      obtain ⟨s', f1, f2⟩ := ih (fun e' he' => hl e' he')
        (s := { s with acc := some a, sum := ops.clear s.sum }) (sum := 0) (acc := some (acc.getD 0 + sum))
        ⟨L.clear _ _ hs.sum.1, ⟨g2, g3⟩, hs.tmp, hs.total⟩
      refine ⟨s', ?_, f2⟩
      simp only [SubsetState.run]
      rw [g1, ok_bind]
      exact f1

theorem accAfter_spec (select : IndexVec → M → M) (row : R → M) (d : Data K R) (idx : IndexVec) (l : List SubsetOp) (sum : M)
    (acc : Option M) :
    accAfter select row d idx sum acc l =
      if .reset ∈ l then (((sinceReset l).map (fun e => select idx (stat row d e))).sum,
        some (acc.getD 0 + sum + ((beforeReset l).map (fun e => select idx (stat row d e))).sum))
      else (sum + ((sinceReset l).map (fun e => select idx (stat row d e))).sum, acc) := by
  induction l generalizing sum acc with
  | nil => simp [accAfter, sinceReset]
  | cons op l ih =>
    cases op with
    | add e =>
      simp only [accAfter, ih, sinceReset, beforeReset, List.mem_cons, reduceCtorEq, false_or]
      split
      · simp only [List.map_cons, List.sum_cons, Prod.mk.injEq, Option.some.injEq, true_and]
        abel
      · simp only [List.map_cons, List.sum_cons, Prod.mk.injEq, and_true]
        abel
    | reset =>
      simp only [accAfter, ih, sinceReset, beforeReset, List.mem_cons, true_or, if_true, Option.getD_some]
      by_cases h : SubsetOp.reset ∈ l
      · rw [if_pos h]; simp
      · rw [if_neg h]
        have : beforeReset l = [] := by
          clear ih
          induction l with
          | nil => rfl
          | cons op l ih =>
            cases op with
            | add e =>
              simp only [List.mem_cons, reduceCtorEq, false_or] at h
              simp only [beforeReset, if_neg h]
              exact ih h
            | reset => simp at h
        rw [this]; simp

end

end MLRL.Statistics
