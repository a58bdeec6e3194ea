import Verif.Model.LabelVectors
import Verif.Lemma.LossUpdate
import Verif.Spec.Loss
import Mathlib.Algebra.BigOperators.Ring.Finset
import Mathlib.Algebra.Order.BigOperators.Group.Finset
import Mathlib.Algebra.BigOperators.Field

/-!
# Lemmas about label vectors
-/

set_option linter.unusedSectionVars false

namespace MLRL.LabelVectors

open Iterators RuleEval Finset

variable {K : Type}

theorem compareElements_eq {a b : List Nat} (h : a.length = b.length) : compareElements a b = decide (a = b) := by
  induction a generalizing b with
  | nil =>
    cases b with
    | nil => rfl
    | cons x b => simp at h
  | cons y a ih =>
    cases b with
    | nil => simp at h
    | cons x b =>
      simp only [compareElements, ih (by simpa using h)]
      by_cases e : y = x <;> simp [e]

theorem compareViews_eq (a b : List Nat) : compareViews a b = decide (a = b) := by
  unfold compareViews
  split_ifs with h
  · have : a ≠ b := fun e => h (by rw [e])
    simp [this]
  · exact compareElements_eq (by simpa using h)

theorem find_none {H : Type} [DecidableEq H] {hash : List Nat → H} {vectors : List (List Nat)} {v : List Nat}
    (h : find hash vectors.zipIdx v = none) : v ∉ vectors := by
  intro hm
  obtain ⟨k, hk⟩ := List.mem_iff_getElem?.1 hm
  have := List.find?_eq_none.1 h (v, k) (List.mk_mem_zipIdx_iff_getElem?.2 hk)
  simp [compareViews_eq] at this

theorem find_some {H : Type} [DecidableEq H] {hash : List Nat → H} {vectors : List (List Nat)} {v : List Nat} {e : List Nat × Nat}
    (h : find hash vectors.zipIdx v = some e) : vectors[e.2]? = some v := by
  have h1 := List.find?_some h
  have h2 := List.mem_of_find?_eq_some h
  simp only [compareViews_eq, Bool.and_eq_true, decide_eq_true_eq] at h1
  have := List.mk_mem_zipIdx_iff_getElem?.1 (show (e.1, e.2) ∈ vectors.zipIdx from h2)
  rw [this, h1.2]

/-- The state of the constructor after the rows `done` have been processed. -/
structure Collected (done : List (List Nat)) (s : List (List Nat × Nat) × LabelVectorSet) : Prop where
  map : s.1 = s.2.vectors.zipIdx
  nodup : s.2.vectors.Nodup
  mem : ∀ v, v ∈ s.2.vectors ↔ v ∈ done
  frequencies : s.2.frequencies = s.2.vectors.map (fun w => done.count w)

theorem addRow_ok {H : Type} [DecidableEq H] (hash : List Nat → H) {done : List (List Nat)} {s : List (List Nat × Nat) × LabelVectorSet}
    (h : Collected done s) (v : List Nat) : ∃ s', addRow hash v s = .ok s' ∧ Collected (done ++ [v]) s' := by
  unfold addRow
  have hlen : s.2.frequencies.length = s.2.vectors.length := by rw [h.frequencies]; simp
  rw [h.map]
  cases hf : find hash s.2.vectors.zipIdx v with
  | none =>
    have hv := find_none hf
    refine ⟨_, rfl, ⟨?_, ?_, ?_, ?_⟩⟩
    · simp [List.zipIdx_append, hlen]
    · rw [List.nodup_append]
      refine ⟨h.nodup, by simp, ?_⟩
      intro a ha b hb e
      simp only [List.mem_singleton] at hb
      exact hv (hb ▸ e ▸ ha)
    · intro w
      simp [h.mem]
    · simp only [List.map_append, List.map_cons, List.map_nil, h.frequencies]
      congr 1
      · refine List.map_congr_left (fun w hw => ?_)
        have : v ≠ w := fun e => hv (e ▸ hw)
        rw [List.count_append]
        simp [this]
      · have : v ∉ done := fun hh => hv ((h.mem v).2 hh)
        rw [List.count_append, List.count_eq_zero_of_not_mem this]
        simp
  | some e =>
    have he := find_some hf
    have hlt := (List.getElem?_eq_some_iff.1 he).1
    simp only
    rw [readAt_of_lt (by omega), ok_bind, writeAt_of_lt (by omega), ok_bind]
    refine ⟨_, rfl, ⟨rfl, h.nodup, ?_, ?_⟩⟩
    · intro w
      simp only [h.mem, List.mem_append, List.mem_singleton]
      refine ⟨Or.inl, ?_⟩
      rintro (hw | rfl)
      · exact hw
      · exact (h.mem w).1 (List.mem_of_getElem? he)
    · refine List.ext_getElem? (fun c => ?_)
      simp only [List.getElem?_set, List.getElem?_map]
      by_cases ec : e.2 = c
      · subst ec
        rw [if_pos rfl, if_pos (by omega), he]
        simp only [h.frequencies, List.getElem_map, Option.map_some]
        have : s.2.vectors[e.2] = v := (List.getElem?_eq_some_iff.1 he).2
        rw [this, List.count_append]
        simp
      · rw [if_neg ec, h.frequencies, List.getElem?_map]
        cases hc : s.2.vectors[c]? with
        | none => rfl
        | some w =>
          have hne : v ≠ w := by
            rintro rfl
            have h1 := (List.getElem?_eq_some_iff.1 hc).1
            exact ec ((List.getElem?_inj hlt h.nodup).1 (by rw [he, hc]))
          simp only [Option.map_some]
          rw [List.count_append]
          simp [hne]

theorem take_succ_eq {A : Type} {l : List A} {i : Nat} {x : A} (h : l[i]? = some x) : l.take (i + 1) = l.take i ++ [x] := by
  rw [List.take_succ, h]
  rfl

theorem createLabelVectorSet_ok {H : Type} [DecidableEq H] (hash : List Nat → H) (rows : List (List Nat)) :
    ∃ s, createLabelVectorSet hash rows = .ok s.2 ∧ Collected rows s := by
  unfold createLabelVectorSet
  obtain ⟨s, h1, h2⟩ := loop_rule (body := fun i s => do
      let labelVector ← readAt rows i
      addRow hash labelVector s) (fun i s => Collected (rows.take i) s) rows.length ([], { vectors := [], frequencies := [] })
    ⟨rfl, by simp, by simp, by simp⟩ (by
      intro i s hi h
      obtain ⟨s', g1, g2⟩ := addRow_ok hash h rows[i]
      refine ⟨s', ?_, ?_⟩
      · rw [readAt_of_lt hi, ok_bind, g1]
      · rw [take_succ_eq (List.getElem?_eq_getElem hi)]
        exact g2)
  rw [List.take_length] at h2
  exact ⟨s, by rw [h1]; rfl, h2⟩

/-! ### Dense rows of label matrices -/

theorem filter_range_succ (n : Nat) (p : Nat → Bool) :
    (List.range (n + 1)).filter p = if p n then (List.range n).filter p ++ [n] else (List.range n).filter p := by
  rw [List.range_succ, List.filter_append]
  split_ifs with h <;> simp [h]

theorem createLabelVectorDense_ok (row : List Bool) (array : List Nat) (ha : array.length = row.length) :
    createLabelVectorDense row array = .ok ((List.range row.length).filter (fun c => decide (row[c]? = some true))) := by
  unfold createLabelVectorDense
  obtain ⟨s, h1, h2, h3, h4⟩ := loop_rule (body := fun i (s : Nat × List Nat) => do
      let label ← readAt row i
      if label then do
        let array ← writeAt s.2 s.1 i
        return (s.1 + 1, array)
      else return s)
    (fun i s => s.1 = ((List.range i).filter (fun c => decide (row[c]? = some true))).length ∧ s.2.length = row.length ∧
      s.2.take s.1 = (List.range i).filter (fun c => decide (row[c]? = some true))) row.length (0, array) ⟨by simp, ha, by simp⟩ (by
    rintro i s hi ⟨g1, g2, g3⟩
    have hle : s.1 ≤ i := by
      rw [g1]
      exact (List.length_filter_le _ _).trans (by simp)
    rw [readAt_of_lt hi, ok_bind, filter_range_succ, List.getElem?_eq_getElem hi]
    cases hr : row[i] with
    | true =>
      simp only [if_true, decide_true]
      rw [writeAt_of_lt (by omega), ok_bind]
      refine ⟨_, rfl, by simp [g1], by simpa using g2, ?_⟩
      simp only
      rw [List.take_succ, ← g3]
      congr 1
      · rw [List.take_set_of_le (Nat.le_refl _)]
      · rw [List.getElem?_set_self (by omega)]
        rfl
    | false =>
      refine ⟨s, by simp [pure_eq_ok], ?_⟩
      simpa using ⟨g1, g2, g3⟩)
  rw [h1, ok_bind, h4]
  rfl

/-! ### The closest label vector -/

/-- Label vector `b` is preferred to `j`. -/
def Preferred [LinearOrder K] (d : Nat → K) (f : Nat → Nat) (b j : Nat) : Prop :=
  d b < d j ∨ (d b = d j ∧ (f j < f b ∨ (f j = f b ∧ b ≤ j)))

theorem Preferred.trans [LinearOrder K] {d : Nat → K} {f : Nat → Nat} {a b c : Nat} (h1 : Preferred d f a b) (h2 : Preferred d f b c) :
    Preferred d f a c := by
  rcases h1 with h1 | ⟨h1, h1'⟩ <;> rcases h2 with h2 | ⟨h2, h2'⟩
  · exact Or.inl (lt_trans h1 h2)
  · exact Or.inl (by rw [← h2]; exact h1)
  · exact Or.inl (by rw [h1]; exact h2)
  · exact Or.inr ⟨h1.trans h2, by omega⟩

theorem getClosest_ok [LinearOrder K] {set : LabelVectorSet} {v : Nat → List Nat} {f : Nat → Nat} {distance : Nat → List Nat → Res K} {d : Nat → K}
    {m : Nat} (hm : 0 < m) (hl : set.vectors.length = m) (hv : ∀ i < m, set.vectors[i]? = some (v i)) (hf : ∀ i < m, set.frequencies[i]? = some (f i))
    (hd : ∀ i < m, distance i (v i) = .ok (d i)) :
    ∃ b < m, getClosestLabelVector set distance = .ok (v b) ∧ ∀ j < m, Preferred d f b j := by
  unfold getClosestLabelVector
  rw [readAt_of_getElem? (hv 0 hm), ok_bind, readAt_of_getElem? (hf 0 hm), ok_bind, hd 0 hm, ok_bind]
  obtain ⟨s, h1, b, h2, h3, -, h4⟩ := loopFrom_rule (body := fun i (s : List Nat × Nat × K) => do
      let labelVector ← readAt set.vectors i
      let frequency ← readAt set.frequencies i
      let d ← distance i labelVector
      return if d < s.2.2 ∨ (d = s.2.2 ∧ frequency > s.2.1) then (labelVector, frequency, d) else s)
    (fun i s => ∃ b < m, s = (v b, f b, d b) ∧ b < i ∧ ∀ j < i, Preferred d f b j) 1 (set.vectors.length - 1) (v 0, f 0, d 0)
    ⟨0, hm, rfl, by omega, fun j hj => Or.inr ⟨by rw [show j = 0 by omega], Or.inr ⟨by rw [show j = 0 by omega], by omega⟩⟩⟩ (by
    rintro i s hi1 hi ⟨b, g1, rfl, g2, g3⟩
    have him : i < m := by omega
    rw [readAt_of_getElem? (hv _ him), ok_bind, readAt_of_getElem? (hf _ him), ok_bind, hd _ him, ok_bind]
    simp only
    refine ⟨_, rfl, ?_⟩
    split_ifs with hc
    · refine ⟨i, him, rfl, by omega, fun j hj => ?_⟩
      by_cases e : j = i
      · subst e
        exact Or.inr ⟨rfl, Or.inr ⟨rfl, Nat.le_refl _⟩⟩
      · refine Preferred.trans ?_ (g3 j (by omega))
        rcases hc with hc | ⟨hc, hc'⟩
        · exact Or.inl hc
        · exact Or.inr ⟨hc, Or.inl hc'⟩
    · refine ⟨b, g1, rfl, by omega, fun j hj => ?_⟩
      by_cases e : j = i
      · subst e
        rw [not_or, not_and, not_lt, not_lt] at hc
        rcases lt_or_eq_of_le hc.1 with h | h
        · exact Or.inl h
        · have hf' := hc.2 h.symm
          exact Or.inr ⟨h, by omega⟩
      · exact g3 j (by omega))
  rw [h1, ok_bind]
  refine ⟨b, h2, ?_, fun j hj => h4 j (by omega)⟩
  rw [h3]
  rfl

/-! ### Predictions -/

theorem forward_iterate {labels : List Nat} (hl : labels.Pairwise (· < ·)) (c : Nat) :
    (iterate BinarySparseForward.next c (BinarySparseForward.create labels 0)).deref = decide (c ∈ labels) := by
  have := binarySparseForward_spec labels 0 hl (by simp) c
  rwa [Nat.zero_add] at this

theorem writeIndicator_ok {labels : List Nat} (hl : labels.Pairwise (· < ·)) (prediction : List Nat) :
    ∃ r, loop prediction.length (fun i (s : BinarySparseForward × List Nat) => do
      let prediction ← writeAt s.2 i (if s.1.deref then 1 else 0)
      return (s.1.next, prediction)) (BinarySparseForward.create labels 0, prediction) = .ok r ∧
      r.2 = Loss.row prediction.length (fun c => if c ∈ labels then 1 else 0) := by
  obtain ⟨r, h1, -, h3, h4⟩ := loop_rule (body := fun i (s : BinarySparseForward × List Nat) => do
      let prediction ← writeAt s.2 i (if s.1.deref then 1 else 0)
      return (s.1.next, prediction))
    (fun i s => s.1 = iterate BinarySparseForward.next i (BinarySparseForward.create labels 0) ∧ s.2.length = prediction.length ∧
      ∀ c, c < i → s.2[c]? = some (if c ∈ labels then 1 else 0)) prediction.length (BinarySparseForward.create labels 0, prediction)
    ⟨rfl, rfl, by simp⟩ (by
    rintro i s hi ⟨g1, g2, g3⟩
    rw [writeAt_of_lt (by omega), ok_bind]
    refine ⟨_, rfl, by simp only [g1, iterate], by simpa using g2, fun c hc => ?_⟩
    simp only [List.getElem?_set]
    by_cases e : i = c
    · subst e
      rw [if_pos rfl, if_pos (by omega), g1, forward_iterate hl]
      simp
    · rw [if_neg e, g3 c (by omega)])
  refine ⟨r, h1, List.ext_getElem? (fun c => ?_)⟩
  by_cases hc : c < prediction.length
  · rw [h4 c hc]
    simp [Loss.row, hc]
  · rw [List.getElem?_eq_none (by omega), List.getElem?_eq_none (by simp [Loss.row]; omega)]

theorem appendAll_ok (labels row : List Nat) :
    loop labels.length (fun i row => do
      let index ← readAt labels i
      return row ++ [index]) row = .ok (row ++ labels) := by
  obtain ⟨r, h1, h2⟩ := loop_rule (body := fun i (row : List Nat) => do
      let index ← readAt labels i
      return row ++ [index]) (fun i r => r = row ++ labels.take i) labels.length row (by simp) (by
    rintro i s hi rfl
    rw [readAt_of_lt hi, ok_bind]
    refine ⟨_, rfl, ?_⟩
    rw [take_succ_eq (List.getElem?_eq_getElem hi), List.append_assoc])
  rw [h1, h2, List.take_length]

theorem chainRule_ok [Field K] (marginal : Nat → K → K) {score : Nat → Res K} {s : Nat → K} {labels : List Nat} (hl : labels.Pairwise (· < ·))
    {n : Nat} (hs : ∀ i < n, score i = .ok (s i)) :
    chainRule marginal score labels n = .ok (∏ i ∈ range n, if i ∈ labels then marginal i (s i) else 1 - marginal i (s i)) := by
  unfold chainRule
  obtain ⟨r, h1, -, h3⟩ := loop_rule (body := fun i (s : BinarySparseForward × K) => do
      let score ← score i
      let marginalProbability := marginal i score
      let marginalProbability := if !s.1.deref then 1 - marginalProbability else marginalProbability
      return (s.1.next, s.2 * marginalProbability))
    (fun i r => r.1 = iterate BinarySparseForward.next i (BinarySparseForward.create labels 0) ∧
      r.2 = ∏ j ∈ range i, if j ∈ labels then marginal j (s j) else 1 - marginal j (s j)) n (BinarySparseForward.create labels 0, 1)
    ⟨rfl, by simp⟩ (by
    rintro i r hi ⟨g1, g2⟩
    rw [hs i hi, ok_bind]
    refine ⟨_, rfl, by simp only [g1, iterate], ?_⟩
    simp only [prod_range_succ, g2, g1, forward_iterate hl]
    by_cases hc : i ∈ labels <;> simp [hc])
  rw [h1, ok_bind, h3]
  rfl

theorem jointProbabilities_ok [Field K] [LinearOrder K] {joint : Nat → List Nat → Res K} {vectors : List (List Nat)} {p : Nat → K} {array : List K}
    (ha : array.length = vectors.length) (hp : ∀ i v, vectors[i]? = some v → joint i v = .ok (p i)) :
    jointProbabilities joint vectors array =
      .ok (Loss.row vectors.length (fun i => divideOrZero (p i) (∑ j ∈ range vectors.length, p j))) := by
  unfold jointProbabilities
  obtain ⟨r, h1, h2, h3, h4⟩ := loop_rule (body := fun i (s : K × List K) => do
      let labelVector ← readAt vectors i
      let p ← joint i labelVector
      let array ← writeAt s.2 i p
      return (s.1 + p, array))
    (fun i s => s.1 = ∑ j ∈ range i, p j ∧ s.2.length = vectors.length ∧ ∀ c, c < i → s.2[c]? = some (p c)) vectors.length (0, array)
    ⟨by simp, ha, by simp⟩ (by
    rintro i s hi ⟨g1, g2, g3⟩
    rw [readAt_of_lt hi, ok_bind, hp i _ (List.getElem?_eq_getElem hi), ok_bind, writeAt_of_lt (by omega), ok_bind]
    refine ⟨_, rfl, by simp [sum_range_succ, g1], by simpa using g2, fun c hc => ?_⟩
    simp only [List.getElem?_set]
    by_cases e : i = c
    · subst e
      rw [if_pos rfl, if_pos (by omega)]
    · rw [if_neg e, g3 c (by omega)])
  rw [h1, ok_bind]
  obtain ⟨r', k1, k2, k3, k4⟩ := loop_rule (body := fun i array => do
      let p ← readAt array i
      writeAt array i (divideOrZero p r.1))
    (fun i s => s.length = vectors.length ∧ (∀ c, c < i → s[c]? = some (divideOrZero (p c) r.1)) ∧
      ∀ c, i ≤ c → c < vectors.length → s[c]? = some (p c)) vectors.length r.2
    ⟨h3, by simp, fun c _ hc => h4 c hc⟩ (by
    rintro i s hi ⟨g1, g2, g3⟩
    rw [readAt_of_getElem? (g3 i (Nat.le_refl _) hi), ok_bind, writeAt_of_lt (by omega)]
    refine ⟨_, rfl, by simpa using g1, fun c hc => ?_, fun c hc hc' => ?_⟩
    · simp only [List.getElem?_set]
      by_cases e : i = c
      · subst e
        rw [if_pos rfl, if_pos (by omega)]
      · rw [if_neg e, g2 c (by omega)]
    · rw [List.getElem?_set_ne (by omega), g3 c (by omega) hc'])
  rw [k1]
  refine congrArg Except.ok (List.ext_getElem? (fun c => ?_))
  by_cases hc : c < vectors.length
  · rw [k3 c hc, h2]
    simp [Loss.row, hc]
  · rw [List.getElem?_eq_none (by omega), List.getElem?_eq_none (by simp [Loss.row]; omega)]

theorem marginalizeOne_ok [Field K] {labels : List Nat} (hnd : labels.Nodup) {q : List K} (hlt : ∀ c ∈ labels, c < q.length) (p : K) :
    ∃ q', loop labels.length (fun j probabilities => do
      let labelIndex ← readAt labels j
      let x ← readAt probabilities labelIndex
      writeAt probabilities labelIndex (x + p)) q = .ok q' ∧ q'.length = q.length ∧
      ∀ c, q'[c]? = q[c]?.map (fun x => if c ∈ labels then x + p else x) := by
  obtain ⟨q', h1, h2, h3⟩ := loop_rule (body := fun j probabilities => do
      let labelIndex ← readAt labels j
      let x ← readAt probabilities labelIndex
      writeAt probabilities labelIndex (x + p))
    (fun i q' => q'.length = q.length ∧ ∀ c : Nat, q'[c]? = q[c]?.map (fun x => if c ∈ labels.take i then x + p else x)) labels.length q
    ⟨rfl, fun c => by simp⟩ (by
    rintro i s hi ⟨g1, g2⟩
    have hx := List.getElem?_eq_getElem hi
    have hlt' : labels[i] < q.length := hlt _ (List.getElem_mem hi)
    have hnot : labels[i] ∉ labels.take i := by
      intro hm
      obtain ⟨k, hk⟩ := List.mem_iff_getElem?.1 hm
      rw [List.getElem?_take] at hk
      split_ifs at hk with hk'
      have := (List.getElem?_inj (by omega) hnd).1 (hk.trans hx.symm)
      omega
    have hread : s[labels[i]]? = some q[labels[i]] := by
      rw [g2, List.getElem?_eq_getElem hlt']
      simp [hnot]
    rw [readAt_of_lt hi, ok_bind, readAt_of_getElem? hread, ok_bind, writeAt_of_lt (by omega)]
    refine ⟨_, rfl, by simpa using g1, fun c => ?_⟩
    rw [List.getElem?_set]
    have hmem := LossUpdate.mem_take_succ hx c
    by_cases e : labels[i] = c
    · subst e
      rw [if_pos rfl, if_pos (by omega), List.getElem?_eq_getElem hlt', Option.map_some, if_pos (hmem.2 (Or.inr rfl))]
    · rw [if_neg e, g2]
      congr 1
      funext x
      by_cases hc : c ∈ labels.take i
      · rw [if_pos hc, if_pos (hmem.2 (Or.inl hc))]
      · rw [if_neg hc, if_neg (fun h => (hmem.1 h).elim hc (fun h => e h.symm))])
  rw [List.take_length] at h3
  exact ⟨q', h1, h2, h3⟩

theorem marginalize_ok [Field K] {vectors : List (List Nat)} (hnd : ∀ v ∈ vectors, v.Nodup) {probabilities : List K}
    (hlt : ∀ v ∈ vectors, ∀ c ∈ v, c < probabilities.length) {joint : List K} {p : Nat → K} (hj : ∀ i < vectors.length, joint[i]? = some (p i)) :
    marginalize vectors joint probabilities = .ok (Loss.row probabilities.length
      (fun c => ∑ i ∈ range vectors.length, if (∃ v, vectors[i]? = some v ∧ c ∈ v) then p i else 0)) := by
  classical
  unfold marginalize
  obtain ⟨q, h1, h2, h3⟩ := loop_rule (body := fun i probabilities => do
      let labelVector ← readAt vectors i
      let p ← readAt joint i
      loop labelVector.length (fun j probabilities => do
        let labelIndex ← readAt labelVector j
        let x ← readAt probabilities labelIndex
        writeAt probabilities labelIndex (x + p)) probabilities)
    (fun i q => q.length = probabilities.length ∧ ∀ c, c < probabilities.length →
      q[c]? = some (∑ i ∈ range i, if (∃ v, vectors[i]? = some v ∧ c ∈ v) then p i else 0)) vectors.length (List.replicate probabilities.length 0)
    ⟨by simp, fun c hc => by simp [hc]⟩ (by
    rintro i s hi ⟨g1, g2⟩
    have hmem := List.getElem_mem hi
    obtain ⟨q', k1, k2, k3⟩ := marginalizeOne_ok (hnd _ hmem) (q := s) (fun c hc => by rw [g1]; exact hlt _ hmem c hc) (p i)
    refine ⟨q', ?_, by omega, fun c hc => ?_⟩
    · rw [readAt_of_lt hi, ok_bind, readAt_of_getElem? (hj i hi), ok_bind, k1]
    · rw [k3, g2 c hc, Option.map_some, sum_range_succ]
      congr 1
      by_cases hcv : c ∈ vectors[i]
      · rw [if_pos hcv, if_pos ⟨_, List.getElem?_eq_getElem hi, hcv⟩]
      · rw [if_neg hcv, if_neg, add_zero]
        rintro ⟨v, hv, hcv'⟩
        rw [List.getElem?_eq_getElem hi] at hv
        cases hv
        exact hcv hcv')
  rw [h1]
  refine congrArg Except.ok (List.ext_getElem? (fun c => ?_))
  by_cases hc : c < probabilities.length
  · rw [h3 c hc]
    simp [Loss.row, hc]
  · rw [List.getElem?_eq_none (by omega), List.getElem?_eq_none (by simp [Loss.row]; omega)]

end MLRL.LabelVectors
