import Verif.Model.Gfm
import Verif.Lemma.LabelVectors
import Verif.Lemma.SparseSet
import Mathlib.Tactic.Linarith
import Mathlib.Tactic.FieldSimp
import Mathlib.Tactic.Ring

/-!
# Lemmas about the General F-Measure Maximiser
-/

set_option linter.unusedSectionVars false

namespace MLRL.Gfm

open LabelVectors Finset

variable {K : Type} [Field K] [LinearOrder K] [IsStrictOrderedRing K]

/-! ### Marginalised probabilities -/

theorem getMaxLabelCardinality_ge (vectors : List (List Nat)) : ∀ v ∈ vectors, v.length ≤ getMaxLabelCardinality vectors := by
  have h := pureLoop_rule (body := fun i m => match vectors[i]? with
    | some v => if v.length > m then v.length else m
    | none => m) (fun i m => ∀ v ∈ vectors.take i, v.length ≤ m) vectors.length 0 (by simp) (by
    intro i m hi h v hv
    have hx := List.getElem?_eq_getElem hi
    rw [take_succ_eq hx, List.mem_append, List.mem_singleton] at hv
    simp only [hx]
    rcases hv with hv | rfl
    · have := h v hv
      split_ifs <;> omega
    · split_ifs <;> omega)
  rwa [List.take_length] at h

/-- The entries of a row, for the sum over all numbers of relevant labels. -/
theorem rep_sum {n : Nat} {S : SparseSet K} {m : Nat → Option K} (h : SparseSet.Rep n S m) (w : Nat → K → K) (hw : ∀ c, w c 0 = 0) :
    (S.values.map (fun e => w e.1 e.2)).sum = ∑ c ∈ range n, w c ((m c).getD 0) := by
  classical
  have hnd := h.nodup
  have hval : ∀ e ∈ S.values, e.1 < n ∧ m e.1 = some e.2 := by
    rintro ⟨c, v⟩ he
    obtain ⟨k, hk⟩ := List.mem_iff_getElem?.1 he
    exact ⟨(h.cols k c v hk).1, (h.cols k c v hk).2.2⟩
  have h1 : S.values.map (fun e => w e.1 e.2) = (S.values.map Prod.fst).map (fun c => w c ((m c).getD 0)) := by
    rw [List.map_map]
    refine List.map_congr_left (fun e he => ?_)
    simp [(hval e he).2]
  rw [h1, ← List.sum_toFinset _ hnd]
  refine sum_subset (fun c hc => ?_) (fun c hc hc' => ?_)
  · obtain ⟨e, he, rfl⟩ := List.mem_map.1 (List.mem_toFinset.1 hc)
    exact mem_range.2 (hval e he).1
  · cases hm : m c with
    | none => simp [hw]
    | some v =>
      exfalso
      obtain ⟨k, -, h2⟩ := h.present c v (mem_range.1 hc) hm
      exact hc' (List.mem_toFinset.2 (List.mem_map.2 ⟨_, List.mem_of_getElem? h2, rfl⟩))

/-- The rows of the matrix represent the maps `m`. -/
structure Rows (n M : Nat) (rows : List (SparseSet K)) (m : Nat → Nat → Option K) : Prop where
  length : rows.length = n
  rep : ∀ l < n, ∃ S, rows[l]? = some S ∧ SparseSet.Rep M S (m l)

theorem addProbability_ok {n M : Nat} (hM : M ≤ SparseSet.maxIndex) {rows : List (SparseSet K)} {m : Nat → Nat → Option K} (h : Rows n M rows m)
    {v : List Nat} (hnd : v.Nodup) (hlt : ∀ c ∈ v, c < n) (hv : 0 < v.length) (hvM : v.length ≤ M) (p : K) :
    ∃ rows' m', addProbability v p rows = .ok rows' ∧ Rows n M rows' m' ∧
      ∀ l < n, ∀ s, (m' l s).getD 0 = (m l s).getD 0 + if l ∈ v ∧ s + 1 = v.length then p else 0 := by
  unfold addProbability
  obtain ⟨rows', h1, m', h2, h3⟩ := loop_rule (body := fun j probabilities => do
      let labelIndex ← readAt v j
      let row ← readAt probabilities labelIndex
      let row ← row.modify (v.length - 1) 0 (fun x => x + p)
      writeAt probabilities labelIndex row)
    (fun j rows' => ∃ m', Rows n M rows' m' ∧
      ∀ l < n, ∀ s, (m' l s).getD 0 = (m l s).getD 0 + if l ∈ v.take j ∧ s + 1 = v.length then p else 0) v.length rows
    ⟨m, h, fun l _ s => by simp⟩ (by
    rintro j r hj ⟨m', g1, g2⟩
    have hx := List.getElem?_eq_getElem hj
    have hl : v[j] < n := hlt _ (List.getElem_mem hj)
    obtain ⟨S, k1, k2⟩ := g1.rep _ hl
    obtain ⟨S', k3, k4⟩ := k2.modify hM (c := v.length - 1) (by omega) 0 (fun x => x + p)
    have hlen := g1.length
    rw [readAt_of_lt hj, ok_bind, readAt_of_getElem? k1, ok_bind, k3, ok_bind, writeAt_of_lt (by omega)]
    refine ⟨_, rfl, fun l => if l = v[j] then (fun c' => if c' = v.length - 1 then some ((m' v[j] (v.length - 1)).getD 0 + p) else m' v[j] c')
      else m' l, ⟨by simpa using hlen, fun l hl' => ?_⟩, fun l hl' s => ?_⟩
    · rw [List.getElem?_set]
      by_cases e : v[j] = l
      · subst e
        rw [if_pos rfl, if_pos (by omega)]
        refine ⟨S', rfl, ?_⟩
        rw [if_pos rfl]
        exact k4
      · obtain ⟨S₁, q1, q2⟩ := g1.rep l hl'
        rw [if_neg e]
        refine ⟨S₁, q1, ?_⟩
        rw [if_neg (fun h => e h.symm)]
        exact q2
    · have hmem := LossUpdate.mem_take_succ hx l
      have hnot : v[j] ∉ v.take j := by
        intro hm
        obtain ⟨k, hk⟩ := List.mem_iff_getElem?.1 hm
        rw [List.getElem?_take] at hk
        split_ifs at hk with hk'
        have := (List.getElem?_inj (by omega) hnd).1 (hk.trans hx.symm)
        omega
      have hgl := g2 l hl' s
      beta_reduce
      by_cases e : l = v[j]
      · rw [if_pos e]
        subst e
        by_cases es : s = v.length - 1
        · rw [if_pos es, Option.getD_some, ← es, hgl, if_neg (fun h => hnot h.1), if_pos ⟨hmem.2 (Or.inr rfl), by omega⟩, add_zero]
        · rw [if_neg es, hgl, if_neg (fun h => hnot h.1), if_neg (fun h => es (by omega))]
      · rw [if_neg e, hgl]
        congr 1
        by_cases hc : l ∈ v.take j
        · simp only [hc, hmem.2 (Or.inl hc), true_and]
        · have : l ∉ v.take (j + 1) := fun h => (hmem.1 h).elim hc e
          simp only [hc, this, false_and])
  rw [List.take_length] at h3
  exact ⟨rows', m', h1, h2, h3⟩

theorem calculateMarginalized_ok {n : Nat} {vectors : List (List Nat)} (hM : getMaxLabelCardinality vectors ≤ SparseSet.maxIndex)
    (hnd : ∀ v ∈ vectors, v.Nodup) (hlt : ∀ v ∈ vectors, ∀ c ∈ v, c < n) (hdis : vectors.Nodup) {joint : List K} {p : Nat → K}
    (hj : ∀ i < vectors.length, joint[i]? = some (p i)) :
    ∃ r m, calculateMarginalizedProbabilities vectors joint (List.replicate n (SparseSet.init (getMaxLabelCardinality vectors))) = .ok r ∧
      Rows n (getMaxLabelCardinality vectors) r.2 m ∧
      r.1 = ∑ i ∈ range vectors.length, (if (vectors[i]?).getD [] = [] then p i else 0) ∧
      ∀ l < n, ∀ s, (m l s).getD 0 =
        ∑ i ∈ range vectors.length, if l ∈ (vectors[i]?).getD [] ∧ s + 1 = ((vectors[i]?).getD []).length then p i else 0 := by
  unfold calculateMarginalizedProbabilities
  obtain ⟨r, h1, m, h2, h3, h4⟩ := loop_rule (body := fun i (s : K × List (SparseSet K)) => do
      let labelVector ← readAt vectors i
      let p ← readAt joint i
      if labelVector.length > 0 then do
        let probabilities ← addProbability labelVector p s.2
        return (s.1, probabilities)
      else return (p, s.2))
    (fun i r => ∃ m, Rows n (getMaxLabelCardinality vectors) r.2 m ∧
      r.1 = ∑ i ∈ range i, (if (vectors[i]?).getD [] = [] then p i else 0) ∧
      ∀ l < n, ∀ s, (m l s).getD 0 =
        ∑ i ∈ range i, if l ∈ (vectors[i]?).getD [] ∧ s + 1 = ((vectors[i]?).getD []).length then p i else 0)
    vectors.length (0, List.replicate n (SparseSet.init (getMaxLabelCardinality vectors)))
    ⟨fun _ _ => none, ⟨by simp, fun l hl => ⟨SparseSet.init _, by simp [hl], SparseSet.rep_init _⟩⟩, by simp, by simp⟩ (by
    rintro i r hi ⟨m, g1, g2, g3⟩
    have hx := List.getElem?_eq_getElem hi
    have hmem := List.getElem_mem hi
    rw [readAt_of_lt hi, ok_bind, readAt_of_getElem? (hj i hi), ok_bind]
    by_cases hpos : vectors[i].length > 0
    · obtain ⟨rows', m', k1, k2, k3⟩ := addProbability_ok hM g1 (hnd _ hmem) (hlt _ hmem) hpos (getMaxLabelCardinality_ge _ _ hmem) (p i)
      rw [if_pos hpos, k1, ok_bind]
      refine ⟨_, rfl, m', k2, ?_, fun l hl s => ?_⟩
      · have : vectors[i] ≠ [] := by
          intro e
          rw [e] at hpos
          simp at hpos
        simp only [sum_range_succ, hx, Option.getD_some, if_neg this, add_zero]
        exact g2
      · rw [k3 l hl s, g3 l hl s, sum_range_succ, hx, Option.getD_some]
    · rw [if_neg hpos]
      have e : vectors[i] = [] := List.length_eq_zero_iff.1 (by omega)
      refine ⟨_, rfl, m, g1, ?_, fun l hl s => ?_⟩
      · simp only [sum_range_succ, hx, Option.getD_some, if_pos e]
        rw [sum_eq_zero, zero_add]
        intro j hj'
        have hj'' := mem_range.1 hj'
        rw [if_neg]
        intro ej
        rw [List.getElem?_eq_getElem (show j < vectors.length by omega), Option.getD_some] at ej
        have := (List.Nodup.getElem_inj_iff hdis (hi := by omega) (hj := hi)).1 (ej.trans e.symm)
        omega
      · rw [g3 l hl s, sum_range_succ, hx, Option.getD_some, e]
        simp)
  exact ⟨r, m, h1, h2, h3, h4⟩

/-! ### Top-k selection -/

/-- The specification of `std::partial_sort`: the elements are permuted such that the first `k` elements are in decreasing order and are not less
than the others. -/
structure PartialSort (partialSort : Nat → List (Nat × K) → List (Nat × K)) : Prop where
  perm : ∀ k l, (partialSort k l).Perm l
  sorted : ∀ k l, ((partialSort k l).take k).Pairwise (fun a b => b.2 ≤ a.2)
  least : ∀ k l, ∀ a ∈ (partialSort k l).take k, ∀ b ∈ (partialSort k l).drop k, b.2 ≤ a.2

theorem foldl_sum {A : Type} (l : List A) (f : A → K) (x : K) : l.foldl (fun r e => r + f e) x = x + (l.map f).sum := by
  induction l generalizing x with
  | nil => simp
  | cons a l ih => rw [List.foldl_cons, ih, List.map_cons, List.sum_cons, add_assoc]

theorem createAndEvaluate_ok {partialSort : Nat → List (Nat × K) → List (Nat × K)} (hp : PartialSort partialSort) {n : Nat}
    {vector : List (Nat × K)} (hv : vector.length = n) {rows : List (SparseSet K)} {k : Nat} (hk : k ≤ n) {q : Nat → K}
    (hq : ∀ l < n, ∃ S, rows[l]? = some S ∧ weightedProbability S k = q l) :
    ∃ r, createAndEvaluateLabelVector partialSort vector n rows k = .ok r ∧ r.2.length = n ∧
      r.1 = ((r.2.take k).map Prod.snd).sum ∧ r.2.Perm ((List.range n).map (fun l => (l, q l))) ∧
      (∀ a ∈ r.2.take k, ∀ b ∈ r.2.drop k, b.2 ≤ a.2) := by
  unfold createAndEvaluateLabelVector
  obtain ⟨w, h1, h2, h3⟩ := loop_rule (body := fun i vector => do
      let row ← readAt rows i
      writeAt vector i (i, weightedProbability row k))
    (fun i w => w.length = n ∧ ∀ c, c < i → w[c]? = some (c, q c)) n vector ⟨hv, by simp⟩ (by
    rintro i w hi ⟨g1, g2⟩
    obtain ⟨S, k1, k2⟩ := hq i hi
    rw [readAt_of_getElem? k1, ok_bind, writeAt_of_lt (by omega)]
    refine ⟨_, rfl, by simpa using g1, fun c hc => ?_⟩
    rw [List.getElem?_set]
    by_cases e : i = c
    · subst e
      rw [if_pos rfl, if_pos (by omega), k2]
    · rw [if_neg e, g2 c (by omega)])
  have hw : w = (List.range n).map (fun l => (l, q l)) := by
    refine List.ext_getElem? (fun c => ?_)
    by_cases hc : c < n
    · rw [h3 c hc]
      simp [hc]
    · rw [List.getElem?_eq_none (by omega), List.getElem?_eq_none (by simp; omega)]
  rw [h1, ok_bind]
  have hlen : (partialSort k w).length = n := by rw [(hp.perm k w).length_eq, h2]
  obtain ⟨s, k1, k2⟩ := loop_rule (body := fun i quality => do
      let e ← readAt (partialSort k w) i
      return quality + e.2)
    (fun i s => s = (((partialSort k w).take i).map Prod.snd).sum) k (0 : K) (by simp) (by
    rintro i s hi rfl
    have hi' : i < (partialSort k w).length := by omega
    rw [readAt_of_lt hi', ok_bind]
    refine ⟨_, rfl, ?_⟩
    rw [take_succ_eq (List.getElem?_eq_getElem hi')]
    simp only [List.map_append, List.map_cons, List.map_nil, List.sum_append, List.sum_cons, List.sum_nil, add_zero])
  refine ⟨(s, partialSort k w), ?_, hlen, k2, ?_, hp.least k w⟩
  · show (_ >>= _) = _
    rw [k1]
    rfl
  · rw [← hw]
    exact hp.perm k w

/-- The labels that are selected. -/
def selected (l : List (Nat × K)) : Finset Nat := (l.map Prod.fst).toFinset

theorem topk {n k : Nat} (hk : k ≤ n) (hk0 : 0 < k) {q : Nat → K} {w : List (Nat × K)} (hperm : w.Perm ((List.range n).map (fun l => (l, q l))))
    (hleast : ∀ a ∈ w.take k, ∀ b ∈ w.drop k, b.2 ≤ a.2) :
    (selected (w.take k)).card = k ∧ selected (w.take k) ⊆ range n ∧ ((w.take k).map Prod.snd).sum = ∑ l ∈ selected (w.take k), q l ∧
      ((w.take k).map Prod.fst).Nodup ∧ ∀ h ⊆ range n, h.card = k → ∑ l ∈ h, q l ≤ ∑ l ∈ selected (w.take k), q l := by
  have hlen : w.length = n := by rw [hperm.length_eq]; simp
  have hmem : ∀ e ∈ w, e.1 < n ∧ e.2 = q e.1 := by
    intro e he
    have := hperm.mem_iff.1 he
    simp only [List.mem_map, List.mem_range] at this
    obtain ⟨l, hl, rfl⟩ := this
    exact ⟨hl, rfl⟩
  have hnd : (w.map Prod.fst).Nodup := by
    have := (hperm.map Prod.fst).nodup_iff.2 (by
      rw [List.map_map]
      have : (Prod.fst ∘ fun l => (l, q l)) = id := rfl
      rw [this, List.map_id]
      exact List.nodup_range)
    exact this
  have hnd' : ((w.take k).map Prod.fst).Nodup := hnd.sublist ((List.take_sublist k w).map _)
  have hcard : (selected (w.take k)).card = k := by
    unfold selected
    rw [List.toFinset_card_of_nodup hnd', List.length_map, List.length_take, hlen]
    omega
  have hsum : ((w.take k).map Prod.snd).sum = ∑ l ∈ selected (w.take k), q l := by
    unfold selected
    rw [List.sum_toFinset _ hnd', List.map_map]
    congr 1
    exact List.map_congr_left (fun e he => (hmem e (List.mem_of_mem_take he)).2)
  refine ⟨hcard, ?_, hsum, hnd', ?_⟩
  · intro l hl
    obtain ⟨e, he, rfl⟩ := List.mem_map.1 (List.mem_toFinset.1 hl)
    exact mem_range.2 (hmem e (List.mem_of_mem_take he)).1
  · intro h hh hhc
    set T := selected (w.take k) with hT
    have hTne : T.Nonempty := card_pos.1 (by omega)
    obtain ⟨t, ht, htmin⟩ := exists_min_image T q hTne
    have hout : ∀ l ∈ h \ T, q l ≤ q t := by
      intro l hl
      obtain ⟨hl1, hl2⟩ := mem_sdiff.1 hl
      have hln := mem_range.1 (hh hl1)
      have hlw : (l, q l) ∈ w := hperm.mem_iff.2 (List.mem_map.2 ⟨l, List.mem_range.2 hln, rfl⟩)
      rw [← List.take_append_drop k w, List.mem_append] at hlw
      rcases hlw with hlw | hlw
      · exact absurd (List.mem_toFinset.2 (List.mem_map.2 ⟨_, hlw, rfl⟩)) hl2
      · obtain ⟨e, he, hee⟩ := List.mem_map.1 (List.mem_toFinset.1 ht)
        have := hleast e he _ hlw
        rw [(hmem e (List.mem_of_mem_take he)).2, hee] at this
        exact this
    have hcards : (h \ T).card = (T \ h).card := by
      have h1 := card_sdiff_add_card_inter h T
      have h2 := card_sdiff_add_card_inter T h
      rw [inter_comm] at h2
      omega
    have h1 : ∑ l ∈ h \ T, q l ≤ (h \ T).card • q t := sum_le_card_nsmul _ _ _ hout
    have h2 : (T \ h).card • q t ≤ ∑ l ∈ T \ h, q l := card_nsmul_le_sum _ _ _ (fun l hl => htmin l (mem_sdiff.1 hl).1)
    have h3 : ∑ l ∈ h, q l = ∑ l ∈ h \ T, q l + ∑ l ∈ h ∩ T, q l := by
      rw [← sum_union (disjoint_sdiff_inter h T), sdiff_union_inter]
    have h4 : ∑ l ∈ T, q l = ∑ l ∈ T \ h, q l + ∑ l ∈ h ∩ T, q l := by
      rw [inter_comm, ← sum_union (disjoint_sdiff_inter T h), sdiff_union_inter]
    rw [h3, h4]
    rw [hcards] at h1
    linarith

end MLRL.Gfm
