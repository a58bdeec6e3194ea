import Verif.Lemma.Gfm
import Verif.Props.LabelVectors

/-!
# C36: predictions that maximise the expected F1-measure
-/

namespace MLRL.Gfm

open LabelVectors Finset
open Loss (row)

variable {K : Type} [Field K] [LinearOrder K] [IsStrictOrderedRing K]

/-! ### Specification -/

/-- The example-wise F1-measure of a prediction `h`, given the relevant labels `y`. -/
def f1 (h y : Finset Nat) : K := if h = ∅ ∧ y = ∅ then 1 else 2 * ((h ∩ y).card : K) / ((h.card : K) + (y.card : K))

/-- The expectation of the F1-measure of a prediction `h`, if `p i` is the probability of the `i`-th label vector. -/
def expectedF1 (vectors : List (List Nat)) (p : Nat → K) (h : Finset Nat) : K :=
  ∑ i ∈ range vectors.length, p i * f1 h ((vectors[i]?).getD []).toFinset

/-! ### Lemmas -/

omit [LinearOrder K] [IsStrictOrderedRing K] in
theorem expectedF1_empty (vectors : List (List Nat)) (p : Nat → K) :
    expectedF1 vectors p ∅ = ∑ i ∈ range vectors.length, (if (vectors[i]?).getD [] = [] then p i else 0) := by
  unfold expectedF1
  refine sum_congr rfl (fun i _ => ?_)
  unfold f1
  by_cases e : (vectors[i]?).getD [] = []
  · simp [e]
  · have : ((vectors[i]?).getD []).toFinset ≠ ∅ := by simpa using e
    rw [if_neg e]
    simp [this]

theorem expectedF1_card {vectors : List (List Nat)} (hnd : ∀ v ∈ vectors, v.Nodup) {p : Nat → K} {M k : Nat} (hk : 0 < k)
    (hM : ∀ v ∈ vectors, v.length ≤ M) {n : Nat} {m : Nat → Nat → Option K}
    (hm : ∀ l < n, ∀ s, (m l s).getD 0 =
      ∑ i ∈ range vectors.length, if l ∈ (vectors[i]?).getD [] ∧ s + 1 = ((vectors[i]?).getD []).length then p i else 0)
    {h : Finset Nat} (hh : h ⊆ range n) (hc : h.card = k) :
    ∑ l ∈ h, ∑ c ∈ range M, 2 * (m l c).getD 0 / ((c + k + 1 : Nat) : K) = expectedF1 vectors p h := by
  have h1 : ∀ l ∈ h, ∑ c ∈ range M, 2 * (m l c).getD 0 / ((c + k + 1 : Nat) : K) =
      ∑ i ∈ range vectors.length, if l ∈ (vectors[i]?).getD [] then p i * (2 / ((k : K) + (((vectors[i]?).getD []).length : K))) else 0 := by
    intro l hl
    have : ∀ c ∈ range M, 2 * (m l c).getD 0 / ((c + k + 1 : Nat) : K) = ∑ i ∈ range vectors.length,
        if l ∈ (vectors[i]?).getD [] ∧ c + 1 = ((vectors[i]?).getD []).length then p i * (2 / ((c + k + 1 : Nat) : K)) else 0 := by
      intro c _
      rw [hm l (mem_range.1 (hh hl)) c, mul_sum, sum_div]
      refine sum_congr rfl (fun i _ => ?_)
      split_ifs
      · ring
      · simp
    rw [sum_congr rfl this, sum_comm]
    refine sum_congr rfl (fun i hi => ?_)
    by_cases hli : l ∈ (vectors[i]?).getD []
    · have hpos : 0 < ((vectors[i]?).getD []).length := List.length_pos_of_mem hli
      have hle : ((vectors[i]?).getD []).length ≤ M := by
        rw [List.getElem?_eq_getElem (mem_range.1 hi)]
        exact hM _ (List.getElem_mem _)
      simp only [hli, true_and, if_true]
      rw [sum_eq_single (((vectors[i]?).getD []).length - 1)]
      · rw [if_pos (by omega)]
        congr 2
        have : (((vectors[i]?).getD []).length - 1 + k + 1 : Nat) = k + ((vectors[i]?).getD []).length := by omega
        rw [this]
        push_cast
        ring
      · intro c _ hne
        rw [if_neg (by omega)]
      · intro hnot
        exact absurd (mem_range.2 (by omega)) hnot
    · simp [hli]
  rw [sum_congr rfl h1, sum_comm]
  unfold expectedF1
  refine sum_congr rfl (fun i hi => ?_)
  have hndi : ((vectors[i]?).getD []).Nodup := by
    rw [List.getElem?_eq_getElem (mem_range.1 hi)]
    exact hnd _ (List.getElem_mem _)
  have hne : h ≠ ∅ := by
    rintro rfl
    simp at hc
    omega
  unfold f1
  rw [if_neg (fun hh => hne hh.1), hc, List.toFinset_card_of_nodup hndi, ← sum_filter, sum_const, nsmul_eq_mul]
  have : h.filter (fun l => l ∈ (vectors[i]?).getD []) = h ∩ ((vectors[i]?).getD []).toFinset := by
    ext l
    simp
  rw [this]
  ring

/-! ### C36 -/

theorem weightedProbability_eq {M k : Nat} {S : SparseSet K} {m : Nat → Option K} (h : SparseSet.Rep M S m) :
    weightedProbability S k = ∑ c ∈ range M, 2 * (m c).getD 0 / ((c + k + 1 : Nat) : K) := by
  unfold weightedProbability
  rw [foldl_sum, zero_add]
  exact rep_sum h (fun c x => 2 * x / ((c + k + 1 : Nat) : K)) (by simp)

/-- **C36**: the labels that are selected maximise the expected F1-measure among all sets of labels. No assumptions on the (not necessarily
normalised) probabilities are made. The known label vectors must be distinct, which is the case for all sets of label vectors (C38). -/
theorem maximize_optimal {partialSort : Nat → List (Nat × K) → List (Nat × K)} (hps : PartialSort partialSort) {n : Nat} {vectors : List (List Nat)}
    (hM : n ≤ SparseSet.maxIndex) (hnd : ∀ v ∈ vectors, v.Nodup) (hlt : ∀ v ∈ vectors, ∀ c ∈ v, c < n) (hdis : vectors.Nodup)
    {joint : List K} {p : Nat → K} (hj : ∀ i < vectors.length, joint[i]? = some (p i)) {vector1 vector2 : List (Nat × K)}
    (h1 : vector1.length = n) (h2 : vector2.length = n) :
    ∃ best, maximize partialSort vector1 vector2 n vectors joint = .ok best ∧ (best.map Prod.fst).Nodup ∧ selected best ⊆ range n ∧
      ∀ h ⊆ range n, expectedF1 vectors p h ≤ expectedF1 vectors p (selected best) := by
  have hcard : getMaxLabelCardinality vectors ≤ SparseSet.maxIndex := by
    refine le_trans ?_ hM
    have h := pureLoop_rule (body := fun i m => match vectors[i]? with
      | some v => if v.length > m then v.length else m
      | none => m) (fun i m => m ≤ n) vectors.length 0 (Nat.zero_le _) (by
      intro i m hi h
      have hmem := List.getElem_mem hi
      have : vectors[i].length ≤ n := SparseSet.nodup_lt_length (hnd _ hmem) (hlt _ hmem)
      simp only [List.getElem?_eq_getElem hi]
      split_ifs <;> omega)
    exact h
  obtain ⟨r, m, g1, g2, g3, g4⟩ := calculateMarginalized_ok hcard hnd hlt hdis hj
  unfold maximize
  rw [g1, ok_bind]
  unfold search
  have hq : ∀ k, ∀ l < n, ∃ S, r.2[l]? = some S ∧ weightedProbability S k =
      ∑ c ∈ range (getMaxLabelCardinality vectors), 2 * (m l c).getD 0 / ((c + k + 1 : Nat) : K) := by
    intro k l hl
    obtain ⟨S, q1, q2⟩ := g2.rep l hl
    exact ⟨S, q1, weightedProbability_eq q2⟩
  obtain ⟨s, k1, k2, k3, k4, k5, k6, k7, k8⟩ := loop_rule (body := fun i (s : State K) => do
      let k := i + 1
      let r ← createAndEvaluateLabelVector partialSort s.tmp n r.2 k
      return if r.1 > s.bestQuality then { bestQuality := r.1, best := r.2, numElements := k, tmp := s.best } else { s with tmp := r.2 })
    (fun i s => s.tmp.length = n ∧ s.best.length = n ∧ s.numElements ≤ n ∧ ((s.best.take s.numElements).map Prod.fst).Nodup ∧
      selected (s.best.take s.numElements) ⊆ range n ∧ s.bestQuality = expectedF1 vectors p (selected (s.best.take s.numElements)) ∧
      ∀ h ⊆ range n, h.card ≤ i → expectedF1 vectors p h ≤ s.bestQuality) n
    { bestQuality := r.1, best := vector1, numElements := 0, tmp := vector2 }
    ⟨h2, h1, Nat.zero_le _, by simp, by simp [selected], by
      have he : selected (([] : List (Nat × K))) = ∅ := rfl
      simp only [List.take_zero, he, expectedF1_empty]
      exact g3, by
      intro h _ hc
      rw [card_eq_zero.1 (Nat.le_zero.1 hc), expectedF1_empty]
      exact le_of_eq g3.symm⟩ (by
    rintro i s hi ⟨b1, b2, b3, b4, b5, b6, b7⟩
    obtain ⟨w, w1, w2, w3, w4, w5⟩ := createAndEvaluate_ok hps b1 (k := i + 1) (by omega) (hq (i + 1))
    obtain ⟨t1, t2, t3, t4, t5⟩ := topk (show i + 1 ≤ n by omega) (by omega) w4 w5
    have hE : ∀ h ⊆ range n, h.card = i + 1 → ∑ l ∈ h, ∑ c ∈ range (getMaxLabelCardinality vectors), 2 * (m l c).getD 0 / ((c + (i + 1) + 1 : Nat) : K)
        = expectedF1 vectors p h := fun h hh hc => expectedF1_card hnd (by omega) (getMaxLabelCardinality_ge _) g4 hh hc
    have hw : w.1 = expectedF1 vectors p (selected (w.2.take (i + 1))) := by rw [w3, t3, hE _ t2 t1]
    have hopt : ∀ h ⊆ range n, h.card = i + 1 → expectedF1 vectors p h ≤ w.1 := by
      intro h hh hc
      rw [hw, ← hE h hh hc, ← hE _ t2 t1]
      exact t5 h hh hc
    simp only
    rw [w1, ok_bind]
    refine ⟨_, rfl, ?_⟩
    split_ifs with hgt
    · refine ⟨b2, w2, show i + 1 ≤ n by omega, t4, t2, hw, fun h hh hc => ?_⟩
      rcases Nat.lt_or_ge h.card (i + 1) with h' | h'
      · exact le_trans (b7 h hh (by omega)) (le_of_lt hgt)
      · exact hopt h hh (by omega)
    · refine ⟨w2, b2, b3, b4, b5, b6, fun h hh hc => ?_⟩
      rcases Nat.lt_or_ge h.card (i + 1) with h' | h'
      · exact b7 h hh (by omega)
      · exact le_trans (hopt h hh (by omega)) (not_lt.1 hgt))
  rw [k1, ok_bind]
  refine ⟨_, rfl, k5, k6, fun h hh => ?_⟩
  rw [← k7]
  have := card_le_card hh
  rw [card_range] at this
  exact k8 h hh this

/-- The specification of `std::sort` by increasing index. -/
structure IndexSort (sort : List (Nat × K) → List (Nat × K)) : Prop where
  perm : ∀ l, (sort l).Perm l
  sorted : ∀ l, (sort l).Pairwise (fun a b => a.1 ≤ b.1)

omit [LinearOrder K] [IsStrictOrderedRing K] [Field K] in
theorem storeDense_ok {best : List (Nat × K)} {n : Nat} (hlt : selected best ⊆ range n) (prediction : List Nat) (hp : prediction.length = n) :
    storeDense best prediction = .ok (row n (fun c => if c ∈ selected best then 1 else 0)) := by
  unfold storeDense
  obtain ⟨r, h1, h2, h3⟩ := loop_rule (body := fun i prediction => do
      let e ← readAt best i
      writeAt prediction e.1 1)
    (fun i r => r.length = n ∧ ∀ c : Nat, r[c]? = if c < n then some (if c ∈ (best.map Prod.fst).take i then 1 else 0) else none) best.length
    (List.replicate prediction.length 0) ⟨by simpa using hp, fun c => by simp [List.getElem?_replicate, hp]⟩ (by
    rintro i r hi ⟨g1, g2⟩
    have hlt' : best[i].1 < n := mem_range.1 (hlt (List.mem_toFinset.2 (List.mem_map.2 ⟨_, List.getElem_mem hi, rfl⟩)))
    have hx : (best.map Prod.fst)[i]? = some best[i].1 := by simp [hi]
    rw [readAt_of_lt hi, ok_bind, writeAt_of_lt (by omega)]
    refine ⟨_, rfl, by simpa using g1, fun c => ?_⟩
    rw [List.getElem?_set]
    have hmem := LossUpdate.mem_take_succ hx c
    by_cases e : best[i].1 = c
    · subst e
      rw [if_pos rfl, if_pos (by omega), if_pos hlt', if_pos (hmem.2 (Or.inr rfl))]
    · rw [if_neg e, g2 c]
      by_cases hc : c ∈ (best.map Prod.fst).take i
      · simp only [hc, hmem.2 (Or.inl hc)]
      · have : c ∉ (best.map Prod.fst).take (i + 1) := fun h => (hmem.1 h).elim hc (fun h => e h.symm)
        simp only [hc, this])
  rw [h1]
  refine congrArg Except.ok (LossUpdate.row_ext (st := []) h2 (fun c => ?_))
  rw [h3]
  have : best.length = (best.map Prod.fst).length := by simp
  rw [this, List.take_length]
  simp only [selected, List.mem_toFinset, List.getElem?_nil]

omit [LinearOrder K] [IsStrictOrderedRing K] [Field K] in
theorem storeSparse_ok {sort : List (Nat × K) → List (Nat × K)} (hs : IndexSort sort) {best : List (Nat × K)} (hnd : (best.map Prod.fst).Nodup) :
    ∃ v, storeSparse sort best [] = .ok v ∧ v.Pairwise (· < ·) ∧ ∀ c, c ∈ v ↔ c ∈ selected best := by
  refine ⟨(sort best).map Prod.fst, ?_, ?_, fun c => ?_⟩
  · unfold storeSparse
    split_ifs with h
    · have hl : best.length = ((sort best).map Prod.fst).length := by rw [List.length_map, (hs.perm best).length_eq]
      obtain ⟨r, h1, h2⟩ := loop_rule (body := fun i (row : List Nat) => do
          let e ← readAt (sort best) i
          return row ++ [e.1])
        (fun i r => r = ((sort best).map Prod.fst).take i) best.length [] (by simp) (by
        rintro i r hi rfl
        have hi' : i < (sort best).length := by rw [(hs.perm best).length_eq]; exact hi
        rw [readAt_of_lt hi', ok_bind]
        refine ⟨_, rfl, ?_⟩
        rw [take_succ_eq (l := (sort best).map Prod.fst) (x := (sort best)[i].1) (by simp [hi'])])
      show loop _ _ _ = _
      rw [h1, h2, hl, List.take_length]
    · have : best = [] := List.length_eq_zero_iff.1 (by omega)
      subst this
      have : sort [] = [] := List.Perm.eq_nil (hs.perm [])
      rw [this]
      rfl
  · have h1 : ((sort best).map Prod.fst).Nodup := ((hs.perm best).map Prod.fst).nodup_iff.2 hnd
    have h2 : ((sort best).map Prod.fst).Pairwise (· ≤ ·) := List.pairwise_map.2 (hs.sorted best)
    exact (List.pairwise_and_iff.2 ⟨h2, h1⟩).imp (fun h => lt_of_le_of_ne h.1 h.2)
  · unfold selected
    rw [List.mem_toFinset, ((hs.perm best).map Prod.fst).mem_iff]

/-- **C36**: the labels that are predicted maximise the expected F1-measure among all sets of labels; the dense and the sparse implementation predict
the same labels. -/
theorem gfm_optimal {partialSort : Nat → List (Nat × K) → List (Nat × K)} (hps : PartialSort partialSort)
    {sort : List (Nat × K) → List (Nat × K)} (hs : IndexSort sort) {n : Nat} {vectors : List (List Nat)}
    (hM : n ≤ SparseSet.maxIndex) (hnd : ∀ v ∈ vectors, v.Nodup) (hlt : ∀ v ∈ vectors, ∀ c ∈ v, c < n) (hdis : vectors.Nodup)
    {joint : List K} {p : Nat → K} (hj : ∀ i < vectors.length, joint[i]? = some (p i)) {vector1 vector2 : List (Nat × K)}
    (h1 : vector1.length = n) (h2 : vector2.length = n) (prediction : List Nat) (hp : prediction.length = n) :
    ∃ best v, best ⊆ range n ∧ (∀ h ⊆ range n, expectedF1 vectors p h ≤ expectedF1 vectors p best) ∧
      applyDense partialSort vector1 vector2 n vectors joint prediction = .ok (row n (fun c => if c ∈ best then 1 else 0)) ∧
      applySparse partialSort sort vector1 vector2 n vectors joint [] = .ok v ∧ v.Pairwise (· < ·) ∧ ∀ c, c ∈ v ↔ c ∈ best := by
  obtain ⟨best, g1, g2, g3, g4⟩ := maximize_optimal hps hM hnd hlt hdis hj h1 h2
  obtain ⟨v, v1, v2, v3⟩ := storeSparse_ok hs g2
  refine ⟨selected best, v, g3, g4, ?_, ?_, v2, v3⟩
  · unfold applyDense
    rw [g1, ok_bind, storeDense_ok g3 prediction hp]
  · unfold applySparse
    rw [g1, ok_bind, v1]

/-- An algorithm that meets the specification of `std::partial_sort`: all elements are sorted. -/
theorem partialSort_exists : PartialSort (fun _ (l : List (Nat × K)) => l.insertionSort (fun a b => b.2 ≤ a.2)) := by
  have htot : Std.Total (fun a b : Nat × K => b.2 ≤ a.2) := ⟨fun a b => le_total _ _⟩
  have htr : IsTrans (Nat × K) (fun a b => b.2 ≤ a.2) := ⟨fun a b c h1 h2 => le_trans h2 h1⟩
  have hsorted : ∀ l : List (Nat × K), (l.insertionSort (fun a b => b.2 ≤ a.2)).Pairwise (fun a b => b.2 ≤ a.2) :=
    fun l => List.pairwise_insertionSort _ l
  refine ⟨fun _ l => List.perm_insertionSort _ l, fun k l => (hsorted l).sublist (List.take_sublist _ _), fun k l a ha b hb => ?_⟩
  have := hsorted l
  rw [← List.take_append_drop k (l.insertionSort _), List.pairwise_append] at this
  exact this.2.2 a ha b hb

/-- Three labels and four known label vectors, including the empty one. The most probable label vector is the empty one, but the prediction with the
largest expected F1-measure (7/12) consists of the labels `0` and `1`. -/
example : applyDense (fun _ (l : List (Nat × ℚ)) => l.insertionSort (fun a b => b.2 ≤ a.2)) [(0, 0), (0, 0), (0, 0)] [(0, 0), (0, 0), (0, 0)] 3
    [[], [0, 1], [0, 1, 2], [0]] [3 / 10, 25 / 100, 25 / 100, 2 / 10] [9, 9, 9] = .ok [1, 1, 0] := by decide +kernel

end MLRL.Gfm
