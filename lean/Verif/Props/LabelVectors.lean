import Verif.Lemma.LabelVectors
import Verif.Props.LossUpdate

/-!
# C37, C38, C39: label vectors and predictions that are based on known label vectors
-/

namespace MLRL.LabelVectors

open Iterators RuleEval Finset
open Loss (row)

variable {K : Type}

/-! ### C38: the set of known label vectors -/

/-- The specification of a set of label vectors: no label vector is listed twice, exactly the label vectors of the training examples are listed, and
each one is listed with its number of occurrences. -/
structure SetOf (rows : List (List Nat)) (set : LabelVectorSet) : Prop where
  nodup : set.vectors.Nodup
  mem : ∀ v, v ∈ set.vectors ↔ v ∈ rows
  length : set.frequencies.length = set.vectors.length
  frequency : ∀ (i : Nat) v, set.vectors[i]? = some v → set.frequencies[i]? = some (rows.count v)

theorem sum_count (vectors rows : List (List Nat)) (hnd : vectors.Nodup) (hmem : ∀ v ∈ rows, v ∈ vectors) :
    (vectors.map (fun v => rows.count v)).sum = rows.length := by
  induction rows with
  | nil => simp
  | cons r rows ih =>
    have h1 := ih (fun v hv => hmem v (List.mem_cons_of_mem _ hv))
    have h2 : (vectors.map (fun v => (r :: rows).count v)) = vectors.map (fun v => rows.count v + if v = r then 1 else 0) := by
      refine List.map_congr_left (fun v _ => ?_)
      rw [List.count_cons]
      by_cases e : v = r
      · simp [e]
      · have : r ≠ v := fun h => e h.symm
        simp [e, this]
    rw [h2, List.sum_map_add, h1, List.length_cons]
    congr 1
    have hr := hmem r List.mem_cons_self
    have : (vectors.map (fun v => if v = r then 1 else 0)).sum = vectors.count r := by
      clear h1 h2 ih hmem hr hnd
      induction vectors with
      | nil => rfl
      | cons v vectors ih =>
        rw [List.map_cons, List.sum_cons, ih, List.count_cons, Nat.add_comm]
        by_cases e : v = r <;> simp [e]
    rw [this, List.count_eq_one_of_mem hnd hr]

/-- **C38**: the set of label vectors lists every distinct label vector once, together with its frequency, whatever the hash values are. The
frequencies sum up to the number of examples. -/
theorem labelVectorSet_spec {H : Type} [DecidableEq H] (hash : List Nat → H) (rows : List (List Nat)) :
    ∃ set, createLabelVectorSet hash rows = .ok set ∧ SetOf rows set ∧ set.frequencies.sum = rows.length := by
  obtain ⟨s, h1, h2⟩ := createLabelVectorSet_ok hash rows
  refine ⟨s.2, h1, ⟨h2.nodup, h2.mem, by rw [h2.frequencies]; simp, fun i v hv => ?_⟩, ?_⟩
  · rw [h2.frequencies, List.getElem?_map, hv]
    rfl
  · rw [h2.frequencies]
    exact sum_count _ _ h2.nodup (fun v hv => (h2.mem v).2 hv)

/-- **C38**: the label vector of a row consists of the indices of relevant labels in increasing order, and is the same for dense and sparse label
matrices; two rows have the same label vector if and only if the same labels are relevant. -/
theorem labelVector_dense_eq_sparse (n : Nat) (y : Nat → Bool) (array : List Nat) (ha : array.length = n) :
    ∃ v, createLabelVectorDense (row n y) array = .ok v ∧ v.Pairwise (· < ·) ∧ (∀ c, c ∈ v ↔ c < n ∧ y c = true) ∧
      ∀ indices : List Nat, indices.Pairwise (· < ·) → (∀ c, c ∈ indices ↔ c < n ∧ y c = true) → createLabelVectorCsr indices = v := by
  have hl : (row n y).length = n := by simp [row]
  refine ⟨_, createLabelVectorDense_ok _ _ (by omega), ?_, ?_, ?_⟩
  · exact List.pairwise_lt_range.sublist List.filter_sublist
  · intro c
    simp only [List.mem_filter, List.mem_range, hl, decide_eq_true_eq]
    refine and_congr_right (fun hc => ?_)
    rw [LossUpdate.row_getElem? hc]
    simp
  · intro indices hs hm
    unfold createLabelVectorCsr
    refine LossUpdate.sorted_ext hs (List.pairwise_lt_range.sublist List.filter_sublist) (fun c => ?_)
    rw [hm]
    simp only [List.mem_filter, List.mem_range, hl, decide_eq_true_eq]
    refine (and_congr_right (fun hc => ?_))
    rw [LossUpdate.row_getElem? hc]
    simp

/-- Four examples, two of which have the same labels; all hash values collide. -/
example : createLabelVectorSet (fun _ => 0) [[0, 2], [], [0, 2], [1]] =
    .ok ⟨[[0, 2], [], [1]], [2, 1, 1]⟩ ∧ createLabelVectorSet hashView [[0, 2], [], [0, 2], [1]] = .ok ⟨[[0, 2], [], [1]], [2, 1, 1]⟩ :=
  ⟨rfl, rfl⟩

/-! ### C37: example-wise predictions -/

/-- **C37**: the prediction is a known label vector with minimal distance to the scores. If there are several of them, the one that occurs most
often is chosen, and among these the one that occurs first. The predictions of the dense and the sparse implementation agree. -/
theorem exampleWise_closest [LinearOrder K] {set : LabelVectorSet} {distance : Nat → List Nat → Res K} {d : Nat → K}
    (hne : set.vectors ≠ []) (hlen : set.frequencies.length = set.vectors.length)
    (hd : ∀ i v, set.vectors[i]? = some v → distance i v = .ok (d i)) :
    ∃ b v f, set.vectors[b]? = some v ∧ set.frequencies[b]? = some f ∧
      (∀ j w g, set.vectors[j]? = some w → set.frequencies[j]? = some g →
        d b ≤ d j ∧ (d j = d b → g ≤ f ∧ (g = f → b ≤ j))) ∧
      exampleWiseSparse set distance [] = .ok v ∧
      (v.Pairwise (· < ·) → ∀ prediction : List Nat, exampleWiseDense set distance prediction =
        .ok (row prediction.length (fun c => if c ∈ v then 1 else 0))) := by
  have hm : 0 < set.vectors.length := List.length_pos_iff.2 hne
  obtain ⟨b, hb, h1, h2⟩ := getClosest_ok (set := set) (v := fun i => (set.vectors[i]?).getD []) (f := fun i => (set.frequencies[i]?).getD 0)
    (distance := distance) (d := d) hm rfl (fun i hi => by simp [hi]) (fun i hi => by simp [hlen, hi])
    (fun i hi => by
      have := List.getElem?_eq_getElem hi
      simp only [this, Option.getD_some]
      exact hd i _ this)
  have hv := List.getElem?_eq_getElem hb
  have hf := List.getElem?_eq_getElem (show b < set.frequencies.length by omega)
  simp only [hv, Option.getD_some] at h1
  refine ⟨b, _, _, hv, hf, ?_, ?_, ?_⟩
  · intro j w g hw hg
    have hj := (List.getElem?_eq_some_iff.1 hw).1
    have := h2 j hj
    unfold Preferred at this
    simp only [hf, hg, Option.getD_some] at this
    rcases this with h | ⟨h, h'⟩
    · exact ⟨le_of_lt h, fun e => absurd e (ne_of_gt h)⟩
    · exact ⟨le_of_eq h, fun _ => ⟨by omega, fun e => by omega⟩⟩
  · unfold exampleWiseSparse
    rw [h1, ok_bind, appendAll_ok]
    rfl
  · intro hs prediction
    unfold exampleWiseDense
    rw [h1, ok_bind]
    obtain ⟨r, k1, k2⟩ := writeIndicator_ok hs prediction
    rw [k1, ok_bind, k2]
    rfl

/-- If no label vectors are known, the first element of an empty array is accessed. -/
theorem exampleWise_empty [LinearOrder K] (distance : Nat → List Nat → Res K) :
    exampleWiseSparse ⟨[], []⟩ distance [] = .error .outOfBounds := rfl

/-- The hypotheses of the theorem are met by all sets of label vectors that result from at least one training example. -/
theorem exampleWise_reachable {H : Type} [DecidableEq H] (hash : List Nat → H) {rows : List (List Nat)} (hr : rows ≠ []) {set : LabelVectorSet}
    (h : createLabelVectorSet hash rows = .ok set) : set.vectors ≠ [] ∧ set.frequencies.length = set.vectors.length := by
  obtain ⟨set', h1, h2, -⟩ := labelVectorSet_spec hash rows
  rw [h] at h1
  cases h1
  refine ⟨fun e => hr (List.eq_nil_iff_forall_not_mem.2 (fun v hv => ?_)), h2.length⟩
  have := (h2.mem v).2 hv
  rw [e] at this
  cases this

/-- Three label vectors, two of which have minimal distance; the more frequent one is chosen. -/
example : exampleWiseDense ⟨[[0], [1], [1, 2]], [1, 1, 4]⟩ (fun _ v => LossUpdate.measureDistance LossUpdate.hingeEvaluate v [1 / 2, 1, 1 / 2])
    [9, 9, 9] = .ok [0, 1, 1] := by decide +kernel

/-- **C37**, distances based on a decomposable loss: the predicted label vector has the smallest mean loss. -/
theorem exampleWise_loss [Field K] [CharZero K] [LinearOrder K] {set : LabelVectorSet} (evaluate : Bool → K → K) (n : Nat) (s : Nat → K)
    (hne : set.vectors ≠ []) (hlen : set.frequencies.length = set.vectors.length) (hs : ∀ v ∈ set.vectors, v.Pairwise (· < ·)) :
    ∃ v ∈ set.vectors, exampleWiseSparse set (fun _ v => LossUpdate.measureDistance evaluate v (row n s)) [] = .ok v ∧
      ∀ w ∈ set.vectors, (∑ c ∈ range n, evaluate (decide (c ∈ v)) (s c)) / (n : K) ≤ (∑ c ∈ range n, evaluate (decide (c ∈ w)) (s c)) / (n : K) := by
  obtain ⟨b, v, f, h1, h2, h3, h4, -⟩ := exampleWise_closest (set := set) (distance := fun _ v => LossUpdate.measureDistance evaluate v (row n s))
    (d := fun i => (∑ c ∈ range n, evaluate (decide (c ∈ (set.vectors[i]?).getD [])) (s c)) / (n : K)) hne hlen (fun i v hv => by
      simp only [hv, Option.getD_some]
      exact ((LossUpdate.evaluate_mean (T := Bool) n s).2.2 evaluate v (hs v (List.mem_of_getElem? hv))).2)
  refine ⟨v, List.mem_of_getElem? h1, h4, fun w hw => ?_⟩
  obtain ⟨j, hj⟩ := List.mem_iff_getElem?.1 hw
  have hlt := (List.getElem?_eq_some_iff.1 hj).1
  have := (h3 j w _ hj (List.getElem?_eq_getElem (by omega))).1
  simpa only [hj, h1, Option.getD_some] using this

/-! ### Output-wise predictions -/

/-- **C37**, output-wise predictions: the dense and the sparse implementation predict the same labels. -/
theorem outputWise_dense_eq_sparse (discretize : Nat → K → Bool) (n : Nat) (s : Nat → K) (prediction : List Nat) (hp : prediction.length = n) :
    outputWiseDense discretize (row n s) prediction = .ok (row n (fun c => if discretize c (s c) then 1 else 0)) ∧
      outputWiseSparse discretize (row n s) [] = .ok ((List.range n).filter (fun c => discretize c (s c))) := by
  have hl : (row n s).length = n := by simp [row]
  constructor
  · unfold outputWiseDense
    rw [hl]
    obtain ⟨r, h1, h2, h3⟩ := loop_rule (body := fun i prediction => do
        let score ← readAt (row n s) i
        writeAt prediction i (if discretize i score then 1 else 0))
      (fun i r => r.length = n ∧ ∀ c : Nat, r[c]? = if c < i then some (if discretize c (s c) then 1 else 0) else prediction[c]?) n prediction
      ⟨hp, by simp⟩ (by
      rintro i r hi ⟨g1, g2⟩
      rw [readAt_of_getElem? (LossUpdate.row_getElem? hi), ok_bind, writeAt_of_lt (by omega)]
      refine ⟨_, rfl, by simpa using g1, fun c => ?_⟩
      rw [List.getElem?_set]
      by_cases e : i = c
      · subst e
        rw [if_pos rfl, if_pos (by omega), if_pos (Nat.lt_succ_self i)]
      · rw [if_neg e, g2]
        by_cases hc : c < i
        · rw [if_pos hc, if_pos (Nat.lt_succ_of_lt hc)]
        · rw [if_neg hc, if_neg (show ¬ c < i + 1 by omega)])
    rw [h1, LossUpdate.row_ext h2 h3]
  · unfold outputWiseSparse
    rw [hl]
    obtain ⟨r, h1, h2⟩ := loop_rule (body := fun i (r : List Nat) => do
        let score ← readAt (row n s) i
        return if discretize i score then r ++ [i] else r)
      (fun i r => r = (List.range i).filter (fun c => discretize c (s c))) n [] (by simp) (by
      rintro i r hi rfl
      rw [readAt_of_getElem? (LossUpdate.row_getElem? hi), ok_bind]
      exact ⟨_, rfl, (filter_range_succ i (fun c => discretize c (s c))).symm⟩)
    rw [h1, h2]

/-! ### C39: joint and marginalised probabilities -/

/-- The probability of a label vector, if labels are independent and `q c` is the probability of label `c`. -/
def independent [Field K] (n : Nat) (q : Nat → K) (v : Nat → Prop) [DecidablePred v] : K := ∏ c ∈ range n, if v c then q c else 1 - q c

/-- **C39**, joint probabilities before calibration: products of the probabilities of the individual labels, for dense and sparse scores. -/
theorem joint_eq [Field K] (marginal : Nat → K → K) (calibrate : Nat → K → K) (n : Nat) {labels : List Nat} (hl : labels.Pairwise (· < ·)) (i : Nat) :
    (∀ s : Nat → K, jointProbability marginal calibrate (row n s) i labels =
      .ok (calibrate i (independent n (fun c => marginal c (s c)) (fun c => c ∈ labels)))) ∧
    ∀ (S : SparseSet K) (m : Nat → Option K), SparseSet.Rep n S m → n ≤ SparseSet.maxIndex →
      jointProbabilitySparse marginal calibrate S n i labels =
        .ok (calibrate i (independent n (fun c => marginal c ((m c).getD 0)) (fun c => c ∈ labels))) := by
  constructor
  · intro s
    unfold jointProbability
    rw [chainRule_ok marginal hl (s := s) (fun i hi => readAt_of_getElem? (LossUpdate.row_getElem? (by simpa [row] using hi)))]
    simp [row, independent, ok_bind, pure_eq_ok]
  · intro S m hS hn
    unfold jointProbabilitySparse
    rw [chainRule_ok marginal hl (s := fun c => (m c).getD 0) (fun i hi => by
      rw [hS.get hn hi, ok_bind]
      cases m i <;> rfl)]
    rfl

/-- **C39**: the joint probabilities lie in [0,1] and sum up to one over all possible label vectors. -/
theorem independent_distribution [Field K] [LinearOrder K] [IsStrictOrderedRing K] (n : Nat) (q : Nat → K) (hq : ∀ c < n, 0 ≤ q c ∧ q c ≤ 1) :
    (∀ (v : Nat → Prop) [DecidablePred v], 0 ≤ independent n q v ∧ independent n q v ≤ 1) ∧
      ∑ v ∈ (range n).powerset, independent n q (fun c => c ∈ v) = 1 := by
  constructor
  · intro v _
    constructor
    · refine prod_nonneg (fun c hc => ?_)
      have := hq c (mem_range.1 hc)
      split_ifs <;> linarith
    · refine prod_le_one (fun c hc => ?_) (fun c hc => ?_)
      · have := hq c (mem_range.1 hc)
        split_ifs <;> linarith
      · have := hq c (mem_range.1 hc)
        split_ifs <;> linarith
  · have h : ∏ c ∈ range n, (q c + (1 - q c)) = 1 := prod_eq_one (fun c _ => by ring)
    rw [prod_add] at h
    rw [← h]
    refine sum_congr rfl (fun v hv => ?_)
    have hv' := mem_powerset.1 hv
    unfold independent
    rw [prod_ite, filter_mem_eq_inter, inter_eq_right.2 hv']
    congr 1
    refine prod_congr ?_ (fun _ _ => rfl)
    ext c
    simp

/-- The sum of the probabilities of the known label vectors that contain label `c`, divided by the sum of the probabilities of all known label
vectors. -/
def marginalProbability [Field K] (vectors : List (List Nat)) (p : Nat → K) (c : Nat) : K :=
  (∑ i ∈ (range vectors.length).filter (fun i => c ∈ (vectors[i]?).getD []), p i) / ∑ i ∈ range vectors.length, p i

/-- **C39**: marginalised probabilities are the marginals of the normalised joint probabilities. They lie in [0,1] and are zero if no known label
vector contains the label. -/
theorem marginalized_spec [Field K] [LinearOrder K] [IsStrictOrderedRing K] {joint : Nat → List Nat → Res K} {vectors : List (List Nat)} {p : Nat → K}
    {array probabilities : List K} {n : Nat} (hn : probabilities.length = n) (ha : array.length = vectors.length)
    (hp : ∀ i v, vectors[i]? = some v → joint i v = .ok (p i)) (hnd : ∀ v ∈ vectors, v.Nodup) (hlt : ∀ v ∈ vectors, ∀ c ∈ v, c < n) :
    marginalizedProbabilities joint vectors array probabilities = .ok (row n (marginalProbability vectors p)) ∧
      (∀ c, (∀ v ∈ vectors, c ∉ v) → marginalProbability vectors p c = 0) ∧
      ((∀ i < vectors.length, 0 ≤ p i) → ∀ c, 0 ≤ marginalProbability vectors p c ∧ marginalProbability vectors p c ≤ 1) := by
  subst hn
  refine ⟨?_, fun c hc => ?_, fun hpos c => ?_⟩
  · unfold marginalizedProbabilities
    rw [jointProbabilities_ok ha hp, ok_bind,
      marginalize_ok hnd hlt (p := fun i => divideOrZero (p i) (∑ j ∈ range vectors.length, p j)) (fun i hi => LossUpdate.row_getElem? hi)]
    refine congrArg Except.ok ?_
    unfold row
    refine List.map_congr_left (fun c _ => ?_)
    unfold marginalProbability
    rw [sum_filter, sum_div]
    refine sum_congr rfl (fun i hi => ?_)
    have hi' := List.getElem?_eq_getElem (mem_range.1 hi)
    have hdiv : divideOrZero (p i) (∑ j ∈ range vectors.length, p j) = p i / ∑ j ∈ range vectors.length, p j := by
      unfold divideOrZero
      split_ifs with h
      · rw [h, div_zero]
      · rfl
    simp only [hi', Option.some.injEq, exists_eq_left', Option.getD_some, hdiv]
    split_ifs <;> simp
  · unfold marginalProbability
    rw [filter_false_of_mem, sum_empty, zero_div]
    intro i hi
    rw [List.getElem?_eq_getElem (mem_range.1 hi)]
    exact hc _ (List.getElem_mem _)
  · unfold marginalProbability
    have h1 : 0 ≤ ∑ i ∈ (range vectors.length).filter (fun i => c ∈ (vectors[i]?).getD []), p i :=
      sum_nonneg (fun i hi => hpos i (mem_range.1 (mem_filter.1 hi).1))
    have h2 : ∑ i ∈ (range vectors.length).filter (fun i => c ∈ (vectors[i]?).getD []), p i ≤ ∑ i ∈ range vectors.length, p i :=
      sum_le_sum_of_subset_of_nonneg (filter_subset _ _) (fun i hi _ => hpos i (mem_range.1 hi))
    exact ⟨div_nonneg h1 (le_trans h1 h2), div_le_one_of_le₀ h2 (le_trans h1 h2)⟩

/-- Three known label vectors; the label `3` is not contained in any of them. -/
example : marginalizedProbabilities (fun i _ => .ok ([1, 2, 5][i]?.getD 0 : ℚ)) [[0, 1], [], [1, 2]] [9, 9, 9] [9, 9, 9, 9] =
    .ok [1 / 8, 6 / 8, 5 / 8, 0] := by decide +kernel

end MLRL.LabelVectors
