import Verif.Lemma.Confusion
import Verif.Props.StatisticVector
import Mathlib.Algebra.BigOperators.Group.Finset.Basic

/-!
# C49: confusion matrices
-/

namespace MLRL.Seco

open Statistics

variable {K : Type} [CommRing K] [DecidableEq K]

/-- A label matrix, in either format, with `n` rows and `c` columns. The indices of relevant labels are sorted, if the format is sparse. -/
inductive IsLabels (n c : Nat) (label : Nat → Nat → Bool) : LabelMatrix → Prop where
  | dense (array : List Bool) (length : array.length = n * c) (get : ∀ i < n, ∀ j < c, array[i * c + j]? = some (label i j)) :
    IsLabels n c label (.dense array)
  | csr (rows : List (List Nat)) (length : rows.length = n) (sorted : ∀ row ∈ rows, row.Pairwise (· < ·))
    (mem : ∀ (i : Nat) row, rows[i]? = some row → ∀ j, j ∈ row ↔ j < c ∧ label i j = true) : IsLabels n c label (.csr rows)

/-- The content of a coverage matrix. -/
def IsCoverage (n c : Nat) (cov : Nat → Nat → Nat) (coverage : List Nat) : Prop :=
  coverage.length = n * c ∧ ∀ i < n, ∀ j < c, coverage[i * c + j]? = some (cov i j)

/-- There is a weight for each example. -/
def WeightsOk (n : Nat) : Weights K → Prop
  | .equal k => k = n
  | .vector l => l.length = n

theorem row_le {n c i : Nat} (hi : i < n) : i * c + c ≤ n * c := by
  have := Nat.mul_le_mul_right c (show i + 1 ≤ n from hi)
  rwa [Nat.add_mul, Nat.one_mul] at this

theorem seCoData_valid {n c : Nat} {label : Nat → Nat → Bool} {labels : LabelMatrix} (hl : IsLabels n c label labels) {cov : Nat → Nat → Nat}
    {coverage : List Nat} (hc : IsCoverage n c cov coverage) {weights : Weights K} (hw : WeightsOk n weights) :
    (seCoData labels n c coverage weights).Valid n (Row.Valid c) := by
  refine ⟨by simp [seCoData], fun l e => ?_, fun r hr => ?_⟩
  · have e : weights = .vector l := e
    subst e
    exact Nat.le_of_eq hw.symm
  · obtain ⟨i, hi, rfl⟩ := List.mem_map.1 hr
    have hi := List.mem_range.1 hi
    refine ⟨by rw [hc.1]; exact row_le hi, fun array offset e => ?_, fun indices e => ?_⟩
    · cases hl with
      | dense array' length get =>
        simp only [LabelMatrix.row] at e
        cases e
        rw [length]
        exact row_le hi
      | csr rows length sorted mem => cases e
    · cases hl with
      | dense array' length get => cases e
      | csr rows length sorted mem =>
        simp only [LabelMatrix.row] at e
        cases e
        rw [List.getElem?_eq_getElem (by omega)]
        exact sorted _ (List.getElem_mem _)

theorem seCoData_stat {n c : Nat} {label : Nat → Nat → Bool} {labels : LabelMatrix} (hl : IsLabels n c label labels) {cov : Nat → Nat → Nat}
    {coverage : List Nat} (hc : IsCoverage n c cov coverage) (weights : Weights K) (majority : List Nat) {e j : Nat} (he : e < n) (hj : j < c) :
    stat (Row.value majority c) (seCoData labels n c coverage weights) e j =
      if cov e j = 0 then weightAt weights e • (unitConfusion (label e j) (decide (j ∈ majority)) : Confusion K) else 0 := by
  have hrow : (seCoData labels n c coverage weights).rows[e]? = some { labels := labels.row c e, coverage := coverage, offset := e * c } := by
    simp [seCoData, he]
  have hval : (Row.value majority c { labels := labels.row c e, coverage := coverage, offset := e * c } : ConfusionMatrices K) j =
      if cov e j = 0 then unitConfusion (label e j) (decide (j ∈ majority)) else 0 := by
    rw [rowValue_of_lt _ hj]
    have h1 : Row.isUncovered { labels := labels.row c e, coverage := coverage, offset := e * c } j = decide (cov e j = 0) := by
      simp only [Row.isUncovered]
      rw [hc.2 e he j hj]
      simp
    have h2 : (labels.row c e).isRelevant j = label e j := by
      cases hl with
      | dense array length get =>
        simp only [LabelMatrix.row, LabelRow.isRelevant]
        rw [get e he j hj]
        cases label e j <;> simp
      | csr rows length sorted mem =>
        simp only [LabelMatrix.row, LabelRow.isRelevant]
        have hr : rows[e]? = some (rows[e]'(by omega)) := List.getElem?_eq_getElem _
        rw [hr]
        have := mem e _ hr j
        cases hlab : label e j
        · simp [Option.getD_some, this, hlab]
        · simp [Option.getD_some, this, hlab, hj]
    rw [h1, h2]
    simp
  unfold stat weightAt
  rw [hrow]
  cases weights with
  | equal k =>
    simp only [seCoData]
    rw [hval, one_smul]
  | vector l =>
    simp only [seCoData, Pi.smul_apply]
    rw [hval]
    split
    · rfl
    · exact smul_zero _

/-- Part of **C49**: for any history of operations on a subset of the statistics, no invalid memory is accessed, sums of confusion matrices are
correct, and the confusion matrices of covered and uncovered examples add up to those of all examples that are not excluded. (`SubsetSound` is
the statement that is also proved for the statistics of the boosting algorithm, see C30.) -/
theorem confusion_subset_sound {majority : List Nat} (hm : majority.Pairwise (· < ·)) (n : Nat) :
    SubsetSound (K := K) (confusionOps majority) n (fun k v => v.length = k) (Row.Valid n) (IndicesOk n)
      (fun v => (element v : ConfusionMatrices K)) (Row.value majority n) selectConfusion :=
  subset_sound_of_laws (confusionLaws hm n)

theorem sum_apply {A : Type} [AddCommMonoid A] (l : List (Nat → A)) (i : Nat) : l.sum i = (l.map (fun f => f i)).sum := by
  induction l with
  | nil => rfl
  | cons f l ih => rw [List.sum_cons, Pi.add_apply, ih, List.map_cons, List.sum_cons]

theorem map_sum {A B : Type} [AddCommMonoid A] [AddCommMonoid B] (f : A → B) (h0 : f 0 = 0) (ha : ∀ a b, f (a + b) = f a + f b) (l : List A) :
    f l.sum = (l.map f).sum := by
  induction l with
  | nil => exact h0
  | cons a l ih => rw [List.sum_cons, ha, ih, List.map_cons, List.sum_cons]

theorem sinceReset_subset (ops : List SubsetOp) : ∀ e ∈ sinceReset ops, e ∈ opExamples ops := by
  induction ops with
  | nil => simp [sinceReset]
  | cons op l ih =>
    intro e he
    cases op with
    | add x =>
      simp only [sinceReset] at he
      simp only [opExamples, List.mem_cons]
      split at he
      · exact Or.inr (ih e he)
      · rcases List.mem_cons.1 he with h | h
        · exact Or.inl h
        · exact Or.inr (ih e h)
    | reset => exact ih e he

/-- **C49**: the elements of the confusion matrix of a label, after some examples have been added to a subset, are the weights of those examples
whose label has not been covered and that are (ir-)relevant, depending on the label's majority value. Together, they add up to the weight of the
examples whose label has not been covered. The confusion matrices of the covered and uncovered examples add up to those of all examples. -/
theorem confusion_entries {n c : Nat} {label : Nat → Nat → Bool} {labels : LabelMatrix} (hl : IsLabels n c label labels)
    {cov : Nat → Nat → Nat} {coverage : List Nat} (hc : IsCoverage n c cov coverage) {weights : Weights K} (hw : WeightsOk n weights)
    {majority : List Nat} (hm : majority.Pairwise (· < ·)) {idx : IndexVec} (hidx : IndicesOk c idx) (excluded : List Nat)
    (hex : ∀ e ∈ excluded, e < n) (ops : List SubsetOp) (hops : ∀ e ∈ opExamples ops, e < n) :
    ∃ total s0 s uncovered, totalSum (confusionOps majority) (seCoData labels n c coverage weights) = .ok total ∧
      SubsetState.create (confusionOps majority) (seCoData labels n c coverage weights) total excluded idx = .ok s0 ∧
      SubsetState.run (confusionOps majority) (seCoData labels n c coverage weights) idx ops s0 = .ok s ∧
      s.uncovered (confusionOps majority) idx = .ok uncovered ∧ s.sum.length = idx.size ∧ uncovered.length = idx.size ∧ total.length = c ∧
      (∀ k < idx.size, ∀ j, j = idx.index k →
        (element s.sum k).irrelevantNegative =
          ((sinceReset ops).map (fun e => if cov e j = 0 ∧ label e j = false ∧ j ∈ majority then weightAt weights e else 0)).sum ∧
        (element s.sum k).irrelevantPositive =
          ((sinceReset ops).map (fun e => if cov e j = 0 ∧ label e j = false ∧ j ∉ majority then weightAt weights e else 0)).sum ∧
        (element s.sum k).relevantNegative =
          ((sinceReset ops).map (fun e => if cov e j = 0 ∧ label e j = true ∧ j ∈ majority then weightAt weights e else 0)).sum ∧
        (element s.sum k).relevantPositive =
          ((sinceReset ops).map (fun e => if cov e j = 0 ∧ label e j = true ∧ j ∉ majority then weightAt weights e else 0)).sum ∧
        (element s.sum k).total = ((sinceReset ops).map (fun e => if cov e j = 0 then weightAt weights e else 0)).sum ∧
        element s.sum k + element uncovered k = element total j -
          (excluded.map (fun e => if cov e j = 0 then weightAt weights e • unitConfusion (label e j) (decide (j ∈ majority)) else 0)).sum) ∧
      ∀ j < c, element total j = ((List.range n).map (fun e =>
        if cov e j = 0 then weightAt weights e • unitConfusion (label e j) (decide (j ∈ majority)) else 0)).sum := by
  have hsub : ∀ e ∈ sinceReset ops, e < n := fun e he => hops e (sinceReset_subset ops e he)
  have hd := seCoData_valid hl hc hw
  have hsize : (seCoData labels n c coverage weights).weights.size = n := by
    cases weights with
    | equal k => exact hw
    | vector l => exact hw
  obtain ⟨total, t1, t2, t3⟩ := totalSum_spec (confusionLaws (K := K) hm c) (d := seCoData labels n c coverage weights)
    (by rw [hsize]; exact hd) rfl
  have L := confusionLaws (K := K) hm c
  obtain ⟨s0, s, h1, h2, h3, ⟨u, h4, h5⟩, -⟩ := confusion_subset_sound (K := K) hm c _ n total excluded idx ops hd t2 hidx hex hops
  rw [hsize] at t3
  have hslen : s.sum.length = idx.size ∧ s.tmp.length = idx.size ∧ s.total.length = c := by
    obtain ⟨t0, r1, r2, -⟩ := removeAll_spec L hd excluded hex total t2
    obtain ⟨s', r3, r4⟩ := run_spec L hd hidx ops hops (sum := 0) (acc := none) (total := element t0)
      (s := { sum := (confusionOps majority).new idx.size, acc := none, tmp := (confusionOps majority).new idx.size, total := t0 })
      ⟨L.new _, trivial, (L.new _).1, r2, rfl⟩
    have e0 : s0 = { sum := (confusionOps majority).new idx.size, acc := none, tmp := (confusionOps majority).new idx.size, total := t0 } := by
      unfold SubsetState.create at h1
      rw [r1, ok_bind] at h1
      cases h1
      rfl
    subst e0
    rw [h2] at r3
    cases r3
    exact ⟨r4.sum.1, r4.tmp, r4.total.1⟩
  have hulen : u.length = idx.size := by
    obtain ⟨u', k1, k2, -⟩ := L.difference s.tmp s.total idx s.sum hidx hslen.2.1 hslen.2.2 hslen.1
    have : u' = u := by
      have h4' : (confusionOps majority).difference s.tmp s.total idx s.sum = .ok u := h4
      rw [k1] at h4'
      cases h4'
      rfl
    rw [← this]
    exact k2
  have htotal : ∀ j < c, element total j = ((List.range n).map (fun e =>
      if cov e j = 0 then weightAt weights e • unitConfusion (label e j) (decide (j ∈ majority)) else 0)).sum := by
    intro j hj
    rw [t3, sum_apply, List.map_map]
    congr 1
    exact List.map_congr_left (fun e he => seCoData_stat hl hc weights majority (List.mem_range.1 he) hj)
  refine ⟨total, s0, s, u, t1, h1, h2, h4, hslen.1, hulen, t2, ?_, htotal⟩
  intro k hk j hj
  have hjc : j < c := by
    rw [hj]
    exact index_lt hidx.1 hk
  have hsum : element s.sum k = ((sinceReset ops).map (fun e =>
      if cov e j = 0 then weightAt weights e • unitConfusion (label e j) (decide (j ∈ majority)) else (0 : Confusion K))).sum := by
    have h3 := congrFun h3 k
    simp only at h3
    rw [h3, sum_apply, List.map_map]
    congr 1
    refine List.map_congr_left (fun e he => ?_)
    show selectConfusion idx _ k = _
    unfold selectConfusion
    rw [if_pos hk, ← hj]
    exact seCoData_stat hl hc weights majority (hsub e he) hjc
  have component : ∀ (f : Confusion K → K), f 0 = 0 → (∀ a b, f (a + b) = f a + f b) → ∀ (g : Nat → K), (∀ e ∈ sinceReset ops,
      f (if cov e j = 0 then weightAt weights e • unitConfusion (label e j) (decide (j ∈ majority)) else 0) = g e) →
      f (element s.sum k) = ((sinceReset ops).map g).sum := by
    intro f h0 ha g hg
    rw [hsum, map_sum f h0 ha, List.map_map]
    congr 1
    exact List.map_congr_left hg
  have h5 := congrFun h5 k
  refine ⟨component _ rfl (fun _ _ => rfl) _ ?_, component _ rfl (fun _ _ => rfl) _ ?_, component _ rfl (fun _ _ => rfl) _ ?_,
    component _ rfl (fun _ _ => rfl) _ ?_, component _ ?_ ?_ _ ?_, ?_⟩
  · intro e _
    by_cases h : cov e j = 0 <;> cases label e j <;> by_cases hmaj : j ∈ majority <;>
      simp [h, hmaj, unitConfusion, Confusion.irrelevantNegative]
  · intro e _
    by_cases h : cov e j = 0 <;> cases label e j <;> by_cases hmaj : j ∈ majority <;>
      simp [h, hmaj, unitConfusion, Confusion.irrelevantPositive]
  · intro e _
    by_cases h : cov e j = 0 <;> cases label e j <;> by_cases hmaj : j ∈ majority <;>
      simp [h, hmaj, unitConfusion, Confusion.relevantNegative]
  · intro e _
    by_cases h : cov e j = 0 <;> cases label e j <;> by_cases hmaj : j ∈ majority <;>
      simp [h, hmaj, unitConfusion, Confusion.relevantPositive]
  · simp [Confusion.total, Confusion.irrelevantNegative, Confusion.irrelevantPositive, Confusion.relevantNegative, Confusion.relevantPositive]
  · intro a b
    simp only [Confusion.total, Confusion.irrelevantNegative, Confusion.irrelevantPositive, Confusion.relevantNegative,
      Confusion.relevantPositive, Prod.fst_add, Prod.snd_add]
    ring
  · intro e _
    by_cases h : cov e j = 0 <;> cases label e j <;> by_cases hmaj : j ∈ majority <;>
      simp [h, hmaj, unitConfusion, Confusion.total, Confusion.irrelevantNegative, Confusion.irrelevantPositive, Confusion.relevantNegative,
        Confusion.relevantPositive]
  · rw [Pi.add_apply] at h5
    rw [h5]
    unfold selectConfusion
    rw [if_pos hk, ← hj, Pi.sub_apply, sum_apply, List.map_map]
    congr 2
    exact List.map_congr_left (fun e he => seCoData_stat hl hc weights majority (hex e he) hjc)

/-! ### Subsets for the evaluation of predictions -/

/-- Negation of **C49** for subsets that are created via `IStatistics::createSubset`: as the vector for the total sum is allocated with as many
elements as there are examples, memory outside of the coverage matrix is accessed whenever there are more examples than labels. -/
theorem subsetTotal_fault {n c : Nat} (h : c < n) (majority : List Nat) (labels : LabelMatrix) {coverage : List Nat}
    (hc : coverage.length = n * c) {weights : Weights K} (hw : WeightsOk n weights) (v : List (Confusion K)) :
    subsetTotal majority labels n c coverage weights ≠ .ok v := by
  intro e
  unfold subsetTotal totalSum at e
  have hsize : (seCoData labels n c coverage weights).weights.size = n := by
    cases weights with
    | equal k => exact hw
    | vector l => exact hw
  simp only [hsize] at e
  have := loop_inv (fun i (v : List (Confusion K)) => v.length = n ∧ i < n) e ⟨List.length_replicate, by omega⟩ (by
    rintro i v v' hi ⟨g1, -⟩ g
    unfold addStatistic at g
    obtain ⟨w, -, g⟩ := bind_ok g
    obtain ⟨r, hr, g⟩ := bind_ok g
    have g : addInternally majority r (weightOf w) v = .ok v' := g
    obtain ⟨k1, k2⟩ := addInternally_inv g
    refine ⟨by omega, ?_⟩
    have hr : (seCoData labels n c coverage weights).rows[i]? = some r := readAt_eq_ok_iff.1 hr
    simp only [seCoData, List.getElem?_map, List.getElem?_range hi, Option.map_some, Option.some.injEq] at hr
    subst hr
    have k2 : i * c + v.length ≤ coverage.length := k2 (by omega)
    rw [hc, g1] at k2
    by_contra hne
    have : i + 1 = n := by omega
    rw [← this, Nat.add_mul, Nat.one_mul] at k2
    omega)
  omega

/-- Negation of **C49** for subsets that are created via `IStatistics::createSubset` if there are more labels than examples: there are no total
sums for the last labels. -/
theorem subsetTotal_short {n c : Nat} (h : n < c) (majority : List Nat) (labels : LabelMatrix) (coverage : List Nat) {weights : Weights K}
    (hw : WeightsOk n weights) {v : List (Confusion K)} (e : subsetTotal majority labels n c coverage weights = .ok v) (j : Nat) (hj : n ≤ j) :
    readAt v j = .error .outOfBounds := by
  unfold subsetTotal totalSum at e
  have hsize : (seCoData labels n c coverage weights).weights.size = n := by
    cases weights with
    | equal k => exact hw
    | vector l => exact hw
  simp only [hsize] at e
  have := loop_inv (fun i (v : List (Confusion K)) => v.length = n) e List.length_replicate (by
    rintro i v v' hi g1 g
    unfold addStatistic at g
    obtain ⟨w, -, g⟩ := bind_ok g
    obtain ⟨r, hr, g⟩ := bind_ok g
    have g : addInternally majority r (weightOf w) v = .ok v' := g
    rw [(addInternally_inv g).1, g1])
  exact readAt_of_le (by omega)

/-- What holds for subsets that are created via `IStatistics::createSubset`: the sum for the examples that have been added is correct. What is
missing is the total sum. -/
theorem subsetSum_partial {n c : Nat} {label : Nat → Nat → Bool} {labels : LabelMatrix} (hl : IsLabels n c label labels)
    {cov : Nat → Nat → Nat} {coverage : List Nat} (hc : IsCoverage n c cov coverage) {weights : Weights K} (hw : WeightsOk n weights)
    {majority : List Nat} (hm : majority.Pairwise (· < ·)) {idx : IndexVec} (hidx : IndicesOk c idx) (examples : List Nat)
    (hex : ∀ e ∈ examples, e < n) :
    ∃ v, subsetSum majority labels n c coverage weights idx examples = .ok v ∧ v.length = idx.size ∧
      ∀ k < idx.size, element v k = (examples.map (fun e => if cov e (idx.index k) = 0 then
        weightAt weights e • unitConfusion (label e (idx.index k)) (decide (idx.index k ∈ majority)) else 0)).sum := by
  have hd := seCoData_valid hl hc hw
  have L := confusionLaws (K := K) hm c
  have key : ∀ (examples : List Nat), (∀ e ∈ examples, e < n) → ∀ (v : List (Confusion K)), v.length = idx.size →
      ∃ v', examples.foldlM (fun v e => do
          let d := seCoData labels n c coverage weights
          let w ← d.weights.get e
          let r ← readAt d.rows e
          (confusionOps majority).addToSubset v r idx w) v = .ok v' ∧ v'.length = idx.size ∧ ∀ k < idx.size, element v' k = element v k +
        (examples.map (fun e => if cov e (idx.index k) = 0 then
          weightAt weights e • unitConfusion (label e (idx.index k)) (decide (idx.index k ∈ majority)) else 0)).sum := by
    intro examples
    induction examples with
    | nil => exact fun _ v hv => ⟨v, rfl, hv, fun k _ => by simp⟩
    | cons e l ih =>
      intro hex v hv
      obtain ⟨w, r, h1, h2, h3, h4⟩ := access (K := K) (row := (Row.value majority c : Row → ConfusionMatrices K)) hd (hex e List.mem_cons_self)
      obtain ⟨v1, k1, k2, k3⟩ := L.addToSubset v r idx w hidx hv h3
      obtain ⟨v2, m1, m2, m3⟩ := ih (fun x hx => hex x (List.mem_cons_of_mem _ hx)) v1 k2
      refine ⟨v2, ?_, m2, fun k hk => ?_⟩
      · rw [List.foldlM_cons]
        simp only [h1, h2, ok_bind, k1]
        exact m1
      · rw [m3 k hk, congrFun k3 k, Pi.add_apply, ← L.select_times, ← h4, List.map_cons, List.sum_cons, ← add_assoc]
        congr 2
        show selectConfusion idx _ k = _
        unfold selectConfusion
        rw [if_pos hk]
        exact seCoData_stat hl hc weights majority (hex e List.mem_cons_self) (index_lt hidx.1 hk)
  obtain ⟨v, h1, h2, h3⟩ := key examples hex _ (L.new idx.size).1
  refine ⟨v, h1, h2, fun k hk => ?_⟩
  rw [h3 k hk]
  have : element ((confusionOps (K := K) majority).new idx.size) k = 0 := congrFun (L.new idx.size).2 k
  rw [this, zero_add]

/-! ### Examples -/

/-- Two examples with three labels (in both formats), the second one being relevant to the majority. -/
example : IsLabels 2 3 (fun i j => decide (j = 1 ∨ i = 1 ∧ j = 2)) (.dense [false, true, false, false, true, true]) ∧
    IsLabels 2 3 (fun i j => decide (j = 1 ∨ i = 1 ∧ j = 2)) (.csr [[1], [1, 2]]) ∧
    IsCoverage 2 3 (fun i j => if i = 0 ∧ j = 0 then 1 else 0) [1, 0, 0, 0, 0, 0] ∧ WeightsOk 2 (.vector [(3 : ℤ), 2]) ∧
    [1].Pairwise (· < ·) ∧ IndicesOk 3 (.select [0, 1]) ∧ IndicesOk 3 (.complete 3) := by
  refine ⟨.dense _ rfl (by decide), .csr _ rfl (by decide) ?_, ⟨rfl, by decide⟩, rfl, by simp, ⟨by simp [IndexVec.Valid], by simp [IndexVec.Sorted]⟩,
    ⟨rfl, trivial⟩⟩
  intro i row h j
  match i, h with
  | 0, h =>
    cases h
    simp
    omega
  | 1, h =>
    cases h
    simp
    omega
  | i + 2, h => simp at h

example : totalSum (K := ℤ) (confusionOps [1]) (seCoData (.csr [[1], [1, 2]]) 2 3 [1, 0, 0, 0, 0, 0] (.vector [3, 2])) =
    .ok [(0, 2, 0, 0), (0, 0, 5, 0), (0, 3, 0, 2)] := by decide +kernel

example : subsetSum (K := ℤ) [1] (.dense [false, true, false, false, true, true]) 2 3 [1, 0, 0, 0, 0, 0] (.vector [3, 2]) (.select [0, 1]) [0, 1] =
    .ok [(0, 2, 0, 0), (0, 0, 5, 0)] := by decide +kernel

/-- `createSubset` fails for three examples with two labels, and yields too few total sums for two examples with three labels. -/
example : subsetTotal (K := ℤ) [] (.csr [[0], [1], []]) 3 2 [0, 0, 0, 0, 0, 0] (.equal 3) = .error .outOfBounds ∧
    subsetTotal (K := ℤ) [1] (.csr [[1], [1, 2]]) 2 3 [1, 0, 0, 0, 0, 0] (.equal 2) = .ok [(0, 1, 0, 0), (0, 0, 2, 0)] := by
  constructor <;> decide +kernel

end MLRL.Seco
