import Verif.Lemma.SparsePrediction
import Verif.Props.LabelVectors
import Mathlib.Data.List.Perm.Subperm

/-!
# C71: sparse binary predictions
-/

namespace MLRL.SparsePrediction

open LabelVectors (outputWiseDense outputWiseSparse exampleWiseDense exampleWiseSparse)

variable {K : Type} [Zero K]

/-- The total number of elements is an independent notion: the sum of the sizes of all rows. -/
theorem total_range (labels : Nat → List Nat) (n : Nat) : total labels (List.range n) = ((List.range n).map (fun i => (labels i).length)).sum := rfl

/-- What the predictor has to do for each example: the rules are applied to a row of zeros, which results in the scores `result i`, and the transformation turns these
scores into the labels `labels i` if it starts with an empty row. -/
structure Outcome (steps : Nat → List (List K → Res (List K))) (transformation : List K → List Nat → Res (List Nat)) (numExamples numOutputs : Nat)
    (result : Nat → List K) (labels : Nat → List Nat) : Prop where
  scores : ∀ i < numExamples, (steps i).foldlM (fun s f => f s) (List.replicate numOutputs 0) = .ok (result i)
  length : ∀ i < numExamples, (result i).length = numOutputs
  labels : ∀ i < numExamples, transformation (result i) [] = .ok (labels i)

variable {steps : Nat → List (List K → Res (List K))} {transformation : List K → List Nat → Res (List Nat)} {numExamples numOutputs : Nat}
  {result : Nat → List K} {labels : Nat → List Nat}

theorem sparse_ready (ho : Outcome steps transformation numExamples numOutputs result labels) {assignment : List (List Nat)}
    (hassign : assignment.flatten.Perm (List.range numExamples)) {scratch : List (List K)} (hscratch : assignment.length ≤ scratch.length)
    (hlen : ∀ row ∈ scratch, row.length = numOutputs) :
    ∀ t e, assignment[t]? = some e → ∀ i ∈ e, Ready sparseDelegate steps transformation numOutputs result labels t i (sparseStart numExamples scratch) := by
  intro t e he i hi
  have hin : i < numExamples := by
    have : i ∈ assignment.flatten := List.mem_flatten.2 ⟨e, List.mem_of_getElem? he, hi⟩
    simpa using hassign.subset this
  have ht : t < scratch.length := lt_of_lt_of_le (List.getElem?_eq_some_iff.1 he).1 hscratch
  refine ⟨⟨scratch[t], List.getElem?_eq_getElem ht, fun _ => ⟨hlen _ (List.getElem_mem ht), ho.scores i hin, ho.length i hin⟩, fun h => by cases h⟩, ⟨[], ?_, fun _ => ho.labels i hin⟩,
    fun h => by cases h⟩
  simp [sparseStart, hin]

/-- **C71.** `SparseBinaryPredictor::predict`: however the examples are assigned to threads, however the steps of the threads interleave, in whatever order the private
copies of the number of elements are added and whatever the scratch rows contain initially, no undefined behaviour occurs, if there is a scratch row for each thread and
the numbers of examples and of predicted labels are small enough for 32 bit integers. The resulting matrix consists of the labels predicted for each example. -/
theorem sparse_predict_partial (ho : Outcome steps transformation numExamples numOutputs result labels) (assignment : List (List Nat))
    (hassign : assignment.flatten.Perm (List.range numExamples)) (scratch : List (List K)) (hscratch : assignment.length ≤ scratch.length)
    (hlen : ∀ row ∈ scratch, row.length = numOutputs) (trace : List (Nat × Action K))
    (htrace : IsExecution (predictForExample sparseDelegate steps transformation) assignment trace)
    (reduction : List Nat → List Nat) (hred : ∀ l, (reduction l).Perm l) (h1 : numExamples + 1 < 2 ^ 32)
    (h2 : ((List.range numExamples).map (fun i => (labels i).length)).sum < 2 ^ 32) :
    ∃ m c, finishSparse reduction trace (sparseStart numExamples scratch) = .ok (m, c) ∧ Represents c ((List.range numExamples).map labels) ∧
      ∀ i < numExamples, c.row i = .ok (labels i) := by
  obtain ⟨m, g1, g2, -, -, g5⟩ := region_sparse hassign (m := sparseStart numExamples scratch) rfl rfl hscratch (by simp [sparseStart])
    (sparse_ready ho hassign hscratch hlen) htrace hred
  rw [← total_range] at h2
  rw [Nat.mod_eq_of_lt h2, ← total_eq_flatten] at g5
  obtain ⟨c, c1, c2⟩ := create_ok (rows := (List.range numExamples).map labels) (by simpa using h1) (by rw [total_eq_flatten]; exact h2)
  refine ⟨m, c, ?_, c2, fun i hi => ?_⟩
  · unfold finishSparse
    rw [g1, ok_bind, g2, g5, c1]
    rfl
  · rw [c2.row (by simpa using hi)]
    simp

/-- **C71**, negative part: if the number of predicted labels does not fit into 32 bits, too little memory is allocated and elements are written beyond the end of the
array `indices`. -/
theorem sparse_predict_overflow (ho : Outcome steps transformation numExamples numOutputs result labels) (assignment : List (List Nat))
    (hassign : assignment.flatten.Perm (List.range numExamples)) (scratch : List (List K)) (hscratch : assignment.length ≤ scratch.length)
    (hlen : ∀ row ∈ scratch, row.length = numOutputs) (trace : List (Nat × Action K))
    (htrace : IsExecution (predictForExample sparseDelegate steps transformation) assignment trace)
    (reduction : List Nat → List Nat) (hred : ∀ l, (reduction l).Perm l) (h1 : numExamples + 1 < 2 ^ 32)
    (h2 : 2 ^ 32 ≤ ((List.range numExamples).map (fun i => (labels i).length)).sum) :
    finishSparse reduction trace (sparseStart numExamples scratch) = .error .outOfBounds := by
  obtain ⟨m, g1, g2, -, -, g5⟩ := region_sparse hassign (m := sparseStart numExamples scratch) rfl rfl hscratch (by simp [sparseStart])
    (sparse_ready ho hassign hscratch hlen) htrace hred
  rw [← total_range] at h2
  have hlt : total labels (List.range numExamples) % 2 ^ 32 < 2 ^ 32 := Nat.mod_lt _ (by decide)
  unfold finishSparse
  rw [g1, ok_bind, g2, g5, create_fault (by simpa using h1) (by rw [total_eq_flatten]; exact lt_of_lt_of_le hlt h2) hlt]
  rfl

/-- **C71.** If no transformation is available, no labels are predicted. -/
theorem sparse_without_transformation (h1 : numExamples + 1 < 2 ^ 32) :
    ∃ c, predictSparseWithoutTransformation numExamples = .ok c ∧ c.indices = [] ∧ ∀ i < numExamples, c.row i = .ok [] := by
  have hf : (List.replicate numExamples ([] : List Nat)).flatten = [] := by simp
  obtain ⟨c, c1, c2⟩ := create_ok (rows := List.replicate numExamples []) (by simpa using h1) (by rw [hf]; decide)
  rw [hf] at c1
  refine ⟨c, c1, by rw [c2.indices, hf]; rfl, fun i hi => ?_⟩
  rw [c2.row (by simpa using hi)]
  simp

/-! ### Incremental predictions -/

/-- **C71.** One call of `IncrementalPredictor::applyNext` of the sparse predictor: the labels that have been predicted by previous calls are discarded. -/
theorem sparse_incremental_step {m : Mem K} (hscores : ∀ i < numExamples, ∃ row, m.scores[i]? = some row ∧ (steps i).foldlM (fun s f => f s) row = .ok (result i))
    (hrows : m.rows.length = numExamples) (hlabels : ∀ i < numExamples, transformation (result i) [] = .ok (labels i)) {numThreads : Nat}
    {assignment : List (List Nat)} (hassign : assignment.flatten.Perm (List.range numExamples)) (hthreads : assignment.length ≤ numThreads)
    {trace : List (Nat × Action K)} (htrace : IsExecution (predictForExample sparseIncrementalDelegate steps transformation) assignment trace)
    {reduction : List Nat → List Nat} (hred : ∀ l, (reduction l).Perm l) (h1 : numExamples + 1 < 2 ^ 32)
    (h2 : ((List.range numExamples).map (fun i => (labels i).length)).sum < 2 ^ 32) :
    ∃ m' c, finishSparse reduction trace (sparseContinue numThreads m) = .ok (m', c) ∧ Represents c ((List.range numExamples).map labels) ∧
      m'.rows.length = numExamples ∧ ∀ i < numExamples, m'.scores[i]? = some (result i) := by
  obtain ⟨m', g1, g2, -, g4, g5⟩ := region_sparse (d := sparseIncrementalDelegate) (steps := steps) (transformation := transformation) (n := 0) (result := result)
    (labels := labels) hassign (m := sparseContinue numThreads m) rfl rfl hthreads hrows (by
      intro t e he i hi
      have hin : i < numExamples := by
        have : i ∈ assignment.flatten := List.mem_flatten.2 ⟨e, List.mem_of_getElem? he, hi⟩
        simpa using hassign.subset this
      obtain ⟨row, r1, r2⟩ := hscores i hin
      exact ⟨⟨row, r1, (fun h => by cases h), fun _ => r2⟩, ⟨m.rows[i]'(by omega), List.getElem?_eq_getElem (l := m.rows) (by omega), fun h => by cases h⟩, fun _ => hlabels i hin⟩) htrace hred
  rw [← total_range] at h2
  rw [Nat.mod_eq_of_lt h2, ← total_eq_flatten] at g5
  obtain ⟨c, c1, c2⟩ := create_ok (rows := (List.range numExamples).map labels) (by simpa using h1) (by rw [total_eq_flatten]; exact h2)
  refine ⟨m', c, ?_, c2, by rw [g2]; simp, fun i hi => g4 i hi rfl⟩
  unfold finishSparse
  rw [g1, ok_bind, g2, g5, c1]
  rfl

/-- The rules applied to an example by several calls. -/
def allSteps (calls : List (Call K)) (i : Nat) : List (List K → Res (List K)) := calls.flatMap (fun call => call.steps i)

theorem sparse_incremental_from (numThreads : Nat) (h1 : numExamples + 1 < 2 ^ 32) : ∀ (calls : List (Call K)) (m : Mem K) (result : Nat → Nat → List K)
    (labels : Nat → Nat → List Nat), m.rows.length = numExamples →
    (∀ k, k ≤ calls.length → ∀ i < numExamples, ∃ row, m.scores[i]? = some row ∧ (allSteps (calls.take k) i).foldlM (fun s f => f s) row = .ok (result k i)) →
    (∀ k, 0 < k → k ≤ calls.length → (∀ i < numExamples, transformation (result k i) [] = .ok (labels k i)) ∧
      ((List.range numExamples).map (fun i => (labels k i).length)).sum < 2 ^ 32) →
    (∀ call ∈ calls, call.assignment.flatten.Perm (List.range numExamples) ∧ call.assignment.length ≤ numThreads ∧
      IsExecution (predictForExample sparseIncrementalDelegate call.steps transformation) call.assignment call.trace ∧ ∀ l, (call.reduction l).Perm l) →
    ∃ cs, applyCalls numThreads calls m = .ok cs ∧ cs.length = calls.length ∧
      ∀ k c, cs[k]? = some c → Represents c ((List.range numExamples).map (labels (k + 1)))
  | [], m, _, _, _, _, _, _ => ⟨[], rfl, rfl, by simp⟩
  | call :: calls, m, result, labels, hrows, hres, hlab, hcalls => by
    obtain ⟨q1, q2, q3, q4⟩ := hcalls call (by simp)
    obtain ⟨p1, p2⟩ := hlab 1 (by omega) (by simp)
    obtain ⟨m', c, e1, e2, e3, e4⟩ := sparse_incremental_step (steps := call.steps) (result := result 1) (labels := labels 1) (m := m) (by
      intro i hi
      obtain ⟨row, r1, r2⟩ := hres 1 (by simp) i hi
      exact ⟨row, r1, by simpa [allSteps] using r2⟩) hrows p1 q1 q2 q3 q4 h1 p2
    obtain ⟨cs, f1, f2, f3⟩ := sparse_incremental_from numThreads h1 calls m' (fun k => result (k + 1)) (fun k => labels (k + 1)) e3 (by
        intro k hk i hi
        refine ⟨result 1 i, e4 i hi, ?_⟩
        obtain ⟨row, r1, r2⟩ := hres 1 (by simp) i hi
        obtain ⟨row', r1', r3⟩ := hres (k + 1) (by simpa using hk) i hi
        rw [r1] at r1'
        cases r1'
        have h2 : call.steps i = allSteps (List.take 1 (call :: calls)) i := by simp [allSteps]
        have h3 : allSteps (List.take (k + 1) (call :: calls)) i = call.steps i ++ allSteps (calls.take k) i := by simp [allSteps]
        rw [h3, List.foldlM_append, h2, r2, ok_bind] at r3
        exact r3)
      (fun k h0 hk => hlab (k + 1) (by omega) (by simpa using hk)) (fun call hc => hcalls call (List.mem_cons_of_mem _ hc))
    refine ⟨c :: cs, ?_, by simp [f2], ?_⟩
    · unfold applyCalls
      rw [e1, ok_bind, f1]
      rfl
    · intro k c' hk
      cases k with
      | zero => cases hk; exact e2
      | succ k => exact f3 k c' hk

/-- **C71.** Any number of calls of `IncrementalPredictor::applyNext` of the sparse predictor: the matrix returned by the `k`-th call consists of the labels that result
from the scores after all rules of the first `k` calls, regardless of how each call is executed by threads. -/
theorem sparse_incremental_partial (numThreads : Nat) (calls : List (Call K)) (result : Nat → Nat → List K) (labels : Nat → Nat → List Nat)
    (ho : ∀ k, 0 < k → k ≤ calls.length → Outcome (allSteps (calls.take k)) transformation numExamples numOutputs (result k) (labels k) ∧
      ((List.range numExamples).map (fun i => (labels k i).length)).sum < 2 ^ 32)
    (hcalls : ∀ call ∈ calls, call.assignment.flatten.Perm (List.range numExamples) ∧ call.assignment.length ≤ numThreads ∧
      IsExecution (predictForExample sparseIncrementalDelegate call.steps transformation) call.assignment call.trace ∧ ∀ l, (call.reduction l).Perm l)
    (h1 : numExamples + 1 < 2 ^ 32) :
    ∃ cs, applyCalls numThreads calls ⟨List.replicate numExamples (List.replicate numOutputs 0), List.replicate numExamples [], []⟩ = .ok cs ∧
      cs.length = calls.length ∧ ∀ k c, cs[k]? = some c → Represents c ((List.range numExamples).map (labels (k + 1))) := by
  refine sparse_incremental_from numThreads h1 calls _ (fun k => if k = 0 then fun _ => List.replicate numOutputs 0 else result k) labels (by simp) ?_ ?_ hcalls
  · intro k hk i hi
    refine ⟨List.replicate numOutputs 0, by simp [hi], ?_⟩
    by_cases h : k = 0
    · subst h; simp [allSteps, pure_eq_ok]
    · rw [if_neg h]
      exact (ho k (by omega) hk).1.scores i hi
  · intro k h0 hk
    obtain ⟨a, b⟩ := ho k h0 hk
    refine ⟨fun i hi => ?_, b⟩
    rw [if_neg (by omega)]
    exact a.labels i hi

/-! ### Agreement with dense predictions -/

/-- `BinaryPredictor::predict`, if transformations may depend on the previous content of the prediction matrix and may have undefined behaviour. -/
theorem dense_predict {old : List (List Nat)} {new : Nat → List Nat} (hnum : old.length = numExamples)
    (hres : ∀ i < numExamples, (steps i).foldlM (fun s f => f s) (List.replicate numOutputs 0) = .ok (result i) ∧ (result i).length = numOutputs)
    (hnew : ∀ i o, old[i]? = some o → transformation (result i) o = .ok (new i)) (assignment : List (List Nat))
    (hassign : assignment.flatten.Perm (List.range numExamples)) (scratch : List (List K)) (hscratch : assignment.length ≤ scratch.length)
    (hlen : ∀ row ∈ scratch, row.length = numOutputs) (trace : List (Nat × Action K))
    (htrace : IsExecution (predictForExample denseDelegate steps transformation) assignment trace) :
    ∃ m, execAll (trace.map Prod.snd) ⟨scratch, old, List.replicate scratch.length 0⟩ = .ok m ∧ ∀ i < numExamples, m.rows[i]? = some (new i) := by
  obtain ⟨m, g1, -, -, -, g5, -⟩ := region_ok (d := denseDelegate) (steps := steps) (transformation := transformation) (n := numOutputs) (result := result)
    (labels := new) hassign (m := ⟨scratch, old, List.replicate scratch.length 0⟩) (by intro t ht; simp at ht; simp [ht]) (by simpa using hscratch) (by
      intro t e he i hi
      have hin : i < numExamples := by
        have : i ∈ assignment.flatten := List.mem_flatten.2 ⟨e, List.mem_of_getElem? he, hi⟩
        simpa using hassign.subset this
      have ht : t < scratch.length := lt_of_lt_of_le (List.getElem?_eq_some_iff.1 he).1 hscratch
      obtain ⟨r1, r2⟩ := hres i hin
      have ho : old[i]? = some old[i] := List.getElem?_eq_getElem (by omega)
      exact ⟨⟨scratch[t], List.getElem?_eq_getElem ht, fun _ => ⟨hlen _ (List.getElem_mem ht), r1, r2⟩, fun h => by cases h⟩, ⟨old[i], ho, fun _ => hnew i _ ho⟩,
        fun h => by cases h⟩) htrace
  exact ⟨m, g1, fun i hi => (g5 i hi).1⟩

/-- **C71.** The dense predictor and the sparse predictor predict the same labels, whatever the threads of both predictors do, if the transformations for dense and sparse
predictions agree for each example: label `j` is contained in row `i` of the sparse matrix if and only if the corresponding element of the dense matrix is 1. The
predictors may use different numbers of threads. -/
theorem sparse_eq_dense {denseTransformation : List K → List Nat → Res (List Nat)}
    (hres : ∀ i < numExamples, (steps i).foldlM (fun s f => f s) (List.replicate numOutputs 0) = .ok (result i) ∧ (result i).length = numOutputs)
    (hsparse : ∀ i < numExamples, transformation (result i) [] = .ok (labels i)) (hsorted : ∀ i < numExamples, (labels i).Pairwise (· < ·))
    (hbound : ∀ i < numExamples, ∀ j ∈ labels i, j < numOutputs)
    (hdense : ∀ i < numExamples, ∀ o : List Nat, o.length = numOutputs → denseTransformation (result i) o = .ok (Loss.row numOutputs (fun j => if j ∈ labels i then 1 else 0)))
    (h1 : numExamples + 1 < 2 ^ 32) (h2 : numExamples * numOutputs < 2 ^ 32)
    -- the sparse predictor
    (assignment : List (List Nat)) (hassign : assignment.flatten.Perm (List.range numExamples)) (scratch : List (List K))
    (hscratch : assignment.length ≤ scratch.length) (hlen : ∀ row ∈ scratch, row.length = numOutputs) (trace : List (Nat × Action K))
    (htrace : IsExecution (predictForExample sparseDelegate steps transformation) assignment trace)
    (reduction : List Nat → List Nat) (hred : ∀ l, (reduction l).Perm l)
    -- the dense predictor
    (assignment' : List (List Nat)) (hassign' : assignment'.flatten.Perm (List.range numExamples)) (scratch' : List (List K))
    (hscratch' : assignment'.length ≤ scratch'.length) (hlen' : ∀ row ∈ scratch', row.length = numOutputs) (trace' : List (Nat × Action K))
    (htrace' : IsExecution (predictForExample denseDelegate steps denseTransformation) assignment' trace')
    (old : List (List Nat)) (hold : old.length = numExamples) (hold' : ∀ row ∈ old, row.length = numOutputs) :
    ∃ m c m', finishSparse reduction trace (sparseStart numExamples scratch) = .ok (m, c) ∧
      execAll (trace'.map Prod.snd) ⟨scratch', old, List.replicate scratch'.length 0⟩ = .ok m' ∧
      ∀ i < numExamples, ∃ l row, c.row i = .ok l ∧ l.Pairwise (· < ·) ∧ (∀ j ∈ l, j < numOutputs) ∧ m'.rows[i]? = some row ∧ row.length = numOutputs ∧
        ∀ j : Nat, j < numOutputs → row[j]? = some (if j ∈ l then 1 else 0) := by
  obtain ⟨m, c, g1, -, g3⟩ := sparse_predict_partial (labels := labels) ⟨fun i hi => (hres i hi).1, fun i hi => (hres i hi).2, hsparse⟩
      assignment hassign scratch hscratch hlen trace htrace reduction hred h1 (by
    refine lt_of_le_of_lt ?_ h2
    have : ∀ k : Nat, k ≤ numExamples → ((List.range k).map (fun i => (labels i).length)).sum ≤ k * numOutputs := by
      intro k
      induction k with
      | zero => simp
      | succ k ih =>
        intro hk
        have ih := ih (by omega)
        rw [List.range_succ, List.map_append, List.sum_append, Nat.succ_mul]
        have hsub : labels k ⊆ List.range numOutputs := fun j hj => List.mem_range.2 (hbound k (by omega) j hj)
        have : (labels k).length ≤ numOutputs := by
          have := (List.subperm_of_subset ((hsorted k (by omega)).imp (fun h => Nat.ne_of_lt h)) hsub).length_le
          rwa [List.length_range] at this
        simp
        omega
    exact this numExamples (Nat.le_refl _))
  obtain ⟨m', k1, k2⟩ := dense_predict (new := fun i => Loss.row numOutputs (fun j => if j ∈ labels i then 1 else 0)) hold hres (by
    intro i o ho
    have hi : i < numExamples := by rw [← hold]; exact (List.getElem?_eq_some_iff.1 ho).1
    exact hdense i hi o (hold' o (List.mem_of_getElem? ho))) assignment' hassign' scratch' hscratch' hlen' trace' htrace'
  exact ⟨m, c, m', g1, k1, fun i hi => ⟨_, _, g3 i hi, hsorted i hi, hbound i hi, k2 i hi, by simp [Loss.row], fun j hj => LossUpdate.row_getElem? hj⟩⟩

/-- **C71.** `OutputWiseBinaryTransformation` satisfies the hypotheses of the previous theorem: the labels are those whose scores are discretised to true. -/
theorem outputWise_agree (discretize : Nat → K → Bool) {s : List K} (hs : s.length = numOutputs) :
    outputWiseSparse discretize s [] = .ok ((List.range numOutputs).filter (fun j => discretize j ((s[j]?).getD 0))) ∧
    ∀ o : List Nat, o.length = numOutputs → outputWiseDense discretize s o =
      .ok (Loss.row numOutputs (fun j => if j ∈ (List.range numOutputs).filter (fun j => discretize j ((s[j]?).getD 0)) then 1 else 0)) := by
  have hrow : s = Loss.row numOutputs (fun j => (s[j]?).getD 0) := by
    refine List.ext_getElem? (fun j => ?_)
    by_cases h : j < numOutputs
    · rw [LossUpdate.row_getElem? h, List.getElem?_eq_getElem (by rw [hs]; exact h)]
      rfl
    · rw [List.getElem?_eq_none (by omega), List.getElem?_eq_none (by simp [Loss.row]; omega)]
  have hboth := fun (prediction : List Nat) (hp : prediction.length = numOutputs) =>
    LabelVectors.outputWise_dense_eq_sparse discretize numOutputs (fun j => (s[j]?).getD 0) prediction hp
  rw [← hrow] at hboth
  refine ⟨(hboth (List.replicate numOutputs 0) (by simp)).2, fun o ho => ?_⟩
  rw [(hboth o ho).1]
  congr 1
  unfold Loss.row
  refine List.map_congr_left (fun j hj => if_congr ?_ rfl rfl)
  rw [List.mem_range] at hj
  simp [hj]

/-- **C71.** `ExampleWiseBinaryTransformation` satisfies the hypotheses as well, if label vectors are known and their indices are sorted: the labels are those of one of
the known label vectors. -/
theorem exampleWise_agree [LinearOrder K] {set : LabelVectors.LabelVectorSet} {distance : List K → Nat → List Nat → Res K} {d : List K → Nat → K} (s : List K)
    (hne : set.vectors ≠ []) (hlen : set.frequencies.length = set.vectors.length) (hsorted : ∀ v ∈ set.vectors, v.Pairwise (· < ·))
    (hd : ∀ i v, set.vectors[i]? = some v → distance s i v = .ok (d s i)) :
    ∃ v ∈ set.vectors, exampleWiseSparse set (distance s) [] = .ok v ∧
      ∀ o : List Nat, o.length = numOutputs → exampleWiseDense set (distance s) o = .ok (Loss.row numOutputs (fun j => if j ∈ v then 1 else 0)) := by
  obtain ⟨b, v, f, e1, -, -, e4, e5⟩ := LabelVectors.exampleWise_closest (set := set) (distance := distance s) (d := d s) hne hlen hd
  refine ⟨v, List.mem_of_getElem? e1, e4, fun o ho => ?_⟩
  rw [e5 (hsorted v (List.mem_of_getElem? e1)) o, ho]

/-! ### Instances -/

/-- The execution by a single thread. -/
theorem sequential_execution (task : Nat → Nat → List (Action K)) (examples : List Nat) :
    IsExecution task [examples] ((examples.flatMap (task 0)).map (fun a => (0, a))) := by
  constructor
  · intro p hp
    obtain ⟨a, _, rfl⟩ := List.mem_map.1 hp
    simp
  · intro t e he
    match t with
    | 0 =>
      cases he
      rw [List.filter_eq_self.2 (by
        intro p hp
        obtain ⟨a, _, rfl⟩ := List.mem_map.1 hp
        simp), List.map_map]
      exact List.map_id' _
    | t + 1 => simp at he

/-- The hypotheses of `sparse_predict_overflow` can be met: `n` labels are predicted for each of `n` examples, e.g. with `n = 65536`. -/
theorem overflow_instance {n : Nat} (h : 2 ^ 32 ≤ n * n) (h' : n + 1 < 2 ^ 32) :
    finishSparse id (((List.range n).flatMap (predictForExample sparseDelegate (fun _ => []) (fun _ _ => .ok (List.range n)) 0)).map (fun a => (0, a)))
      (sparseStart n [[(0 : Int)]]) = .error .outOfBounds :=
  sparse_predict_overflow (numOutputs := 1) (result := fun _ => [0]) (labels := fun _ => List.range n)
    ⟨fun _ _ => rfl, fun _ _ => rfl, fun _ _ => rfl⟩ [List.range n] (by simp) [[0]] (by simp) (by simp) _ (sequential_execution _ _) id (fun l => List.Perm.refl l)
    h' (by simpa using h)

example := overflow_instance (n := 65536) (by norm_num) (by norm_num)

/-- Labels 0 and 1 are predicted if their scores are positive. -/
private def exampleTransformation : List Int → List Nat → Res (List Nat) := outputWiseSparse (fun _ s => decide (0 < s))

private def exampleSteps (i : Nat) : List (List Int → Res (List Int)) := [fun s => .ok (s.mapIdx (fun j x => x + (i : Int) - (j : Int)))]

/-- Two threads predict for three examples, their steps alternate. -/
example : (finishSparse List.reverse ([(1, .rowStep 1 (fun row => .ok (row.map (fun _ => 0)))), (0, .rowStep 0 (fun row => .ok (row.map (fun _ => 0)))),
      (1, .rowStep 1 (fun s => .ok (s.mapIdx (fun j x => x + ((1 : Nat) : Int) - (j : Int))))), (1, .apply 1 exampleTransformation 1),
      (0, .rowStep 0 (fun s => .ok (s.mapIdx (fun j x => x + ((2 : Nat) : Int) - (j : Int))))), (1, .count 1 1), (0, .apply 0 exampleTransformation 2),
      (0, .count 0 2), (0, .rowStep 0 (fun row => .ok (row.map (fun _ => 0)))), (0, .rowStep 0 (fun s => .ok (s.mapIdx (fun j x => x + ((0 : Nat) : Int) - (j : Int))))),
      (0, .apply 0 exampleTransformation 0), (0, .count 0 0)]) (sparseStart 3 [[7, 8], [9, 9]])).map Prod.snd =
    .ok ⟨[some 0, some 0, some 1], [some 0, some 0, some 1, some 3]⟩ := by decide +kernel

/-- The execution is one of those considered by the theorems. -/
example : IsExecution (predictForExample sparseDelegate exampleSteps exampleTransformation) [[2, 0], [1]]
    [(1, .rowStep 1 (fun row => .ok (row.map (fun _ => 0)))), (0, .rowStep 0 (fun row => .ok (row.map (fun _ => 0)))),
      (1, .rowStep 1 (fun s => .ok (s.mapIdx (fun j x => x + ((1 : Nat) : Int) - (j : Int))))), (1, .apply 1 exampleTransformation 1),
      (0, .rowStep 0 (fun s => .ok (s.mapIdx (fun j x => x + ((2 : Nat) : Int) - (j : Int))))), (1, .count 1 1), (0, .apply 0 exampleTransformation 2),
      (0, .count 0 2), (0, .rowStep 0 (fun row => .ok (row.map (fun _ => 0)))), (0, .rowStep 0 (fun s => .ok (s.mapIdx (fun j x => x + ((0 : Nat) : Int) - (j : Int))))),
      (0, .apply 0 exampleTransformation 0), (0, .count 0 0)] := by
  refine ⟨by simp, ?_⟩
  intro t e he
  match t with
  | 0 => cases he; rfl
  | 1 => cases he; rfl
  | t + 2 => simp at he

/-- Two calls of `applyNext`: the labels predicted by the first call are not kept. -/
example : applyCalls 1 [⟨fun _ => [fun s => .ok (s.map (fun x => x + 1))], [[0]],
      [(0, .rowStep 0 (fun s => .ok (s.map (fun x => x + 1)))), (0, .clear 0), (0, .apply 0 exampleTransformation 0), (0, .count 0 0)], id⟩,
    ⟨fun _ => [fun s => .ok (s.mapIdx (fun j x => x - (j : Int)))], [[0]],
      [(0, .rowStep 0 (fun s => .ok (s.mapIdx (fun j x => x - (j : Int))))), (0, .clear 0), (0, .apply 0 exampleTransformation 0), (0, .count 0 0)], id⟩]
    ⟨[[0, 0]], [[]], []⟩ = .ok [⟨[some 0, some 1], [some 0, some 2]⟩, ⟨[some 0], [some 0, some 1]⟩] := by decide +kernel

end MLRL.SparsePrediction
