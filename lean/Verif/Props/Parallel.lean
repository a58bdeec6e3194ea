import Verif.Lemma.Parallel

/-!
# C11: predicting in parallel
-/

namespace MLRL.Predictor

variable {K B : Type}

/-- **C11.** (one-shot predictors, whose threads accumulate scores in a scratch row of their own)
However the examples are assigned to the threads, in whatever order each thread processes its examples, whatever the scratch
rows contain initially, and however the steps of the threads interleave: if there is a scratch row for each thread, no
undefined behaviour occurs and each example gets the prediction `g (result i)`, where `result i` are the scores obtained by
applying the steps for this example, and only these, to a row of zeros. `numOutputs` is the number of outputs. -/
theorem parallel_prediction [Zero K] (steps : Nat → List (List K → Res (List K))) (g : List K → List B)
    (numExamples numOutputs : Nat) (result : Nat → List K)
    (hres : ∀ i < numExamples, (steps i).foldlM (fun s f => f s) (List.replicate numOutputs 0) = .ok (result i) ∧
      (result i).length = numOutputs)
    (assignment : List (List Nat)) (hassign : assignment.flatten.Perm (List.range numExamples))
    (m : Mem K B) (hscratch : assignment.length ≤ m.scores.length) (hrows : ∀ row ∈ m.scores, row.length = numOutputs)
    (hpreds : m.preds.length = numExamples)
    (trace : List (Nat × Action K B)) (htrace : IsExecution (predictForExample steps g) assignment trace) :
    ∃ m', execAll (trace.map Prod.snd) m = .ok m' ∧ ∀ i < numExamples, m'.preds[i]? = some (g (result i)) := by
  obtain ⟨hth, hpr⟩ := htrace
  have hnd : assignment.flatten.Nodup := hassign.symm.nodup List.nodup_range
  have hmem : ∀ (t : Nat) (e : List Nat), assignment[t]? = some e → ∀ i ∈ e, i < numExamples := by
    intro t e he i hi
    have : i ∈ assignment.flatten := List.mem_flatten.2 ⟨e, List.mem_of_getElem? he, hi⟩
    simpa using hassign.subset this
  -- every thread on its own
  have hal : ∀ t, ∃ m', execAll ((trace.filter (fun p => decide (p.1 = t))).map Prod.snd) m = .ok m' ∧
      ∀ e : List Nat, assignment[t]? = some e → ∀ i ∈ e, m'.preds[i]? = some (g (result i)) := by
    intro t
    cases he : assignment[t]? with
    | none =>
      have : trace.filter (fun p => decide (p.1 = t)) = [] := by
        rw [List.filter_eq_nil_iff]
        intro p hp
        have h1 := hth p hp
        have h2 := List.getElem?_eq_none_iff.1 he
        simp only [decide_eq_true_eq]
        omega
      rw [this]
      exact ⟨m, rfl, by simp⟩
    | some e =>
      have htlt : t < assignment.length := (List.getElem?_eq_some_iff.1 he).1
      have hlt : t < m.scores.length := by omega
      obtain ⟨m', h1, h2, _⟩ := execAll_scratch steps g numOutputs t result e m _ (List.getElem?_eq_getElem hlt)
        (hrows _ (List.getElem_mem hlt)) (fun i hi => by rw [hpreds]; exact hmem t e he i hi)
        (fun i hi => hres i (hmem t e he i hi))
      refine ⟨m', by rw [hpr t e he, h1], ?_⟩
      intro e' he' i hi
      cases he'
      exact h2 i hi
  choose final hfin hfin2 using hal
  obtain ⟨m', h1, h2⟩ := execAll_interleaved (R := fun t r => r = t)
    (P := fun t i => ∃ e, assignment[t]? = some e ∧ i ∈ e)
    (by rintro t u htu r rfl h; exact htu h)
    (by
      rintro t u htu i ⟨e, he, hi⟩ ⟨e', he', hi'⟩
      exact assignment_disjoint hnd htu he he' hi hi')
    final trace m (fun _ => m) (by
      intro p hp
      have hlt := hth p hp
      have hmem' : p.2 ∈ (trace.filter (fun q => decide (q.1 = p.1))).map Prod.snd :=
        List.mem_map.2 ⟨p, List.mem_filter.2 ⟨hp, by simp⟩, rfl⟩
      rw [hpr p.1 _ (List.getElem?_eq_getElem hlt)] at hmem'
      obtain ⟨i, hi, ha⟩ := List.mem_flatMap.1 hmem'
      simp only [predictForExample, List.cons_append, List.mem_cons, List.mem_append, List.mem_map,
        List.not_mem_nil, or_false, false_or] at ha
      rcases ha with ha | ha | ha
      · rw [ha]; exact rfl
      · obtain ⟨f, _, ha⟩ := ha
        rw [← ha]; exact rfl
      · rw [ha]; exact ⟨rfl, _, List.getElem?_eq_getElem hlt, hi⟩)
    (fun t => ⟨fun _ _ => rfl, fun _ _ => rfl⟩) hfin
  refine ⟨m', h1, ?_⟩
  intro i hi
  have : i ∈ assignment.flatten := hassign.symm.subset (by simpa using hi)
  obtain ⟨e, he, hie⟩ := List.mem_flatten.1 this
  obtain ⟨t, ht⟩ := List.mem_iff_getElem?.1 he
  rw [(h2 t).2 i ⟨e, ht, hie⟩]
  exact hfin2 t e ht i hie

/-- **C11.** (predictors that keep one row of scores per example, i.e. score predictors and incremental predictors) The same
without scratch rows: each example's scores and predictions are those obtained from its previous scores. -/
theorem parallel_prediction_in_place (steps : Nat → List (List K → Res (List K))) (g : List K → List B)
    (numExamples : Nat) (result : Nat → List K) (m : Mem K B)
    (hres : ∀ i < numExamples, ∃ row, m.scores[i]? = some row ∧ (steps i).foldlM (fun s f => f s) row = .ok (result i))
    (assignment : List (List Nat)) (hassign : assignment.flatten.Perm (List.range numExamples))
    (hpreds : m.preds.length = numExamples)
    (trace : List (Nat × Action K B)) (htrace : IsExecution (fun _ => predictForExampleInPlace steps g) assignment trace) :
    ∃ m', execAll (trace.map Prod.snd) m = .ok m' ∧
      ∀ i < numExamples, m'.preds[i]? = some (g (result i)) ∧ m'.scores[i]? = some (result i) := by
  obtain ⟨hth, hpr⟩ := htrace
  have hnd : assignment.flatten.Nodup := hassign.symm.nodup List.nodup_range
  have hmem : ∀ (t : Nat) (e : List Nat), assignment[t]? = some e → ∀ i ∈ e, i < numExamples := by
    intro t e he i hi
    have : i ∈ assignment.flatten := List.mem_flatten.2 ⟨e, List.mem_of_getElem? he, hi⟩
    simpa using hassign.subset this
  have hal : ∀ t, ∃ m', execAll ((trace.filter (fun p => decide (p.1 = t))).map Prod.snd) m = .ok m' ∧
      ∀ e : List Nat, assignment[t]? = some e → ∀ i ∈ e, m'.preds[i]? = some (g (result i)) ∧ m'.scores[i]? = some (result i) := by
    intro t
    cases he : assignment[t]? with
    | none =>
      have : trace.filter (fun p => decide (p.1 = t)) = [] := by
        rw [List.filter_eq_nil_iff]
        intro p hp
        have h1 := hth p hp
        have h2 := List.getElem?_eq_none_iff.1 he
        simp only [decide_eq_true_eq]
        omega
      rw [this]
      exact ⟨m, rfl, by simp⟩
    | some e =>
      obtain ⟨m', h1, h2, _⟩ := execAll_inPlace steps g result e m
        ((List.nodup_flatten.1 hnd).1 e (List.mem_of_getElem? he))
        (fun i hi => ⟨by rw [hpreds]; exact hmem t e he i hi, hres i (hmem t e he i hi)⟩)
      refine ⟨m', by rw [hpr t e he, h1], ?_⟩
      intro e' he' i hi
      cases he'
      exact h2 i hi
  choose final hfin hfin2 using hal
  obtain ⟨m', h1, h2⟩ := execAll_interleaved (R := fun t i => ∃ e, assignment[t]? = some e ∧ i ∈ e)
    (P := fun t i => ∃ e, assignment[t]? = some e ∧ i ∈ e)
    (by
      rintro t u htu i ⟨e, he, hi⟩ ⟨e', he', hi'⟩
      exact assignment_disjoint hnd htu he he' hi hi')
    (by
      rintro t u htu i ⟨e, he, hi⟩ ⟨e', he', hi'⟩
      exact assignment_disjoint hnd htu he he' hi hi')
    final trace m (fun _ => m) (by
      intro p hp
      have hlt := hth p hp
      have hmem' : p.2 ∈ (trace.filter (fun q => decide (q.1 = p.1))).map Prod.snd :=
        List.mem_map.2 ⟨p, List.mem_filter.2 ⟨hp, by simp⟩, rfl⟩
      rw [hpr p.1 _ (List.getElem?_eq_getElem hlt)] at hmem'
      obtain ⟨i, hi, ha⟩ := List.mem_flatMap.1 hmem'
      simp only [predictForExampleInPlace, List.mem_cons, List.mem_append, List.mem_map,
        List.not_mem_nil, or_false, false_or] at ha
      rcases ha with ⟨f, _, ha⟩ | ha
      · rw [← ha]; exact ⟨_, List.getElem?_eq_getElem hlt, hi⟩
      · rw [ha]; exact ⟨⟨_, List.getElem?_eq_getElem hlt, hi⟩, _, List.getElem?_eq_getElem hlt, hi⟩)
    (fun t => ⟨fun _ _ => rfl, fun _ _ => rfl⟩) hfin
  refine ⟨m', h1, ?_⟩
  intro i hi
  have : i ∈ assignment.flatten := hassign.symm.subset (by simpa using hi)
  obtain ⟨e, he, hie⟩ := List.mem_flatten.1 this
  obtain ⟨t, ht⟩ := List.mem_iff_getElem?.1 he
  rw [(h2 t).2 i ⟨e, ht, hie⟩, (h2 t).1 i ⟨e, ht, hie⟩]
  exact hfin2 t e ht i hie

/-- The steps for an example that adds its index to its score. -/
private def exampleSteps (i : Nat) : List (List Nat → Res (List Nat)) := [fun row => .ok (row.map (fun x => x + i))]

/-- Instance: two threads, three examples, an execution in which the threads' steps alternate. -/
example : ∃ m', execAll ([(1, .rowStep 1 (fun row => .ok (row.map (fun _ => 0)))),
      (0, .rowStep 0 (fun row => .ok (row.map (fun _ => 0)))), (1, .rowStep 1 (fun row => .ok (row.map (fun x => x + 1)))),
      (1, .transform 1 id 1), (0, .rowStep 0 (fun row => .ok (row.map (fun x => x + 2)))), (0, .transform 0 id 2),
      (0, .rowStep 0 (fun row => .ok (row.map (fun _ => 0)))), (0, .rowStep 0 (fun row => .ok (row.map (fun x => x + 0)))),
      (0, .transform 0 id 0)].map Prod.snd) (⟨[[7], [8]], [[5], [5], [5]]⟩ : Mem Nat Nat) = .ok m' ∧
    ∀ i < 3, m'.preds[i]? = some (id [i]) :=
  parallel_prediction exampleSteps id 3 1 (fun i => [i])
    (by intro i _; refine ⟨?_, rfl⟩; show Except.ok [0 + i] = _; rw [Nat.zero_add])
    [[2, 0], [1]] (by decide) _ (by decide) (by decide) (by decide) _ (by
      refine ⟨by simp, ?_⟩
      intro t e he
      match t with
      | 0 => cases he; rfl
      | 1 => cases he; rfl
      | t + 2 => simp at he)

/-- `threadIndex` if multi-threading support is disabled at compile time, predictor_common.hpp:84. -/
def threadIndexWithoutMultiThreading : Nat := 1

/-- The number of scratch rows in this case: `numThreads`, which is `1` according to threads.hpp:32-39. -/
def numScratchRowsWithoutMultiThreading : Nat := 1

/-- C11, negative part: if multi-threading support is disabled at compile time, the scratch row of the only thread does not
exist, i.e. predicting for any example is undefined behaviour. -/
theorem no_scratch_row_without_multi_threading [Zero K] (steps : Nat → List (List K → Res (List K))) (g : List K → List B)
    (i : Nat) (m : Mem K B) (h : m.scores.length = numScratchRowsWithoutMultiThreading) :
    execAll (predictForExample steps g threadIndexWithoutMultiThreading i) m = .error .outOfBounds := by
  have h1 : m.scores[1]? = none := List.getElem?_eq_none_iff.2 (by simp [h, numScratchRowsWithoutMultiThreading])
  simp [predictForExample, execAll, Action.exec, readAt, threadIndexWithoutMultiThreading, h1, error_bind]

end MLRL.Predictor
