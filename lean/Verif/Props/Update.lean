import Verif.Lemma.Update
import Mathlib.Tactic.Abel

/-!
# C22: applying and reverting predictions
-/

namespace MLRL.Update

open Predictor Predictor.Spec

variable {K R S : Type}

/-- **C22**: for any schedule of the threads, a call to `applyPrediction` or `revertPrediction` succeeds, adds the prediction to (or
subtracts it from) the scores of exactly those examples that are covered according to the mask, and keeps the statistics consistent. -/
theorem exec_exact [AddCommGroup K] {ops : Ops K R S} {n : Nat} {Valid : R → Prop} {value : R → Nat → K}
    {Consistent : Nat → R → S → Prop} (laws : Laws ops n Valid value Consistent) (call : Call K) (hf : Fits n call.head)
    (cells : List (Cell R S)) (hcells : ∀ i c, cells[i]? = some c → CellOk Valid Consistent i c)
    (trace : List (Nat × (Cell R S → Res (Cell R S)))) (ht : Refinement.Interleaving (call.tasks ops cells.length) trace) :
    ∃ cells', exec trace cells = .ok cells' ∧ cells'.length = cells.length ∧
      ∀ i c, cells[i]? = some c → ∃ c', cells'[i]? = some c' ∧ CellOk Valid Consistent i c' ∧
        (call.mask i = false → c' = c) ∧ ∀ j < n, value c'.scores j = value c.scores j + call.effect i j := by
  have hstep : ∀ i (hi : i < cells.length), ∃ c',
      (if call.mask i then steps ops call.head call.revert i else []).foldlM (cellOps R S).consider cells[i] = .ok c' ∧
      CellOk Valid Consistent i c' ∧ (call.mask i = false → c' = cells[i]) ∧
        ∀ j < n, value c'.scores j = value cells[i].scores j + call.effect i j := by
    intro i hi
    have hc := hcells i _ (List.getElem?_eq_getElem hi)
    cases hm : call.mask i with
    | false => exact ⟨cells[i], rfl, hc, fun _ => rfl, by simp [Call.effect, hm]⟩
    | true =>
      obtain ⟨c', h1, h2, h3⟩ := steps_ok laws hf call.revert i hc
      exact ⟨c', by simpa using h1, h2, (fun h => by cases h), by simpa [Call.effect, hm] using h3⟩
  choose final hfinal using hstep
  refine ⟨List.ofFn (fun i : Fin cells.length => final i.1 i.2), ?_, by simp, ?_⟩
  · unfold exec
    apply Refinement.execTrace_spec
    · simp
    · simpa [Call.tasks] using ht.1
    · intro i c c' hi hi'
      obtain ⟨hlt, rfl⟩ := List.getElem?_eq_some_iff.1 hi
      have htask : (call.tasks ops cells.length)[i]? = some (if call.mask i then steps ops call.head call.revert i else []) := by
        simp [Call.tasks, hlt]
      rw [ht.2 i _ htask, (hfinal i hlt).1]
      rw [List.getElem?_ofFn, dif_pos hlt] at hi'
      exact congrArg Except.ok (Option.some.inj hi')
  · intro i c hi
    obtain ⟨hlt, rfl⟩ := List.getElem?_eq_some_iff.1 hi
    refine ⟨final i hlt, ?_, (hfinal i hlt).2⟩
    rw [List.getElem?_ofFn, dif_pos hlt]

/-- **C22** for sequences of calls: each score is the initial one plus the predictions that have been applied and minus those that have
been reverted. -/
theorem executes_sum [AddCommGroup K] {ops : Ops K R S} {n : Nat} {Valid : R → Prop} {value : R → Nat → K}
    {Consistent : Nat → R → S → Prop} (laws : Laws ops n Valid value Consistent) {m : Nat} {calls : List (Call K)}
    {cells cells' : List (Cell R S)} (h : Executes ops m calls cells cells') (hm : cells.length = m)
    (hf : ∀ call ∈ calls, Fits n call.head) (hcells : ∀ i c, cells[i]? = some c → CellOk Valid Consistent i c) :
    cells'.length = m ∧ ∀ i c, cells[i]? = some c → ∃ c', cells'[i]? = some c' ∧ CellOk Valid Consistent i c' ∧
      ∀ j < n, value c'.scores j = value c.scores j + (calls.map (fun call => call.effect i j)).sum := by
  induction h with
  | nil => exact ⟨hm, fun i c hi => ⟨c, hi, hcells i c hi, by simp⟩⟩
  | @cons call calls trace cells cells' cells'' ht he _ ih =>
    subst hm
    obtain ⟨cells1, h1, h2, h3⟩ := exec_exact laws call (hf call List.mem_cons_self) cells hcells trace ht
    rw [he] at h1
    cases h1
    obtain ⟨g1, g2⟩ := ih h2 (fun c hc => hf c (List.mem_cons_of_mem _ hc)) (by
      intro i c' hi
      have hlt := (List.getElem?_eq_some_iff.1 hi).1
      obtain ⟨c1, k1, k2, _⟩ := h3 i _ (List.getElem?_eq_getElem (by omega : i < cells.length))
      rw [hi] at k1
      cases k1
      exact k2)
    refine ⟨g1, fun i c hi => ?_⟩
    obtain ⟨c1, k1, _, _, k4⟩ := h3 i c hi
    obtain ⟨c2, l1, l2, l3⟩ := g2 i c1 k1
    refine ⟨c2, l1, l2, fun j hj => ?_⟩
    rw [l3 j hj, k4 j hj, List.map_cons, List.sum_cons, add_assoc]

/-- Sequences of calls can be executed by any schedule. -/
theorem executes_exists [AddCommGroup K] {ops : Ops K R S} {n : Nat} {Valid : R → Prop} {value : R → Nat → K}
    {Consistent : Nat → R → S → Prop} (laws : Laws ops n Valid value Consistent) (schedule : List (Call K) → List (Nat × (Cell R S → Res (Cell R S))))
    (m : Nat) (hs : ∀ call calls, Refinement.Interleaving (call.tasks ops m) (schedule (call :: calls))) (calls : List (Call K))
    (cells : List (Cell R S)) (hm : cells.length = m) (hf : ∀ call ∈ calls, Fits n call.head)
    (hcells : ∀ i c, cells[i]? = some c → CellOk Valid Consistent i c) : ∃ cells', Executes ops m calls cells cells' := by
  induction calls generalizing cells with
  | nil => exact ⟨cells, .nil⟩
  | cons call calls ih =>
    subst hm
    obtain ⟨cells1, h1, h2, h3⟩ := exec_exact laws call (hf call List.mem_cons_self) cells hcells _ (hs call calls)
    obtain ⟨cells2, g⟩ := ih cells1 h2 (fun c hc => hf c (List.mem_cons_of_mem _ hc)) (by
      intro i c' hi
      have hlt := (List.getElem?_eq_some_iff.1 hi).1
      obtain ⟨c1, k1, k2, _⟩ := h3 i _ (List.getElem?_eq_getElem (by omega : i < cells.length))
      rw [hi] at k1
      cases k1
      exact k2)
    exact ⟨cells2, .cons (hs call calls) h1 g⟩

/-- **C22**, reverting: if a prediction is applied and reverted later on, the scores are the same as if it had never been applied,
whatever is applied or reverted in between and whatever the schedules are. -/
theorem revert_cancels [AddCommGroup K] {ops : Ops K R S} {n : Nat} {Valid : R → Prop} {value : R → Nat → K}
    {Consistent : Nat → R → S → Prop} (laws : Laws ops n Valid value Consistent) {m : Nat} (mask : Nat → Bool) (head : Head K)
    (before between : List (Call K)) {cells with_ without : List (Cell R S)}
    (h1 : Executes ops m (before ++ [⟨mask, head, false⟩] ++ between ++ [⟨mask, head, true⟩]) cells with_)
    (h2 : Executes ops m (before ++ between) cells without) (hm : cells.length = m) (hh : Fits n head)
    (hf : ∀ call ∈ before ++ between, Fits n call.head) (hcells : ∀ i c, cells[i]? = some c → CellOk Valid Consistent i c) :
    ∀ i < m, ∃ c c', with_[i]? = some c ∧ without[i]? = some c' ∧ ∀ j < n, value c.scores j = value c'.scores j := by
  intro i hi
  obtain ⟨_, a2⟩ := executes_sum laws h1 hm (by
    intro call hc
    simp only [List.mem_append, List.mem_singleton] at hc hf
    rcases hc with ((hc | hc) | hc) | hc
    · exact hf call (Or.inl hc)
    · subst hc; exact hh
    · exact hf call (Or.inr hc)
    · subst hc; exact hh) hcells
  obtain ⟨_, b2⟩ := executes_sum laws h2 hm hf hcells
  have hc := List.getElem?_eq_getElem (by omega : i < cells.length)
  obtain ⟨c, c1, _, c3⟩ := a2 i _ hc
  obtain ⟨c', d1, _, d3⟩ := b2 i _ hc
  refine ⟨c, c', c1, d1, fun j hj => ?_⟩
  rw [c3 j hj, d3 j hj]
  simp only [List.map_append, List.map_cons, List.map_nil, List.sum_append, List.sum_cons, List.sum_nil, Call.effect]
  cases mask i <;> simp
  abel

/-- The laws hold for dense rows, provided that recalculating the statistics keeps them consistent. -/
theorem dense_laws [AddCommGroup K] (n : Nat) (refresh : Nat → Head K → List K → S → Res S) (Consistent : Nat → List K → S → Prop)
    (hr : ∀ i h r r' s, Fits n h → r.length = n → r'.length = n → Consistent i r s →
      (∀ j < n, contribution j h = 0 → denseValue r' j = denseValue r j) → ∃ s', refresh i h r' s = .ok s' ∧ Consistent i r' s') :
    Laws ⟨changeDense (· + ·), changeDense (· - ·), refresh⟩ n (fun r : List K => r.length = n) denseValue Consistent :=
  ⟨fun _ _ hf hv => addDense_ok hf hv, fun _ _ hf hv => removeDense_ok hf hv, hr⟩

/-- The laws hold for sparse rows. -/
theorem sparse_laws [AddCommGroup K] (n : Nat) (hn : n ≤ 2 ^ 32 - 1) (refresh : Nat → Head K → SparseSet K → S → Res S)
    (Consistent : Nat → SparseSet K → S → Prop)
    (hr : ∀ i h r r' s, Fits n h → ValidSparse n r → ValidSparse n r' → Consistent i r s →
      (∀ j < n, contribution j h = 0 → sparseValue r' j = sparseValue r j) → ∃ s', refresh i h r' s = .ok s' ∧ Consistent i r' s') :
    Laws ⟨addSparse n, removeSparse n, refresh⟩ n (ValidSparse n) sparseValue Consistent :=
  ⟨fun _ _ hf hv => addSparse_ok hn hf hv, fun _ _ hf hv => removeSparse_ok hn hf hv, hr⟩

/-- A complete prediction with too few values leaves the bounds of its array. -/
theorem complete_too_short : changeDense (· + ·) (.complete [1, 2]) ([0, 0, 0] : List Int) = .error .outOfBounds := by decide +kernel

/-! ### Example -/

/-- Dense rows of two scores; the statistics of an example are the sum of its scores plus its index. -/
def exOps : Ops Int (List Int) Int :=
  ⟨changeDense (· + ·), changeDense (· - ·), fun i _ r _ => .ok (r.sum + i)⟩

theorem exOps_laws : Laws exOps 2 (fun r : List Int => r.length = 2) denseValue (fun i r s => s = r.sum + i) :=
  dense_laws 2 _ _ (fun _ _ _ _ _ _ _ _ _ _ => ⟨_, rfl, rfl⟩)

/-- Three examples, of which the first and the last one are covered; the steps of the last one are executed in between those of the first
one. -/
example :
    Refinement.Interleaving (Call.tasks exOps ⟨fun i => i != 1, .partial_ [(1, 5)], false⟩ 3)
      [(0, (steps exOps (.partial_ [(1, 5)]) false 0)[0]), (2, (steps exOps (.partial_ [(1, 5)]) false 2)[0]),
        (2, (steps exOps (.partial_ [(1, 5)]) false 2)[1]), (0, (steps exOps (.partial_ [(1, 5)]) false 0)[1])] ∧
    exec [(0, (steps exOps (.partial_ [(1, 5)]) false 0)[0]), (2, (steps exOps (.partial_ [(1, 5)]) false 2)[0]),
        (2, (steps exOps (.partial_ [(1, 5)]) false 2)[1]), (0, (steps exOps (.partial_ [(1, 5)]) false 0)[1])]
      [⟨[1, 2], 3⟩, ⟨[0, 1], 2⟩, ⟨[7, 0], 9⟩] = .ok [⟨[1, 7], 8⟩, ⟨[0, 1], 2⟩, ⟨[7, 5], 14⟩] := by
  refine ⟨⟨by simp [Call.tasks], ?_⟩, by decide +kernel⟩
  intro i l hi
  rcases i with _ | _ | _ | i
  · cases hi; rfl
  · cases hi; rfl
  · cases hi; rfl
  · cases hi

end MLRL.Update
