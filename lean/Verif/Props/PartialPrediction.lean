import Verif.Lemma.PartialPrediction
import Mathlib.Data.List.Sort

/-!
# C50: sorting partial predictions
-/

namespace MLRL.Refinement

open Spec

variable {K : Type}

/-- **C50.** Resizing a vector does not affect its elements, as far as they still fit into the vector. -/
theorem resize_keeps {α : Type} (v : ResizableVector α) (n : Nat) (b : Bool) (i : Nat) (hi : i < n) (hc : i < v.cells.length) :
    (v.resize n b).cells[i]? = v.cells[i]? := by
  have h : ∀ m, i < m → (reallocate v.cells m)[i]? = v.cells[i]? := by
    intro m hm
    unfold reallocate
    rw [List.getElem?_append_left (by rw [List.length_take]; omega), List.getElem?_take_of_lt hm]
  unfold ResizableVector.resize
  split
  · cases b
    · rfl
    · exact h n hi
  · split
    · exact h n hi
    · rfl

/-- **C50.** Sorting a partial prediction yields outputs in increasing order, each with the score it had before; nothing is out of bounds or not
initialised. If the prediction is marked as sorted, its outputs must be in order. -/
theorem sort_spec (sort : List (Nat × K) → List (Nat × K)) (hsort : SortsByIndex sort) (p : PartialPrediction K) (es : List (Nat × K))
    (h : Holds p es) (hflag : p.sorted = true → es.Pairwise (fun a b => a.1 ≤ b.1)) :
    ∃ q es', p.sort sort = .ok q ∧ Holds q es' ∧ q.sorted = true ∧ es'.Perm es ∧ es'.Pairwise (fun a b => a.1 ≤ b.1) := by
  unfold PartialPrediction.sort
  cases hs : p.sorted with
  | true => exact ⟨p, es, rfl, h, hs, List.Perm.refl _, hflag hs⟩
  | false =>
    simp only [Bool.not_false, if_true]
    unfold PartialPrediction.sortEntries
    rw [h.numValues]
    by_cases hn : es.length > 1
    · rw [if_pos hn, collect_spec h, ok_bind]
      obtain ⟨q, h1, h2, h3⟩ := store_spec (es' := sort es) h (hsort.perm es).length_eq
      rw [h1, ok_bind]
      exact ⟨_, sort es, rfl, ⟨h2.numValues, h2.numIndices, h2.eachValue, h2.eachIndex, h2.capacity⟩, rfl, hsort.perm es, hsort.ordered es⟩
    · rw [if_neg hn, ok_bind]
      refine ⟨_, es, rfl, ⟨h.numValues, h.numIndices, h.eachValue, h.eachIndex, h.capacity⟩, rfl, List.Perm.refl _, ?_⟩
      match es, hn with
      | [], _ => exact List.Pairwise.nil
      | [e], _ => exact List.pairwise_singleton _ _
      | _ :: _ :: _, hn => simp at hn

/-- **C50.** If the outputs are distinct, the result of sorting is unique. -/
theorem sort_unique {es es1 es2 : List (Nat × K)} (hd : (es.map Prod.fst).Nodup) (p1 : es1.Perm es) (p2 : es2.Perm es)
    (s1 : es1.Pairwise (fun a b => a.1 ≤ b.1)) (s2 : es2.Pairwise (fun a b => a.1 ≤ b.1)) : es1 = es2 := by
  have hstrict : ∀ {l : List (Nat × K)}, l.Perm es → l.Pairwise (fun a b => a.1 ≤ b.1) → l.Pairwise (fun a b => a.1 < b.1) := by
    intro l hp hs
    have hnd : (l.map Prod.fst).Nodup := (hp.map Prod.fst).nodup_iff.mpr hd
    have hnd' : l.Pairwise (fun a b => a.1 ≠ b.1) := List.pairwise_map.mp hnd
    exact (hs.and hnd').imp (fun h => by omega)
  exact List.Perm.eq_of_pairwise (le := fun a b => a.1 < b.1) (fun a b _ _ h1 h2 => absurd h1 (by omega)) (hstrict p1 s1) (hstrict p2 s2)
    (p1.trans p2.symm)

/-- **C50.** Copying the scores of a score vector to an existing head (of any size, with arbitrary content) or to a new head yields exactly the outputs
and scores of the score vector. -/
theorem process_spec (existing : Option (PartialPrediction K)) (hcap : ∀ p, existing = some p → p.values.numElements ≤ p.values.cells.length ∧
      p.indices.numElements ≤ p.indices.cells.length ∧ p.values.numElements = p.indices.numElements) (s : ScoreVector K)
    (hs : ScoreVector.Valid s) :
    ∃ q, processPartialScores existing s = .ok q ∧ Holds q (ScoreVector.entries s) ∧ q.sorted = s.sorted :=
  process_holds existing hcap hs.1

/-- A prediction and the sequence of outputs it stands for, if any. -/
def Related (p : Option (PartialPrediction K)) (es : Option (List (Nat × K))) : Prop :=
  match p, es with
  | none, none => True
  | some p, some es => Holds p es ∧ (p.sorted = true → es.Pairwise (fun a b => a.1 ≤ b.1))
  | _, _ => False

theorem pairwise_fst {es : List (Nat × K)} : es.Pairwise (fun a b => a.1 ≤ b.1) ↔ (es.map Prod.fst).Pairwise (· ≤ ·) := List.pairwise_map.symm

theorem runCalls_related (sort : List (Nat × K) → List (Nat × K)) (hsort : SortsByIndex sort) (calls : List (HeadCall K)) :
    ∀ (p : Option (PartialPrediction K)) (es : Option (List (Nat × K))), Related p es → ValidCalls calls (es.map List.length) →
    ∃ q es', runCalls sort calls p = .ok q ∧ Effects calls es es' ∧ Related q es' := by
  induction calls with
  | nil => intro p es h _; exact ⟨p, es, rfl, .nil es, h⟩
  | cons call calls ih =>
    intro p es h hv
    suffices hstep : ∃ q es', call.apply sort p = .ok (some q) ∧ Effect call es es' ∧ Related (some q) (some es') ∧
        ValidCalls calls (some es'.length) by
      obtain ⟨q, es', h1, h2, h3, h4⟩ := hstep
      obtain ⟨r, es'', g1, g2, g3⟩ := ih (some q) (some es') h3 h4
      refine ⟨r, es'', ?_, .cons call calls es es' es'' h2 g2, g3⟩
      unfold runCalls
      rw [h1, ok_bind, g1]
    cases call with
    | process s =>
      simp only [ValidCalls] at hv
      obtain ⟨q, h1, h2, h3⟩ := process_holds p (by
        rintro p' rfl
        cases es with
        | none => exact h.elim
        | some es =>
          have hh := h.1
          exact ⟨hh.capacity.1, hh.capacity.2, by rw [hh.numValues, hh.numIndices]⟩) hv.1.1
      refine ⟨q, ScoreVector.entries s, ?_, .process s es, ⟨h2, ?_⟩, ?_⟩
      · simp only [HeadCall.apply]
        rw [h1, ok_bind]
        rfl
      · intro hs
        rw [h3] at hs
        rw [pairwise_fst, ScoreVector.entries, List.map_fst_zip (by rw [hv.1.1])]
        exact hv.1.2 hs
      · have : (ScoreVector.entries s).length = s.indices.length := by simp [ScoreVector.entries, hv.1.1]
        rw [this]
        exact hv.2
    | sort =>
      match p, es, h, hv with
      | some p, some es, h, hv =>
        obtain ⟨q, es', h1, h2, h3, h4, h5⟩ := sort_spec sort hsort p es h.1 h.2
        refine ⟨q, es', ?_, .sort es es' h4 h5, ⟨h2, fun _ => h5⟩, ?_⟩
        · simp only [HeadCall.apply]
          rw [h1, ok_bind]
          rfl
        · rw [h4.length_eq]
          exact hv
    | set values =>
      match p, es, h, hv with
      | some p, some es, h, hv =>
        simp only [Option.map_some, ValidCalls] at hv
        obtain ⟨q, h1, h2, h3⟩ := set_holds h.1 hv.1
        refine ⟨q, _, ?_, .set es values hv.1, ⟨h2, ?_⟩, ?_⟩
        · simp only [HeadCall.apply]
          rw [h1, ok_bind]
          rfl
        · intro hs
          rw [h3] at hs
          rw [pairwise_fst, List.map_fst_zip (by simpa using hv.1), ← pairwise_fst]
          exact h.2 hs
        · have : ((es.map Prod.fst).zip values).length = es.length := by simp [hv.1]
          rw [this]
          exact hv.2
    | postProcess f =>
      match p, es, h, hv with
      | some p, some es, h, hv =>
        obtain ⟨q, h1, h2, h3⟩ := postProcess_holds h.1 f
        refine ⟨q, _, ?_, .postProcess es f, ⟨h2, ?_⟩, ?_⟩
        · simp only [HeadCall.apply]
          rw [h1, ok_bind]
          rfl
        · intro hs
          rw [h3] at hs
          rw [pairwise_fst, List.map_map, show (Prod.fst ∘ fun e : Nat × K => (e.1, f e.2)) = Prod.fst from rfl, ← pairwise_fst]
          exact h.2 hs
        · rw [List.length_map]
          exact hv

/-- **C50.** During an arbitrary sequence of calls (copying scores of different sizes to the same head, sorting, updating scores, post-processing),
scores remain with their outputs: each call has the effect it should have on the sequence of outputs and scores. -/
theorem calls_spec (sort : List (Nat × K) → List (Nat × K)) (hsort : SortsByIndex sort) (calls : List (HeadCall K))
    (hv : ValidCalls calls none) : ∃ q es, runCalls sort calls none = .ok q ∧ Effects calls none es ∧
      (∀ p, q = some p → ∃ l, es = some l ∧ Holds p l) := by
  obtain ⟨q, es, h1, h2, h3⟩ := runCalls_related sort hsort calls none none trivial hv
  refine ⟨q, es, h1, h2, ?_⟩
  rintro p rfl
  match es, h3 with
  | some l, h3 => exact ⟨l, rfl, h3.1⟩

/-- An implementation of `std::sort`. -/
def exampleSort (l : List (Nat × Int)) : List (Nat × Int) := l.insertionSort (fun a b => a.1 ≤ b.1)

theorem exampleSort_sorts : SortsByIndex exampleSort :=
  ⟨fun l => List.perm_insertionSort _ l, fun l => by
    haveI : Std.Total (fun a b : Nat × Int => a.1 ≤ b.1) := ⟨fun a b => Nat.le_total a.1 b.1⟩
    haveI : IsTrans (Nat × Int) (fun a b => a.1 ≤ b.1) := ⟨fun _ _ _ => Nat.le_trans⟩
    exact List.pairwise_insertionSort _ l⟩

example : ValidCalls (K := Int) [.process ⟨[4], [9], true⟩, .process ⟨[5, 2, 7], [50, 20, 70], false⟩, .sort, .postProcess (· + 1)] none := by
  simp [ValidCalls, ScoreVector.Valid]

example : runCalls exampleSort [.process ⟨[4], [9], true⟩, .process ⟨[5, 2, 7], [50, 20, 70], false⟩, .sort, .postProcess (· + 1)] none =
    .ok (some ⟨⟨[some 21, some 51, some 71], 3⟩, ⟨[some 2, some 5, some 7], 3⟩, true⟩) := by decide +kernel

/-- If a score vector claims to be sorted but is not, `sort` does not have any effect. -/
theorem sort_wrong_flag : ∃ s : ScoreVector Int, ¬ ScoreVector.Valid s ∧
    runCalls exampleSort [.process s, .sort] none = .ok (some ⟨⟨[some 9, some 1], 2⟩, ⟨[some 4, some 3], 2⟩, true⟩) :=
  ⟨⟨[4, 3], [9, 1], true⟩, by simp [ScoreVector.Valid], by decide +kernel⟩

end MLRL.Refinement
