import Verif.Props.TrainingTermination
import Verif.Props.TrainingLoss

/-! # Lemmas on the termination of boosting algorithms -/

namespace MLRL.Boosting

open Predictor Induction Refinement RuleEval TrainingLoss

section
variable {σ K T : Type} [Field K] [LinearOrder K] [IsStrictOrderedRing K]

/-- A rule evaluation does not fail if there is at least one output. -/
def TotalEvaluation (evaluation : Evaluation K) : Prop :=
  ∀ all outputs stats, outputs ≠ [] → outputs.length = stats.length → ∃ scores, evaluation.calculateScores all outputs stats = .ok scores

omit [IsStrictOrderedRing K] in
theorem complete_total (l1 l2 : K) (scratch : List Nat → List K) (h : ∀ outputs, (scratch outputs).length = outputs.length) :
    TotalEvaluation (completeEvaluation l1 l2 scratch) := by
  intro all outputs stats _ hl
  exact ⟨_, complete_ok l1 l2 outputs (scratch outputs) stats (by rw [h, hl])⟩

theorem single_total (l1 l2 : K) : TotalEvaluation (singleEvaluation l1 l2) := by
  intro all outputs stats hne hl
  obtain ⟨_, _, _, _, _, h, _⟩ := single_ok l1 l2 outputs stats (by rintro rfl; exact hne (List.length_eq_zero_iff.1 hl)) hl
  exact ⟨_, h⟩

theorem fixed_total {partialSort : Nat → List (Nat × K) → List (Nat × K)} (l1 l2 : K) {tmp : List Nat → List (Nat × K)}
    {indices : List Nat → List Nat} {scratch scratch' : List Nat → List K} (ht : ∀ outputs, outputs.length ≤ (tmp outputs).length)
    (hv : ∀ outputs, (scratch outputs).length = (indices outputs).length) (hk : ∀ outputs, (indices outputs).length ≤ outputs.length)
    (hs : ∀ k l, PartiallySorted k l (partialSort k l)) (hv' : ∀ outputs, (scratch' outputs).length = outputs.length) :
    TotalEvaluation (fixedEvaluation partialSort l1 l2 tmp indices scratch scratch') := by
  intro all outputs stats hne hl
  cases all with
  | false => exact complete_total l1 l2 scratch' hv' false outputs stats hne hl
  | true =>
  obtain ⟨_, _, h, _⟩ := fixed_ok (partialSort := partialSort) l1 l2 outputs (tmp outputs) (indices outputs)
    (scratch outputs) stats hl (by rw [← hl]; exact ht _) (hv _) (by rw [← hl]; exact hk _) (hs _)
  exact ⟨_, h⟩

theorem dynamic_total (pow : K → K) (threshold l1 l2 : K) {indices : List Nat → List Nat} {scratch : List Nat → List K}
    (hi : ∀ outputs, (indices outputs).length = outputs.length) (hv : ∀ outputs, (scratch outputs).length = outputs.length) :
    TotalEvaluation (dynamicEvaluation pow threshold l1 l2 indices scratch) := by
  intro all outputs stats hne hl
  cases all with
  | false => exact complete_total l1 l2 scratch hv false outputs stats hne hl
  | true =>
  obtain ⟨_, _, _, h⟩ := dynamic_ok pow threshold l1 l2 outputs (indices outputs) (scratch outputs) stats
    (by rintro rfl; exact hne (List.length_eq_zero_iff.1 hl)) hl (by rw [hi, hl]) (by rw [hv, hl])
  exact ⟨_, h⟩

theorem mapM_total {α β : Type} {f : α → Res β} : ∀ {l : List α}, (∀ a ∈ l, ∃ b, f a = .ok b) → ∃ r, l.mapM f = .ok r
  | [], _ => ⟨[], rfl⟩
  | a :: l, h => by
    obtain ⟨b, hb⟩ := h a List.mem_cons_self
    obtain ⟨r, hr⟩ := mapM_total (l := l) (fun a ha => h a (List.mem_cons_of_mem _ ha))
    exact ⟨b :: r, by rw [List.mapM_cons, hb, ok_bind, hr, ok_bind]; rfl⟩

omit [LinearOrder K] [IsStrictOrderedRing K] in
theorem outputStats_total {n : Nat} {outputs : List Nat} (h : ∀ j ∈ outputs, j < n) (sums : Nat → K × K) :
    outputStats n outputs sums = .ok (outputs.map (fun j => ⟨(sums j).1, (sums j).2⟩)) := by
  obtain ⟨stats, hst⟩ := mapM_total (l := outputs)
    (f := fun j => if j < n then (.ok ⟨(sums j).1, (sums j).2⟩ : Res (Stat K)) else .error .outOfBounds)
    (fun j hj => ⟨_, if_pos (h j hj)⟩)
  have hst : outputStats n outputs sums = .ok stats := hst
  rw [hst, (outputStats_ok hst).2]

/-- The statistics of an output. -/
def statOf (sums : Nat → K × K) (j : Nat) : Stat K := ⟨(sums j).1, (sums j).2⟩

/-- The quality that results from a rule evaluation, in terms of the outputs that are predicted. -/
theorem scores_quality {l1 l2 : K} {evaluation : Evaluation K} (he : Scoring l1 l2 evaluation) {n : Nat} {all : Bool} {outputs : List Nat}
    {sums : Nat → K × K} {stats : List (Stat K)} (hst : outputStats n outputs sums = .ok stats) {scores : ScoreVector K}
    (hs : evaluation.calculateScores all outputs stats = .ok scores) :
    (∀ j ∈ scores.indices, j ∈ outputs ∧ j < n) ∧ (outputs.Nodup → scores.indices.Nodup) ∧ scores.values.length = scores.indices.length ∧
      scores.quality = (scores.indices.map (fun j => (statOf sums j).quality l1 l2 ((statOf sums j).score l1 l2))).sum ∧
      (evaluation.complete = true → scores.indices = outputs) := by
  obtain ⟨hlt, rfl⟩ := outputStats_ok hst
  obtain ⟨chosen, c1, c2, c3, c4, c5, c6⟩ := he all outputs _ scores (by simp) hs
  have hmem : ∀ c ∈ chosen, c.1 ∈ outputs ∧ c.2 = statOf sums c.1 := by
    intro c hc
    have := c1 c hc
    rw [List.zip_map_right, List.mem_map] at this
    obtain ⟨⟨a, b⟩, g1, rfl⟩ := this
    have g2 : a = b := by
      obtain ⟨i, hi⟩ := List.mem_iff_getElem?.1 g1
      rw [List.getElem?_zip_eq_some] at hi
      rw [hi.1] at hi
      exact Option.some.inj hi.2
    subst g2
    exact ⟨(List.of_mem_zip g1).1, rfl⟩
  refine ⟨?_, ?_, by rw [c3, c4]; simp, ?_, c6⟩
  · intro j hj
    rw [c3] at hj
    obtain ⟨c, hc, rfl⟩ := List.mem_map.1 hj
    exact ⟨(hmem c hc).1, hlt _ (hmem c hc).1⟩
  · intro hnd
    rw [c3]
    exact c2 hnd
  · rw [c5, c3, List.map_map]
    refine congrArg List.sum (List.map_congr_left (fun c hc => ?_))
    simp only [Function.comp]
    rw [(hmem c hc).2]

/-- The number of outputs that are predicted by a head. -/
def headSize : Head K → Nat
  | .complete values => values.length
  | .partial_ entries => entries.length

omit [Field K] [LinearOrder K] [IsStrictOrderedRing K] in
theorem headSize_sortHead (h : Head K) : headSize (sortHead h) = headSize h := by
  cases h with
  | complete values => rfl
  | partial_ entries => exact (List.perm_insertionSort _ _).length_eq

omit [Field K] [LinearOrder K] [IsStrictOrderedRing K] in
theorem headSize_headOf {isComplete : Bool} {scores : ScoreVector K} (h : scores.values.length = scores.indices.length) :
    headSize (headOf isComplete scores) = scores.indices.length := by
  unfold headOf
  split
  · exact h
  · simp [headSize, h]

/-- The sum of the statistics of the examples that are covered by a subspace. -/
def coveredStats (numExamples : Nat) (covers : Nat → Bool) (stat : Nat → Nat → K × K) : Nat → K × K :=
  ∑ e ∈ Finset.range numExamples, if covers e then stat e else 0

/-- A measure that decreases whenever a rule is refined: primarily, the number of covered examples, and secondarily, the number of outputs that are
predicted. -/
def growSize (covers : σ → Nat → Bool) (numExamples n : Nat) (chosen : List (Scored (Found Condition (Head K)) K)) (s : σ) : Nat :=
  ((List.range numExamples).filter (covers s)).length * (n + 2) +
    match chosen.getLast? with
    | none => n + 1
    | some x => headSize x.refinement.head

/-- Searches are restricted to outputs that exist, each of which occurs only once, and there is at least one of them. -/
def Restricts (n : Nat) (h : Head K) : Prop := Distinct n h ∧ headSize h ≠ 0

theorem searchOutputs_good {n : Nat} (hn : 0 < n) {sampled : Option (List Nat)}
    (hs : ∀ l, sampled = some l → l.Nodup ∧ l ≠ [] ∧ ∀ j ∈ l, j < n) {o : Option (Head K)} (ho : ∀ h, o = some h → Restricts n h) :
    (searchOutputs n sampled o).1 ≠ [] ∧ (searchOutputs n sampled o).1.Nodup ∧ (∀ j ∈ (searchOutputs n sampled o).1, j < n) ∧
      ((searchOutputs n sampled o).2 = true → (searchOutputs n sampled o).1 = List.range n) := by
  have hrange : List.range n ≠ [] := by
    intro h
    have := congrArg List.length h
    simp at this
    omega
  cases o with
  | none =>
    cases sampled with
    | none => exact ⟨hrange, List.nodup_range, fun j hj => List.mem_range.1 hj, fun _ => rfl⟩
    | some l =>
      obtain ⟨h1, h2, h3⟩ := hs l rfl
      exact ⟨h2, h1, h3, fun h => by cases h⟩
  | some h =>
    cases h with
    | complete values => exact ⟨hrange, List.nodup_range, fun j hj => List.mem_range.1 hj, fun _ => rfl⟩
    | partial_ entries =>
      obtain ⟨h1, h2⟩ := ho _ rfl
      refine ⟨?_, h1.2, ?_, fun h => by cases h⟩
      · intro h
        have := congrArg List.length h
        simp only [searchOutputs, List.length_map, List.length_nil] at this
        exact h2 this
      · intro j hj
        obtain ⟨e, he, rfl⟩ := List.mem_map.1 hj
        exact h1.1 e he

/-- If a search is restricted to the outputs of a head, these are the outputs that have been predicted. -/
theorem searchOutputs_restricted {n : Nat} {sampled : Option (List Nat)} {evaluation : Evaluation K} {outputs : List Nat × Bool}
    (hall : outputs.2 = true → outputs.1 = List.range n) {scores : ScoreVector K} (hlen : scores.values.length = scores.indices.length)
    (hc : evaluation.complete = true → scores.indices = outputs.1) :
    (searchOutputs n sampled (some (sortHead (headOf (evaluation.complete && outputs.2) scores)))).1.Perm scores.indices := by
  unfold headOf
  split
  · rename_i h
    rw [Bool.and_eq_true] at h
    rw [hc h.1, hall h.2]
    exact List.Perm.refl _
  · simp only [sortHead, searchOutputs]
    refine ((List.perm_insertionSort _ _).map _).trans ?_
    rw [List.map_fst_zip (by omega)]

theorem sum_sub_perm {f : Nat → K} {a b c : List Nat} (hb : b.Nodup) (ha : a.Perm c) (hsub : ∀ j ∈ b, j ∈ a) (hlen : c.length ≤ b.length)
    : (b.map f).sum = (c.map f).sum := by
  have hp : b.Perm a := List.Subperm.perm_of_length_le (hb.subperm hsub) (by rw [ha.length_eq]; exact hlen)
  exact ((hp.trans ha).map f).sum_eq

end

end MLRL.Boosting
