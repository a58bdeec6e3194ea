import Verif.Spec.SecoEval
import Verif.Lemma.Coverage
import Verif.Lemma.Confusion
import Mathlib.Algebra.Order.BigOperators.Group.List
import Mathlib.Tactic.Linarith
import Mathlib.Tactic.FieldSimp
import Mathlib.Tactic.Ring

/-! # Lemmas about rule evaluation in the separate-and-conquer library -/

namespace MLRL.Seco

open Iterators Statistics

variable {K : Type} [Field K] [LinearOrder K]

theorem outputWiseQuality_eq (h : Heuristic K) (t c : Confusion K) : outputWiseQuality h t c = labelQuality h t c := rfl

theorem ofBool_not {majority : List Nat} (label : Nat) : (ofBool (!decide (label ∈ majority)) : K) = inverseMajority majority label := by
  unfold ofBool inverseMajority
  by_cases h : label ∈ majority <;> simp [h]

theorem take_map_succ {A B : Type} (l : List A) (f : A → B) (i : Nat) (h : i < l.length) : (l.take i).map f ++ [f l[i]] = (l.take (i + 1)).map f := by
  rw [List.take_succ, List.map_append, List.getElem?_eq_getElem h]
  rfl

/-- The position the iterator for the majority labels refers to never exceeds the next index. -/
theorem previous_le {indices : List Nat} (hi : indices.Pairwise (· < ·)) (i : Nat) (h : i < indices.length) {previous : Nat}
    (hp : previous = 0 ∨ ∃ (j : Nat) (hj : j < indices.length), j < i ∧ previous = indices[j]) : previous ≤ indices[i] := by
  rcases hp with rfl | ⟨j, hj, hji, rfl⟩
  · exact Nat.zero_le _
  · exact (List.pairwise_iff_getElem.1 hi j i hj h hji).le

theorem partialEntries_ok {h : Heuristic K} {majority indices : List Nat} {total covered : List (Confusion K)} {q : Nat → K}
    (hin : EvalInput h majority indices total covered q) : partialEntries h majority indices total covered =
      .ok (indices.map (fun label => { index := label, quality := q label, score := inverseMajority majority label })) := by
  unfold partialEntries
  obtain ⟨s, hs, g1, g2, g3⟩ := loop_rule (body := entryStep h indices total covered)
    (fun i (s : (BinarySparseForward × Nat) × List (SortedEntry K)) =>
      s.1.1 = iterate BinarySparseForward.next s.1.2 (BinarySparseForward.create majority 0) ∧
      (s.1.2 = 0 ∨ ∃ (j : Nat) (hj : j < indices.length), j < i ∧ s.1.2 = indices[j]) ∧
      s.2 = (indices.take i).map (fun label => { index := label, quality := q label, score := inverseMajority majority label }))
    indices.length ((BinarySparseForward.create majority 0, 0), [])
    ⟨rfl, Or.inl rfl, rfl⟩
    (fun i s hi ⟨g1, g2, g3⟩ => by
      obtain ⟨t, c, ht, hc, hq⟩ := hin.quality i hi
      refine ⟨((iterate BinarySparseForward.next indices[i] (BinarySparseForward.create majority 0), indices[i]),
        s.2 ++ [{ index := indices[i], quality := q indices[i], score := inverseMajority majority indices[i] }]), ?_, rfl,
        Or.inr ⟨i, hi, by omega, rfl⟩, ?_⟩
      · unfold entryStep
        rw [readAt_of_lt hi, ok_bind, g1, advance_ok (previous_le hin.indicesSorted i hi g2), ok_bind, readAt_of_getElem? ht, ok_bind,
          readAt_of_getElem? hc, ok_bind, pure_eq_ok, outputWiseQuality_eq, ← hq, LabelVectors.forward_iterate hin.majoritySorted, ofBool_not]
      · show s.2 ++ _ = _
        rw [g3, take_map_succ indices _ i hi])
  rw [hs, ok_bind, pure_eq_ok, g3, List.take_length]

theorem completeScores_ok {h : Heuristic K} {f : LiftFunction K} {majority indices : List Nat} {total covered : List (Confusion K)} {q : Nat → K}
    (hin : EvalInput h majority indices total covered q) : completeScores h f majority indices total covered =
      .ok { quality := liftedQuality f (indices.map q).sum indices.length, indices := indices, values := indices.map (inverseMajority majority) } := by
  unfold completeScores
  obtain ⟨s, hs, g1, g2, g3, g4⟩ := loop_rule (body := completeStep h indices total covered)
    (fun i (s : (BinarySparseForward × Nat) × (List K × K)) =>
      s.1.1 = iterate BinarySparseForward.next s.1.2 (BinarySparseForward.create majority 0) ∧
      (s.1.2 = 0 ∨ ∃ (j : Nat) (hj : j < indices.length), j < i ∧ s.1.2 = indices[j]) ∧
      s.2.1 = (indices.take i).map (inverseMajority majority) ∧ s.2.2 = ((indices.take i).map q).sum)
    indices.length ((BinarySparseForward.create majority 0, 0), ([], 0))
    ⟨rfl, Or.inl rfl, rfl, by simp⟩
    (fun i s hi ⟨g1, g2, g3, g4⟩ => by
      obtain ⟨t, c, ht, hc, hq⟩ := hin.quality i hi
      refine ⟨((iterate BinarySparseForward.next indices[i] (BinarySparseForward.create majority 0), indices[i]),
        (s.2.1 ++ [inverseMajority majority indices[i]], s.2.2 + q indices[i])), ?_, rfl, Or.inr ⟨i, hi, by omega, rfl⟩, ?_, ?_⟩
      · unfold completeStep
        rw [readAt_of_lt hi, ok_bind, g1, advance_ok (previous_le hin.indicesSorted i hi g2), ok_bind, readAt_of_getElem? ht, ok_bind,
          readAt_of_getElem? hc, ok_bind, pure_eq_ok, outputWiseQuality_eq, ← hq, LabelVectors.forward_iterate hin.majoritySorted, ofBool_not]
      · show s.2.1 ++ _ = _
        rw [g3, take_map_succ indices _ i hi]
      · show s.2.2 + _ = _
        rw [g4, ← take_map_succ indices q i hi, List.sum_append]
        simp)
  rw [hs, ok_bind, pure_eq_ok, g3, g4, List.take_length]

theorem majorityScores_ok {majority indices : List Nat} (hm : majority.Pairwise (· < ·)) (hi' : indices.Pairwise (· < ·)) :
    majorityScores (K := K) majority indices =
      .ok { quality := 0, indices := indices, values := indices.map (fun label => if label ∈ majority then 1 else 0) } := by
  unfold majorityScores
  obtain ⟨s, hs, g1, g2, g3⟩ := loop_rule (body := majorityStep (K := K) indices)
    (fun i (s : (BinarySparseForward × Nat) × List K) =>
      s.1.1 = iterate BinarySparseForward.next s.1.2 (BinarySparseForward.create majority 0) ∧
      (s.1.2 = 0 ∨ ∃ (j : Nat) (hj : j < indices.length), j < i ∧ s.1.2 = indices[j]) ∧
      s.2 = (indices.take i).map (fun label => if label ∈ majority then 1 else 0))
    indices.length ((BinarySparseForward.create majority 0, 0), [])
    ⟨rfl, Or.inl rfl, rfl⟩
    (fun i s hi ⟨g1, g2, g3⟩ => by
      refine ⟨((iterate BinarySparseForward.next indices[i] (BinarySparseForward.create majority 0), indices[i]),
        s.2 ++ [if indices[i] ∈ majority then 1 else 0]), ?_, rfl, Or.inr ⟨i, hi, by omega, rfl⟩, ?_⟩
      · unfold majorityStep
        rw [readAt_of_lt hi, ok_bind, g1, advance_ok (previous_le hi' i hi g2), ok_bind, pure_eq_ok, LabelVectors.forward_iterate hm]
        simp [ofBool]
      · show s.2 ++ _ = _
        rw [g3, ← take_map_succ indices _ i hi])
  rw [hs, ok_bind, pure_eq_ok, g3, List.take_length]

theorem output_ok {sorted : List (SortedEntry K)} {n : Nat} (hn : n ≤ sorted.length) : loop n (outputStep sorted) ([], []) =
    .ok ((sorted.take n).map SortedEntry.index, (sorted.take n).map SortedEntry.score) := by
  obtain ⟨s, hs, g⟩ := loop_rule (body := outputStep sorted)
    (fun i (s : List Nat × List K) => s = ((sorted.take i).map SortedEntry.index, (sorted.take i).map SortedEntry.score)) n ([], []) rfl
    (fun i s hi g => by
      subst g
      refine ⟨_, ?_, rfl⟩
      unfold outputStep
      rw [readAt_of_lt (by omega), ok_bind, pure_eq_ok, ← take_map_succ sorted _ i (by omega), ← take_map_succ sorted _ i (by omega)])
  rw [hs, g]

/-! ### The best heads of a certain size -/

section Ordered

variable [IsStrictOrderedRing K]

theorem sum_take_cons {a : K} {l : List K} (h : (a :: l).Pairwise (fun x y => y ≤ x)) (k : Nat) (hk : k ≤ l.length) :
    (l.take k).sum ≤ ((a :: l).take k).sum := by
  cases k with
  | zero => simp
  | succ k =>
    rw [List.take_succ_cons, List.sum_cons, List.take_succ, List.getElem?_eq_getElem (show k < l.length from hk), List.sum_append, add_comm]
    refine add_le_add_left ?_ _
    have := (List.pairwise_cons.1 h).1 l[k] (List.getElem_mem _)
    simpa using this

/-- The sum of a selection of elements does not exceed the sum of the largest ones. -/
theorem sum_sublist_le {l l' : List K} (hs : l'.Sublist l) (h : l.Pairwise (fun x y => y ≤ x)) : l'.sum ≤ (l.take l'.length).sum := by
  induction hs with
  | slnil => simp
  | cons a hs ih =>
    rename_i l₁ l₂
    refine (ih (List.pairwise_cons.1 h).2).trans ?_
    exact sum_take_cons h _ hs.length_le
  | cons_cons a hs ih =>
    simp only [List.length_cons, List.take_succ_cons, List.sum_cons]
    exact add_le_add_right (ih (List.pairwise_cons.1 h).2) a

/-- The sum of the qualities of the first `k` elements. -/
def prefixSum (sorted : List (SortedEntry K)) (k : Nat) : K := ((sorted.take k).map SortedEntry.quality).sum

theorem prefixSum_succ (sorted : List (SortedEntry K)) (k : Nat) (h : k < sorted.length) :
    prefixSum sorted (k + 1) = prefixSum sorted k + sorted[k].quality := by
  unfold prefixSum
  rw [← take_map_succ sorted _ k h, List.sum_append]
  simp

/-- The last of the first elements does not exceed their average. -/
theorem last_le_prefix {sorted : List (SortedEntry K)} (hs : sorted.Pairwise (fun a b => b.quality ≤ a.quality)) (m : Nat) (hm : m < sorted.length) :
    sorted[m].quality * (m : K) ≤ prefixSum sorted m := by
  have key : ∀ k, k ≤ m → sorted[m].quality * (k : K) ≤ prefixSum sorted k := by
    intro k
    induction k with
    | zero => intro _; simp [prefixSum]
    | succ k ih =>
      intro hk
      rw [prefixSum_succ sorted k (by omega)]
      have h1 := ih (by omega)
      have h2 := List.pairwise_iff_getElem.1 hs k m (by omega) hm (by omega)
      push_cast
      linarith
  exact key m (le_refl _)

/-- The average of the first `k` qualities. -/
def prefixAvg (sorted : List (SortedEntry K)) (k : Nat) : K := prefixSum sorted k / (k : K)

theorem prefixAvg_anti {sorted : List (SortedEntry K)} (hs : sorted.Pairwise (fun a b => b.quality ≤ a.quality)) {k m : Nat} (hk : 1 ≤ k)
    (hkm : k ≤ m) (hm : m ≤ sorted.length) : prefixAvg sorted m ≤ prefixAvg sorted k := by
  induction m, hkm using Nat.le_induction with
  | base => exact le_refl _
  | succ m hkm ih =>
    refine le_trans ?_ (ih (by omega))
    unfold prefixAvg
    have hm0 : (0 : K) < (m : K) := by exact_mod_cast (show 0 < m by omega)
    rw [prefixSum_succ sorted m (by omega), div_le_div_iff₀ (by push_cast; linarith) hm0]
    have := last_le_prefix hs m (by omega)
    push_cast
    linarith

theorem prefixSum_nonneg {sorted : List (SortedEntry K)} (h : ∀ e ∈ sorted, 0 ≤ e.quality) (k : Nat) : 0 ≤ prefixSum sorted k := by
  unfold prefixSum
  refine List.sum_nonneg fun x hx => ?_
  obtain ⟨e, he, rfl⟩ := List.mem_map.1 hx
  exact h e (List.mem_of_mem_take he)

theorem prefixAvg_nonneg {sorted : List (SortedEntry K)} (h : ∀ e ∈ sorted, 0 ≤ e.quality) (k : Nat) : 0 ≤ prefixAvg sorted k :=
  div_nonneg (prefixSum_nonneg h k) (Nat.cast_nonneg k)

/-- No set of labels has a larger sum of qualities than the first elements. -/
theorem sum_le_prefixSum {sorted : List (SortedEntry K)} {q : Nat → K} (hs : sorted.Pairwise (fun a b => b.quality ≤ a.quality))
    (hn : (sorted.map SortedEntry.index).Nodup) (hq : ∀ e ∈ sorted, e.quality = q e.index) (T : Finset Nat)
    (hT : T ⊆ (sorted.map SortedEntry.index).toFinset) : ∑ label ∈ T, q label ≤ prefixSum sorted T.card := by
  set sel := sorted.filter (fun e => decide (e.index ∈ T)) with hsel
  have hsub : sel.Sublist sorted := List.filter_sublist
  have hnd : (sel.map SortedEntry.index).Nodup := hn.sublist (hsub.map _)
  have hset : (sel.map SortedEntry.index).toFinset = T := by
    ext label
    rw [List.mem_toFinset, List.mem_map]
    constructor
    · rintro ⟨e, he, rfl⟩
      exact of_decide_eq_true (List.mem_filter.1 he).2
    · intro hl
      obtain ⟨e, he, rfl⟩ := List.mem_map.1 (List.mem_toFinset.1 (hT hl))
      exact ⟨e, List.mem_filter.2 ⟨he, decide_eq_true hl⟩, rfl⟩
  have hcard : T.card = sel.length := by
    rw [← hset, List.toFinset_card_of_nodup hnd, List.length_map]
  have hsum : ∑ label ∈ T, q label = (sel.map SortedEntry.quality).sum := by
    rw [← hset, List.sum_toFinset _ hnd, List.map_map]
    congr 1
    refine List.map_congr_left fun e he => ?_
    exact (hq e (hsub.subset he)).symm
  rw [hsum, hcard]
  have := sum_sublist_le (hsub.map SortedEntry.quality) (List.pairwise_map.2 hs)
  rw [List.length_map, ← List.map_take] at this
  exact this

/-! ### The search -/

/-- What is known after `i` elements have been processed. -/
def SearchInv (f : LiftFunction K) (sorted : List (SortedEntry K)) (i : Nat) (s : PartialState K) : Prop :=
  ∃ best, s.bestQuality = some best ∧ liftedQuality f (prefixSum sorted s.bestNumPredictions) s.bestNumPredictions = some best ∧
    1 ≤ s.bestNumPredictions ∧ s.bestNumPredictions ≤ i ∧ i ≤ sorted.length ∧
    (∀ k v, 1 ≤ k → k ≤ (if s.done then sorted.length else i) → liftedQuality f (prefixSum sorted k) k = some v → v ≤ best) ∧
    (s.done = false → s.sumOfQualities = prefixSum sorted i) ∧
    (s.bestNumPredictions < sorted.length → ∃ m, s.maxLift = some m ∧
      ∀ k u, s.bestNumPredictions ≤ k → k ≤ sorted.length → f.calculateLift k = some u → u ≤ m)

theorem partialSearch_ok {f : LiftFunction K} {sorted : List (SortedEntry K)} (hlen : 0 < sorted.length)
    (hfirst : ∃ v, f.calculateLift 1 = some v)
    (hmax : ∀ b w, 1 ≤ b → (b < sorted.length ∨ b = 1) → b ≤ sorted.length → liftedQuality f (prefixSum sorted b) b = some w →
      (∀ j v, 1 ≤ j → j < b → liftedQuality f (prefixSum sorted j) j = some v → v < w) →
      ∃ m, f.getMaxLift b = .ok (some m) ∧ ∀ k u, b ≤ k → k ≤ sorted.length → f.calculateLift k = some u → u ≤ m)
    (hbreak : ∀ p best m v, 1 ≤ p → p < sorted.length →
      (∀ k w, 1 ≤ k → k ≤ p → liftedQuality f (prefixSum sorted k) k = some w → w ≤ best) →
      (∀ k u, p ≤ k → k ≤ sorted.length → f.calculateLift k = some u → u ≤ m) → f.calculateLift p = some v →
      prefixAvg sorted p * v * m < best → ∀ k u, p < k → k ≤ sorted.length → f.calculateLift k = some u → prefixAvg sorted k * u ≤ best) :
    ∃ s best, partialSearch f sorted sorted.length = .ok s ∧ s.bestQuality = some best ∧
      liftedQuality f (prefixSum sorted s.bestNumPredictions) s.bestNumPredictions = some best ∧ 1 ≤ s.bestNumPredictions ∧
      s.bestNumPredictions ≤ sorted.length ∧ ∀ k v, 1 ≤ k → k ≤ sorted.length → liftedQuality f (prefixSum sorted k) k = some v → v ≤ best := by
  have h1 : prefixSum sorted 1 = sorted[0].quality := by
    rw [show (1 : Nat) = 0 + 1 from rfl, prefixSum_succ sorted 0 hlen]
    simp [prefixSum]
  obtain ⟨l1, hl1⟩ := hfirst
  have hb1 : liftedQuality f (prefixSum sorted 1) 1 = some (prefixSum sorted 1 / ((1 : Nat) : K) * l1) := by
    unfold liftedQuality
    rw [hl1]
    rfl
  obtain ⟨m1, hm1, hm1'⟩ := hmax 1 _ (le_refl _) (Or.inr rfl) hlen hb1 (fun j v hj hj' => by omega)
  unfold partialSearch
  rw [readAt_of_lt hlen, ok_bind, hm1, ok_bind, ← h1, hb1]
  obtain ⟨s, hs, hinv⟩ := loopFrom_rule (body := partialStep f sorted sorted.length) (SearchInv f sorted) 1 (sorted.length - 1)
    { sumOfQualities := prefixSum sorted 1, bestQuality := some (prefixSum sorted 1 / ((1 : Nat) : K) * l1), bestNumPredictions := 1,
      maxLift := some m1, done := false }
    ⟨_, rfl, hb1, le_refl _, le_refl _, hlen, (by
      intro k v hk hk' hv
      have : k = 1 := by simp at hk'; omega
      subst this
      rw [hb1] at hv
      cases hv
      exact le_refl _), fun _ => rfl, fun _ => ⟨m1, rfl, hm1'⟩⟩
    (by
      intro i s hi1 hi2 hinv
      have hi : i < sorted.length := by omega
      unfold partialStep
      by_cases hd : s.done = true
      · rw [if_pos hd]
        refine ⟨s, rfl, ?_⟩
        obtain ⟨best, g1, g2, g3, g4, g5, g6, g7, g8⟩ := hinv
        refine ⟨best, g1, g2, g3, by omega, by omega, ?_, fun h => absurd hd (by rw [h]; simp), g8⟩
        rw [if_pos hd] at g6 ⊢
        exact g6
      · rw [if_neg hd, readAt_of_lt hi, ok_bind]
        obtain ⟨best, g1, g2, g3, g4, g5, g6, g7, g8⟩ := hinv
        have hdf : s.done = false := by simpa using hd
        rw [if_neg hd] at g6
        have hsum : s.sumOfQualities + sorted[i].quality = prefixSum sorted (i + 1) := by rw [g7 hdf, prefixSum_succ sorted i hi]
        dsimp only
        rw [hsum]
        -- the state after the best quality has been updated
        have hupd : ∃ s', updateBest f sorted.length (i + 1) (liftedQuality f (prefixSum sorted (i + 1)) (i + 1))
              { s with sumOfQualities := prefixSum sorted (i + 1) } = .ok s' ∧ s'.sumOfQualities = prefixSum sorted (i + 1) ∧
            ∃ best, s'.bestQuality = some best ∧ liftedQuality f (prefixSum sorted s'.bestNumPredictions) s'.bestNumPredictions = some best ∧
              1 ≤ s'.bestNumPredictions ∧ s'.bestNumPredictions ≤ i + 1 ∧
              (∀ k v, 1 ≤ k → k ≤ i + 1 → liftedQuality f (prefixSum sorted k) k = some v → v ≤ best) ∧
              (s'.bestNumPredictions < sorted.length → ∃ m, s'.maxLift = some m ∧
                ∀ k u, s'.bestNumPredictions ≤ k → k ≤ sorted.length → f.calculateLift k = some u → u ≤ m) := by
          unfold updateBest
          by_cases hgt : greater (liftedQuality f (prefixSum sorted (i + 1)) (i + 1)) s.bestQuality = true
          · rw [if_pos hgt]
            cases hq : liftedQuality f (prefixSum sorted (i + 1)) (i + 1) with
            | none => rw [hq] at hgt; simp [greater] at hgt
            | some v =>
              rw [hq, g1] at hgt
              have hv : best < v := by simpa [greater] using hgt
              have hall : ∀ k w, 1 ≤ k → k ≤ i + 1 → liftedQuality f (prefixSum sorted k) k = some w → w ≤ v := by
                intro k w hk hk' hw
                by_cases e : k = i + 1
                · subst e
                  rw [hq] at hw
                  cases hw
                  exact le_refl _
                · exact (g6 k w hk (by omega) hw).trans hv.le
              by_cases hlt : i + 1 < sorted.length
              · rw [if_pos hlt]
                obtain ⟨m, hm, hm'⟩ := hmax (i + 1) v (by omega) (Or.inl hlt) (by omega) hq (fun j w hj hj' hw =>
                  lt_of_le_of_lt (g6 j w hj (by omega) hw) hv)
                rw [hm]
                exact ⟨_, rfl, rfl, v, rfl, hq, by simp, le_refl _, hall, fun _ => ⟨m, rfl, hm'⟩⟩
              · rw [if_neg hlt]
                exact ⟨_, rfl, rfl, v, rfl, hq, by simp, le_refl _, hall, fun h => absurd h hlt⟩
          · rw [if_neg hgt]
            refine ⟨_, rfl, rfl, best, g1, g2, g3, by show s.bestNumPredictions ≤ i + 1; omega, ?_, g8⟩
            intro k w hk hk' hw
            by_cases e : k = i + 1
            · subst e
              rw [hw, g1] at hgt
              by_contra hc
              exact hgt (by simpa [greater] using hc)
            · exact g6 k w hk (by omega) hw
        obtain ⟨s', e1, e2, best', f1, f2, f3, f4, f5, f6⟩ := hupd
        rw [e1, ok_bind, pure_eq_ok]
        refine ⟨_, rfl, best', f1, f2, f3, f4, by omega, ?_, fun _ => e2, f6⟩
        show ∀ k v, 1 ≤ k → k ≤ (if greater s'.bestQuality (times (liftedQuality f (prefixSum sorted (i + 1)) (i + 1)) s'.maxLift) = true then
          sorted.length else i + 1) → _
        intro k v hk hk' hv
        by_cases hle : k ≤ i + 1
        · exact f5 k v hk hle hv
        · by_cases hg : greater s'.bestQuality (times (liftedQuality f (prefixSum sorted (i + 1)) (i + 1)) s'.maxLift) = true
          · rw [if_pos hg] at hk'
            cases hq : f.calculateLift (i + 1) with
            | none =>
              rw [f1] at hg
              simp [liftedQuality, hq, times, greater] at hg
            | some p =>
              obtain ⟨m, hm, hm'⟩ := f6 (by omega)
              have hlt : prefixAvg sorted (i + 1) * p * m < best' := by
                rw [f1, hm] at hg
                simpa [liftedQuality, hq, times, greater, prefixAvg] using hg
              cases hu : f.calculateLift k with
              | none => simp [liftedQuality, hu] at hv
              | some u =>
                have := hbreak (i + 1) best' m p (by omega) (by omega) f5 (fun k u h1 h2 h3 => hm' k u (by omega) h2 h3) hq hlt k u (by omega) hk' hu
                have hv' : prefixAvg sorted k * u = v := by
                  simpa [liftedQuality, hu, prefixAvg] using hv
                rw [← hv']
                exact this
          · rw [if_neg hg] at hk'
            omega)
  obtain ⟨best, g1, g2, g3, g4, g5, g6, g7, g8⟩ := hinv
  refine ⟨s, best, hs, g1, g2, g3, by omega, fun k v hk hk' hv => g6 k v hk ?_ hv⟩
  split <;> omega

end Ordered

end MLRL.Seco
