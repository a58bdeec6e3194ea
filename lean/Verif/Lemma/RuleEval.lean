import Verif.Spec.RuleEval
import Mathlib.Tactic.Ring
import Mathlib.Tactic.Linarith
import Mathlib.Tactic.FieldSimp
import Mathlib.Tactic.Positivity
import Mathlib.Algebra.BigOperators.Group.List.Basic

/-!
# Lemmas about rule evaluations for decomposable loss functions
-/

namespace MLRL.RuleEval

set_option linter.unusedSectionVars false

theorem writeAt_append_drop {α : Type} {pre values : List α} {i : Nat} (hp : pre.length = i) (hi : i < values.length) (x : α) :
    writeAt (pre ++ values.drop i) i x = .ok ((pre ++ [x]) ++ values.drop (i + 1)) := by
  rw [writeAt_of_lt (by simp; omega)]
  congr 1
  rw [List.drop_eq_getElem_cons hi, List.set_append_right _ _ (by omega), show i - pre.length = 0 by omega]
  simp only [List.set_cons_zero, List.append_assoc, List.cons_append, List.nil_append]

theorem take_succ_map_sum {α M : Type} [AddMonoid M] {l : List α} {i : Nat} {x : α} (h : l[i]? = some x) (f : α → M) :
    ((l.take (i + 1)).map f).sum = ((l.take i).map f).sum + f x := by
  rw [List.take_succ, h]
  simp

variable {K : Type} [Field K] [LinearOrder K]

theorem complete_ok (l1 l2 : K) (outputs : List Nat) (values : List K) (stats : List (Stat K)) (hv : values.length = stats.length) :
    complete l1 l2 outputs values stats =
      .ok ⟨outputs, stats.map (fun t => t.score l1 l2), (stats.map (fun t => t.quality l1 l2 (t.score l1 l2))).sum⟩ := by
  obtain ⟨r, h1, h2, h3⟩ := loop_rule (body := fun i (r : List K × K) => do
      let t ← readAt stats i
      let score := t.score l1 l2
      let values ← writeAt r.1 i score
      return (values, r.2 + t.quality l1 l2 score))
    (fun i r => r.1 = (stats.take i).map (fun t => t.score l1 l2) ++ values.drop i ∧
      r.2 = ((stats.take i).map (fun t => t.quality l1 l2 (t.score l1 l2))).sum) stats.length (values, 0) (by simp) (by
        rintro i ⟨vs, q⟩ hi ⟨g1, g2⟩
        simp only at g1 g2
        subst g1 g2
        have hx := List.getElem?_eq_getElem hi
        refine ⟨((stats.take (i + 1)).map (fun t => t.score l1 l2) ++ values.drop (i + 1),
          ((stats.take (i + 1)).map (fun t => t.quality l1 l2 (t.score l1 l2))).sum), ?_, rfl, rfl⟩
        rw [readAt_of_lt hi, ok_bind]
        simp only
        rw [writeAt_append_drop (by simp; omega) (by omega), ok_bind, take_succ_map_sum hx]
        rw [List.take_succ (l := stats), hx]
        simp only [Option.toList_some, List.map_append, List.map_cons, List.map_nil]
        rfl)
  unfold complete
  rw [h1, ok_bind]
  rw [List.take_length] at h2 h3
  rw [List.drop_eq_nil_of_le (by omega), List.append_nil] at h2
  rw [h2, h3]
  rfl

theorem single_ok (l1 l2 : K) (outputs : List Nat) (stats : List (Stat K)) (hne : stats ≠ []) (ho : outputs.length = stats.length) :
    ∃ b t o, stats[b]? = some t ∧ outputs[b]? = some o ∧
      single l1 l2 outputs stats = .ok ⟨[o], [t.score l1 l2], t.quality l1 l2 (t.score l1 l2)⟩ ∧
      (∀ (i : Nat) t', stats[i]? = some t' → |t'.score l1 l2| ≤ |t.score l1 l2|) ∧
      (∀ (i : Nat) t', i < b → stats[i]? = some t' → |t'.score l1 l2| < |t.score l1 l2|) := by
  have hpos : 0 < stats.length := List.length_pos_iff.2 hne
  obtain ⟨r, h1, b, t, h2, h3, h4, h5, h6⟩ := loopFrom_rule (body := fun i (best : K × Nat) => do
      let t ← readAt stats i
      let score := t.score l1 l2
      return (if |score| > |best.1| then (score, i) else best))
    (fun n r => ∃ b t, r = (t.score l1 l2, b) ∧ stats[b]? = some t ∧ b < n ∧
      (∀ (i : Nat) t', i < n → stats[i]? = some t' → |t'.score l1 l2| ≤ |t.score l1 l2|) ∧
      (∀ (i : Nat) t', i < b → stats[i]? = some t' → |t'.score l1 l2| < |t.score l1 l2|)) 1 (stats.length - 1) (stats[0].score l1 l2, 0)
    ⟨0, stats[0], rfl, List.getElem?_eq_getElem hpos, by omega, by
      intro i t' hi ht
      obtain rfl : i = 0 := by omega
      rw [List.getElem?_eq_getElem hpos] at ht
      cases ht
      exact le_refl _, by intro i t' hi; omega⟩ (by
      rintro i _ hi1 hi2 ⟨b, t, rfl, g2, g3, g4, g5⟩
      have hi : i < stats.length := by omega
      rw [readAt_of_lt hi, ok_bind]
      refine ⟨_, rfl, ?_⟩
      simp only
      by_cases hc : |(stats[i]).score l1 l2| > |t.score l1 l2|
      · rw [if_pos hc]
        refine ⟨i, stats[i], rfl, List.getElem?_eq_getElem hi, by omega, ?_, ?_⟩
        · intro j t' hj ht
          by_cases hji : j = i
          · subst hji
            rw [List.getElem?_eq_getElem hi] at ht
            cases ht
            exact le_refl _
          · exact (g4 j t' (by omega) ht).trans (le_of_lt hc)
        · intro j t' hj ht
          exact lt_of_le_of_lt (g4 j t' hj ht) hc
      · rw [if_neg hc]
        refine ⟨b, t, rfl, g2, by omega, ?_, g5⟩
        intro j t' hj ht
        by_cases hji : j = i
        · subst hji
          rw [List.getElem?_eq_getElem hi] at ht
          cases ht
          exact not_lt.1 hc
        · exact g4 j t' (by omega) ht)
  have hb : b < stats.length := (List.getElem?_eq_some_iff.1 h3).1
  refine ⟨b, t, outputs[b], h3, List.getElem?_eq_getElem (by omega), ?_, ?_, h6⟩
  · unfold single
    rw [readAt_of_lt hpos, ok_bind, h1, ok_bind, h2, readAt_of_lt (by omega : b < outputs.length), ok_bind, readAt_of_getElem? h3, ok_bind]
    rfl
  · intro i t' ht
    have := (List.getElem?_eq_some_iff.1 ht).1
    exact h5 i t' (by omega) ht

theorem indexedScores_ok (l1 l2 : K) (stats : List (Stat K)) (tmp : List (Nat × K)) (ht : stats.length ≤ tmp.length) :
    indexedScores l1 l2 stats tmp = .ok (stats.zipIdx.map (fun p => (p.2, p.1.score l1 l2)) ++ tmp.drop stats.length) := by
  obtain ⟨r, h1, h2⟩ := loop_rule (body := fun i tmp => do
      let t ← readAt stats i
      writeAt tmp i (i, t.score l1 l2))
    (fun i r => r = (stats.zipIdx.take i).map (fun p => (p.2, p.1.score l1 l2)) ++ tmp.drop i) stats.length tmp (by simp) (by
        rintro i _ hi rfl
        refine ⟨_, ?_, rfl⟩
        rw [readAt_of_lt hi, ok_bind, writeAt_append_drop (by simp; omega) (by omega), List.take_succ,
          List.getElem?_eq_getElem (by simpa using hi)]
        simp)
  unfold indexedScores
  rw [h1, h2, List.take_of_length_le (by simp)]

theorem indexed_mem {l1 l2 : K} {stats : List (Stat K)} {p : Nat × K}
    (h : p ∈ stats.zipIdx.map (fun p => (p.2, p.1.score l1 l2))) : ∃ t, stats[p.1]? = some t ∧ p.2 = t.score l1 l2 := by
  obtain ⟨⟨t, i⟩, h1, rfl⟩ := List.mem_map.1 h
  rw [List.mk_mem_zipIdx_iff_getElem?] at h1
  exact ⟨t, h1, rfl⟩

theorem indexed_fst (l1 l2 : K) (stats : List (Stat K)) :
    (stats.zipIdx.map (fun p => (p.2, p.1.score l1 l2))).map Prod.fst = List.range stats.length := by
  rw [List.map_map]
  change stats.zipIdx.map Prod.snd = _
  rw [List.zipIdx_map_snd, List.range_eq_range']

/-- The entries of a sorted temporary array, together with the statistics they refer to. -/
theorem entries_stats {l1 l2 : K} {stats : List (Stat K)} : ∀ (l : List (Nat × K)),
    (∀ p ∈ l, ∃ t, stats[p.1]? = some t ∧ p.2 = t.score l1 l2) →
    ∃ chosen : List (Nat × Stat K), l = chosen.map (fun c => (c.1, c.2.score l1 l2)) ∧ ∀ c ∈ chosen, stats[c.1]? = some c.2 := by
  intro l
  induction l with
  | nil => intro _; exact ⟨[], rfl, by simp⟩
  | cons p l ih =>
    intro h
    obtain ⟨chosen, h1, h2⟩ := ih (fun q hq => h q (List.mem_cons_of_mem _ hq))
    obtain ⟨t, h3, h4⟩ := h p List.mem_cons_self
    refine ⟨(p.1, t) :: chosen, ?_, ?_⟩
    · rw [List.map_cons, ← h1, ← h4]
    · intro c hc
      rcases List.mem_cons.1 hc with rfl | hc
      · exact h3
      · exact h2 c hc

theorem fixed_ok {partialSort : Nat → List (Nat × K) → List (Nat × K)} (l1 l2 : K) (outputs : List Nat) (tmp : List (Nat × K))
    (indices : List Nat) (values : List K) (stats : List (Stat K)) (ho : outputs.length = stats.length)
    (ht : stats.length ≤ tmp.length) (hv : values.length = indices.length) (hk : indices.length ≤ stats.length)
    (hs : ∀ l, PartiallySorted indices.length l (partialSort indices.length l)) :
    ∃ (chosen : List (Nat × Stat K)) (result : List Nat),
      fixed partialSort l1 l2 outputs tmp indices values stats = .ok ⟨result, chosen.map (fun c => c.2.score l1 l2),
        (chosen.map (fun c => c.2.quality l1 l2 (c.2.score l1 l2))).sum⟩ ∧
      result.map some = chosen.map (fun c => outputs[c.1]?) ∧
      chosen.length = indices.length ∧ (∀ c ∈ chosen, stats[c.1]? = some c.2) ∧ (chosen.map Prod.fst).Nodup ∧
      chosen.Pairwise (fun a b => |b.2.score l1 l2| ≤ |a.2.score l1 l2|) ∧
      ∀ (i : Nat) t, stats[i]? = some t → i ∉ chosen.map Prod.fst → ∀ c ∈ chosen, |t.score l1 l2| ≤ |c.2.score l1 l2| := by
  have hstart := indexedScores_ok l1 l2 stats tmp ht
  generalize hL : stats.zipIdx.map (fun p => (p.2, p.1.score l1 l2)) = L at hstart
  have hLlen : L.length = stats.length := by rw [← hL]; simp
  have hsort := hs L
  generalize hS : partialSort indices.length L = S at hsort
  have hmem : ∀ p ∈ S, ∃ t, stats[p.1]? = some t ∧ p.2 = t.score l1 l2 := by
    intro p hp
    have := hsort.perm.mem_iff.1 hp
    rw [← hL] at this
    exact indexed_mem this
  have hSlen : S.length = stats.length := by rw [hsort.perm.length_eq, hLlen]
  obtain ⟨all, ha1, ha2⟩ := entries_stats S hmem
  have hall : all.length = stats.length := by rw [← hSlen, ha1, List.length_map]
  obtain ⟨r, h1, h2, h3, h4⟩ := loop_rule (body := fun i (r : List Nat × List K × K) => do
      let entry ← readAt (S ++ (L ++ tmp.drop stats.length).drop stats.length) i
      let output ← readAt outputs entry.1
      let indices ← writeAt r.1 i output
      let values ← writeAt r.2.1 i entry.2
      let t ← readAt stats entry.1
      return (indices, values, r.2.2 + t.quality l1 l2 entry.2))
    (fun i r => (∃ result, r.1 = result ++ indices.drop i ∧ result.map some = (all.take i).map (fun c => outputs[c.1]?)) ∧
      r.2.1 = (all.take i).map (fun c => c.2.score l1 l2) ++ values.drop i ∧
      r.2.2 = ((all.take i).map (fun c => c.2.quality l1 l2 (c.2.score l1 l2))).sum) indices.length (indices, values, 0)
    ⟨⟨[], by simp⟩, by simp⟩ (by
      rintro i ⟨is, vs, q⟩ hi ⟨⟨result, g1, g2⟩, g3, g4⟩
      simp only at g1 g3 g4
      subst g1 g3 g4
      have hia : i < all.length := by omega
      have hx := List.getElem?_eq_getElem hia
      have hstat := ha2 _ (List.getElem_mem hia)
      have hlt := (List.getElem?_eq_some_iff.1 hstat).1
      have hrl : result.length = i := by
        have := congrArg List.length g2
        simp only [List.length_map, List.length_take] at this
        omega
      have hread : (S ++ (L ++ tmp.drop stats.length).drop stats.length)[i]? = some (all[i].1, all[i].2.score l1 l2) := by
        rw [List.getElem?_append_left (by omega), ha1, List.getElem?_map, hx]
        rfl
      rw [readAt_of_getElem? hread, ok_bind, readAt_of_lt (by omega : all[i].1 < outputs.length), ok_bind,
        writeAt_append_drop hrl hi, ok_bind, writeAt_append_drop (by simp; omega) (by omega), ok_bind, readAt_of_getElem? hstat, ok_bind]
      refine ⟨_, rfl, ⟨result ++ [outputs[all[i].1]], rfl, ?_⟩, ?_, ?_⟩
      · rw [List.map_append, g2, List.take_succ, hx]
        simp only [Option.toList_some, List.map_append, List.map_cons, List.map_nil]
        rw [List.getElem?_eq_getElem (by omega : all[i].1 < outputs.length)]
      · rw [List.take_succ, hx]
        simp only [Option.toList_some, List.map_append, List.map_cons, List.map_nil]
      · rw [take_succ_map_sum hx])
  obtain ⟨result, h5, h6⟩ := h2
  rw [List.drop_eq_nil_of_le (by omega), List.append_nil] at h3 h5
  refine ⟨all.take indices.length, result, ?_, h6, by simp; omega, fun c hc => ha2 c (List.mem_of_mem_take hc), ?_, ?_, ?_⟩
  · unfold fixed
    rw [hstart, ok_bind, if_neg (by omega)]
    rw [← hLlen] at h1 ⊢
    simp only [List.take_left', hS]
    rw [h1, ok_bind]
    rw [← h3, ← h4, ← h5]
    rfl
  · have hnd : (all.map Prod.fst).Nodup := by
      have e1 : all.map Prod.fst = S.map Prod.fst := by rw [ha1, List.map_map]; rfl
      rw [e1, (hsort.perm.map Prod.fst).nodup_iff, ← hL, indexed_fst]
      exact List.nodup_range
    rw [List.map_take]
    exact hnd.sublist (List.take_sublist _ _)
  · have := hsort.sorted
    rw [ha1, ← List.map_take, List.pairwise_map] at this
    exact this
  · intro i t hi hni c hc
    have hin : (i, t.score l1 l2) ∈ S := by
      rw [hsort.perm.mem_iff, ← hL]
      exact List.mem_map.2 ⟨(t, i), by rw [List.mk_mem_zipIdx_iff_getElem?]; exact hi, rfl⟩
    have hin' : (i, t.score l1 l2) ∈ S.drop indices.length := by
      rw [← List.take_append_drop indices.length S] at hin
      rcases List.mem_append.1 hin with hin | hin
      · exfalso
        apply hni
        rw [ha1, ← List.map_take] at hin
        obtain ⟨c', hc', e⟩ := List.mem_map.1 hin
        exact List.mem_map.2 ⟨c', hc', (Prod.mk.inj e).1⟩
      · exact hin
    have hin2 : (c.1, c.2.score l1 l2) ∈ S.take indices.length := by
      rw [ha1, ← List.map_take]
      exact List.mem_map.2 ⟨c, hc, rfl⟩
    exact hsort.rest _ hin2 _ hin'

/-- The smallest and the largest absolute score. -/
structure MinMax (l1 l2 : K) (stats : List (Stat K)) (m M : K) : Prop where
  least : ∀ t ∈ stats, m ≤ |t.score l1 l2|
  leastAttained : ∃ t ∈ stats, |t.score l1 l2| = m
  greatest : ∀ t ∈ stats, |t.score l1 l2| ≤ M
  greatestAttained : ∃ t ∈ stats, |t.score l1 l2| = M

theorem getMinAndMaxScore_ok (l1 l2 : K) (stats : List (Stat K)) (hne : stats ≠ []) :
    ∃ m M, getMinAndMaxScore l1 l2 stats = .ok (m, M) ∧ MinMax l1 l2 stats m M := by
  have hpos : 0 < stats.length := List.length_pos_iff.2 hne
  obtain ⟨r, h1, h2⟩ := loopFrom_rule (body := fun i (r : K × K) => do
      let t ← readAt stats i
      let score := |t.score l1 l2|
      return (if score > r.2 then (r.1, score) else if score < r.1 then (score, r.2) else r))
    (fun n r => MinMax l1 l2 (stats.take n) r.1 r.2) 1 (stats.length - 1) (|(stats[0]).score l1 l2|, |(stats[0]).score l1 l2|)
    (by
      have : stats.take 1 = [stats[0]] := by
        cases stats with
        | nil => exact absurd rfl hne
        | cons a l => simp
      rw [this]
      constructor <;> simp) (by
      rintro i ⟨m, M⟩ hi1 hi2 ⟨g1, ⟨a, ha, ea⟩, g3, ⟨b, hb, eb⟩⟩
      have hi : i < stats.length := by omega
      rw [readAt_of_lt hi, ok_bind]
      refine ⟨_, rfl, ?_⟩
      have hmM : m ≤ M := (g1 b hb).trans (le_of_eq eb)
      have htake : stats.take (i + 1) = stats.take i ++ [stats[i]] := by rw [List.take_succ, List.getElem?_eq_getElem hi]; rfl
      simp only at g1 g3 ea eb ⊢
      rw [htake]
      have hmem : ∀ t, t ∈ stats.take i ++ [stats[i]] ↔ t ∈ stats.take i ∨ t = stats[i] := by intro t; rw [List.mem_append, List.mem_singleton]
      by_cases hc : |(stats[i]).score l1 l2| > M
      · rw [if_pos hc]
        exact ⟨fun t ht => by
            rcases (hmem t).1 ht with ht | rfl
            · exact g1 t ht
            · exact hmM.trans (le_of_lt hc), ⟨a, (hmem a).2 (Or.inl ha), ea⟩,
          fun t ht => by
            rcases (hmem t).1 ht with ht | rfl
            · exact (g3 t ht).trans (le_of_lt hc)
            · exact le_refl _, ⟨stats[i], (hmem _).2 (Or.inr rfl), rfl⟩⟩
      · rw [if_neg hc]
        by_cases hd : |(stats[i]).score l1 l2| < m
        · rw [if_pos hd]
          exact ⟨fun t ht => by
              rcases (hmem t).1 ht with ht | rfl
              · exact (le_of_lt hd).trans (g1 t ht)
              · exact le_refl _, ⟨stats[i], (hmem _).2 (Or.inr rfl), rfl⟩,
            fun t ht => by
              rcases (hmem t).1 ht with ht | rfl
              · exact g3 t ht
              · exact not_lt.1 hc, ⟨b, (hmem b).2 (Or.inl hb), eb⟩⟩
        · rw [if_neg hd]
          exact ⟨fun t ht => by
              rcases (hmem t).1 ht with ht | rfl
              · exact g1 t ht
              · exact not_lt.1 hd, ⟨a, (hmem a).2 (Or.inl ha), ea⟩,
            fun t ht => by
              rcases (hmem t).1 ht with ht | rfl
              · exact g3 t ht
              · exact not_lt.1 hc, ⟨b, (hmem b).2 (Or.inl hb), eb⟩⟩)
  refine ⟨r.1, r.2, ?_, ?_⟩
  · unfold getMinAndMaxScore
    rw [readAt_of_lt hpos, ok_bind]
    exact h1
  · rwa [List.take_of_length_le (by omega)] at h2

theorem dynamic_ok (pow : K → K) (threshold l1 l2 : K) (outputs : List Nat) (indices : List Nat) (values : List K)
    (stats : List (Stat K)) (hne : stats ≠ []) (ho : outputs.length = stats.length) (hi : indices.length = stats.length)
    (hv : values.length = stats.length) :
    ∃ m M, MinMax l1 l2 stats m M ∧
      let chosen := (outputs.zip stats).filter (fun c => decide (pow (M - m) * (1 - threshold) ≤ pow (|c.2.score l1 l2| - m)))
      dynamic pow threshold l1 l2 outputs indices values stats =
        .ok ⟨chosen.map Prod.fst, chosen.map (fun c => c.2.score l1 l2),
          (chosen.map (fun c => c.2.quality l1 l2 (c.2.score l1 l2))).sum⟩ := by
  obtain ⟨m, M, h1, h2⟩ := getMinAndMaxScore_ok l1 l2 stats hne
  refine ⟨m, M, h2, ?_⟩
  simp only
  generalize hkeep : (fun c : Nat × Stat K => decide (pow (M - m) * (1 - threshold) ≤ pow (|c.2.score l1 l2| - m))) = keep
  have hzl : (outputs.zip stats).length = stats.length := by rw [List.length_zip, ho, Nat.min_self]
  obtain ⟨r, g1, g2, g3, g4, g5⟩ := loop_rule (body := fun i (r : Nat × List Nat × List K × K) => do
      let t ← readAt stats i
      let score := t.score l1 l2
      if calculateWeightedScore pow score m ≥ calculateThreshold pow m M (1 - threshold) then
        let output ← readAt outputs i
        let indices ← writeAt r.2.1 r.1 output
        let values ← writeAt r.2.2.1 r.1 score
        return (r.1 + 1, indices, values, r.2.2.2 + t.quality l1 l2 score)
      else
        return r)
    (fun i r => r.1 = (((outputs.zip stats).take i).filter keep).length ∧
      r.2.1 = (((outputs.zip stats).take i).filter keep).map Prod.fst ++ indices.drop r.1 ∧
      r.2.2.1 = (((outputs.zip stats).take i).filter keep).map (fun c => c.2.score l1 l2) ++ values.drop r.1 ∧
      r.2.2.2 = ((((outputs.zip stats).take i).filter keep).map (fun c => c.2.quality l1 l2 (c.2.score l1 l2))).sum)
    stats.length (0, indices, values, 0) (by simp) (by
      rintro i ⟨n, is, vs, q⟩ hi' ⟨k1, k2, k3, k4⟩
      simp only at k1 k2 k3 k4
      have hx : (outputs.zip stats)[i]? = some (outputs[i], stats[i]) := by
        rw [List.getElem?_eq_getElem (by omega), List.getElem_zip]
      have hn : n ≤ i := by
        rw [k1]
        refine (List.length_filter_le _ _).trans ?_
        simp
      rw [readAt_of_lt hi', ok_bind]
      simp only
      rw [List.take_succ, hx]
      by_cases hc : calculateWeightedScore pow ((stats[i]).score l1 l2) m ≥ calculateThreshold pow m M (1 - threshold)
      · have hkt : keep (outputs[i], stats[i]) = true := by rw [← hkeep]; exact decide_eq_true hc
        rw [if_pos hc, readAt_of_lt (by omega : i < outputs.length), ok_bind]
        subst k2 k3 k4
        rw [writeAt_append_drop (by rw [List.length_map, k1]) (by omega), ok_bind,
          writeAt_append_drop (by rw [List.length_map, k1]) (by omega), ok_bind]
        refine ⟨_, rfl, ?_⟩
        simp only [Option.toList_some, List.filter_append, List.filter_cons, hkt, if_true, List.filter_nil, List.map_append, List.map_cons,
          List.map_nil, List.length_append, List.length_cons, List.length_nil, List.sum_append, List.sum_cons, List.sum_nil, add_zero, k1,
          Nat.zero_add, and_self]
      · have hkt : keep (outputs[i], stats[i]) = false := by rw [← hkeep]; exact decide_eq_false hc
        rw [if_neg hc]
        refine ⟨_, rfl, ?_⟩
        simp only [Option.toList_some, List.filter_append, List.filter_cons, hkt, Bool.false_eq_true, if_false, List.filter_nil,
          List.append_nil]
        exact ⟨k1, k2, k3, k4⟩)
  unfold dynamic
  rw [h1, ok_bind]
  simp only
  rw [g1, ok_bind]
  rw [← hzl, List.take_length] at g2 g3 g4 g5
  rw [g3, g4, g5]
  congr 2
  · rw [List.take_left' (by rw [List.length_map, g2])]
  · rw [List.take_left' (by rw [List.length_map, g2])]

end MLRL.RuleEval
