import Verif.Spec.Stopping
import Verif.Lemma.RingBuffer
import Mathlib.Algebra.Order.Field.Basic
import Mathlib.Algebra.BigOperators.Group.List.Basic
import Mathlib.Data.List.Perm.Basic
import Mathlib.Tactic.FieldSimp
import Mathlib.Tactic.Ring
import Mathlib.Tactic.Linarith

namespace MLRL.Stopping

open Spec

set_option linter.unusedSectionVars false

section
variable {K : Type _} [Field K] [LinearOrder K] [IsStrictOrderedRing K]

/-! ### aggregation -/

theorem foldl_mean (l : List K) : ∀ (n : Nat) (m : K),
    let r := l.foldl (fun (st : Nat × K) value => (st.1 + 1, iterativeArithmeticMean (st.1 + 1) value st.2)) (n, m)
    r.1 = n + l.length ∧ r.2 * ((n + l.length : Nat) : K) = m * n + l.sum := by
  induction l with
  | nil => intro n m; simp
  | cons x xs ih =>
    intro n m
    obtain ⟨h1, h2⟩ := ih (n + 1) (iterativeArithmeticMean (n + 1) x m)
    simp only [List.foldl_cons, List.length_cons, List.sum_cons]
    refine ⟨by rw [h1]; omega, ?_⟩
    have e : n + (xs.length + 1) = n + 1 + xs.length := by omega
    rw [e, h2]
    have hn : ((n + 1 : Nat) : K) ≠ 0 := by exact_mod_cast Nat.succ_ne_zero n
    unfold iterativeArithmeticMean
    field_simp
    push_cast
    ring

theorem aggregateMean_eq (l : List K) (h : l ≠ []) : aggregateMean l = l.sum / (l.length : K) := by
  have := foldl_mean l 0 0
  simp only [Nat.zero_add, zero_mul, zero_add] at this
  have hn : ((l.length : Nat) : K) ≠ 0 := by
    have : l.length ≠ 0 := by simpa using h
    exact_mod_cast this
  rw [eq_div_iff hn]
  exact this.2

theorem foldl_min_spec (xs : List K) : ∀ (x : K),
    let r := xs.foldl (fun m value => if value < m then value else m) x
    r ∈ x :: xs ∧ ∀ y ∈ x :: xs, r ≤ y := by
  induction xs with
  | nil => intro x; simp
  | cons y ys ih =>
    intro x
    obtain ⟨h1, h2⟩ := ih (if y < x then y else x)
    simp only [List.foldl_cons]
    constructor
    · rcases List.mem_cons.1 h1 with h | h
      · rw [h]; split <;> simp
      · simp [h]
    · intro z hz
      have h3 := h2 _ (List.mem_cons_self ..)
      rcases List.mem_cons.1 hz with rfl | hz
      · refine le_trans h3 ?_; split <;> [exact le_of_lt ‹_›; exact le_refl _]
      rcases List.mem_cons.1 hz with rfl | hz
      · refine le_trans h3 ?_; split <;> [exact le_refl _; exact le_of_not_gt ‹_›]
      · exact h2 z (List.mem_cons_of_mem _ hz)

theorem foldl_max_spec (xs : List K) : ∀ (x : K),
    let r := xs.foldl (fun m value => if value > m then value else m) x
    r ∈ x :: xs ∧ ∀ y ∈ x :: xs, y ≤ r := by
  induction xs with
  | nil => intro x; simp
  | cons y ys ih =>
    intro x
    obtain ⟨h1, h2⟩ := ih (if y > x then y else x)
    simp only [List.foldl_cons]
    constructor
    · rcases List.mem_cons.1 h1 with h | h
      · rw [h]; split <;> simp
      · simp [h]
    · intro z hz
      have h3 := h2 _ (List.mem_cons_self ..)
      rcases List.mem_cons.1 hz with rfl | hz
      · refine le_trans ?_ h3; split <;> [exact le_of_lt ‹_›; exact le_refl _]
      rcases List.mem_cons.1 hz with rfl | hz
      · refine le_trans ?_ h3; split <;> [exact le_refl _; exact le_of_not_gt ‹_›]
      · exact h2 z (List.mem_cons_of_mem _ hz)

theorem aggregate_spec (a : Aggregation) (l : List K) (h : l ≠ []) : ∃ x, aggregate a l = .ok x ∧ IsAggregate a l x := by
  cases a with
  | min =>
    cases l with
    | nil => exact absurd rfl h
    | cons x xs => exact ⟨_, rfl, foldl_min_spec xs x⟩
  | max =>
    cases l with
    | nil => exact absurd rfl h
    | cons x xs => exact ⟨_, rfl, foldl_max_spec xs x⟩
  | mean => exact ⟨_, rfl, h, aggregateMean_eq l h⟩

theorem Spec.IsAggregate.perm {a : Aggregation} {l l' : List K} {x : K} (h : IsAggregate a l x) (hp : l.Perm l') :
    IsAggregate a l' x := by
  cases a with
  | min => exact ⟨hp.mem_iff.1 h.1, fun y hy => h.2 y (hp.mem_iff.2 hy)⟩
  | max => exact ⟨hp.mem_iff.1 h.1, fun y hy => h.2 y (hp.mem_iff.2 hy)⟩
  | mean =>
    refine ⟨fun e => h.1 ?_, ?_⟩
    · rw [e] at hp; exact hp.eq_nil
    · rw [← hp.sum_eq, ← hp.length_eq]; exact h.2

theorem Spec.IsAggregate.unique {a : Aggregation} {l : List K} {x y : K} (hx : IsAggregate a l x) (hy : IsAggregate a l y) :
    x = y := by
  cases a with
  | min => exact le_antisymm (hx.2 y hy.1) (hy.2 x hx.1)
  | max => exact le_antisymm (hy.2 x hx.1) (hx.2 y hy.1)
  | mean => rw [hx.2, hy.2]

theorem initialisedCells_map_some (l : List K) : initialisedCells (l.map some) = .ok l := by
  unfold initialisedCells
  induction l with
  | nil => rfl
  | cons x xs ih =>
    rw [List.map_cons, List.mapM_cons, ih]
    rfl

theorem exists_of_perm_map_some {cells : List (Option K)} {w : List K} (h : cells.Perm (w.map some)) :
    ∃ l : List K, cells = l.map some ∧ l.Perm w := by
  have hall : ∀ c ∈ cells, c.isSome := by
    intro c hc
    have := h.mem_iff.1 hc
    obtain ⟨y, _, rfl⟩ := List.mem_map.1 this
    rfl
  refine ⟨cells.filterMap id, ?_, ?_⟩
  · clear h
    induction cells with
    | nil => rfl
    | cons c cs ih =>
      have h1 := hall c (List.mem_cons_self ..)
      obtain ⟨y, rfl⟩ := Option.isSome_iff_exists.1 h1
      have e : (some y :: cs).filterMap id = y :: cs.filterMap id := by simp
      rw [e, List.map_cons, ← ih (fun c hc => hall c (List.mem_cons_of_mem _ hc))]
  · have := h.filterMap id
    rw [List.filterMap_map] at this
    simpa using this

/-- Aggregating the cells of a buffer yields the aggregate of the values it holds. -/
theorem aggregateBuffer_spec {c : Nat} {xs : List K} {b : RingBuffer K} (hb : b.Holds c xs) (hne : xs ≠ [])
    (a : Aggregation) : ∃ x, aggregateBuffer a b = .ok x ∧ IsAggregate a (xs.drop (xs.length - c)) x := by
  obtain ⟨l, h1, h2⟩ := exists_of_perm_map_some hb.cells_perm
  have hl : l ≠ [] := by
    intro e
    rw [e] at h2
    have := h2.symm.eq_nil
    rw [List.drop_eq_nil_iff] at this
    have := hb.cpos
    have : xs.length ≠ 0 := by simpa using hne
    omega
  obtain ⟨x, hx, hs⟩ := aggregate_spec a l hl
  refine ⟨x, ?_, hs.perm h2⟩
  unfold aggregateBuffer
  rw [h1, initialisedCells_map_some l, ok_bind, hx]

/-! ### first minimum -/

theorem isFirstMin_singleton (x : Nat × K) : IsFirstMin [x] x :=
  ⟨0, rfl, by simp, by simp⟩

theorem Spec.IsFirstMin.snoc_lt {l : List (Nat × K)} {b x : Nat × K} (h : IsFirstMin l b) (hx : x.2 < b.2) :
    IsFirstMin (l ++ [x]) x := by
  obtain ⟨i, _, _, h3⟩ := h
  refine ⟨l.length, by simp, ?_, ?_⟩
  · intro j y hj hy
    rw [List.getElem?_append_left hj] at hy
    exact lt_of_lt_of_le hx (h3 y (List.mem_of_getElem? hy))
  · intro y hy
    rcases List.mem_append.1 hy with hy | hy
    · exact le_of_lt (lt_of_lt_of_le hx (h3 y hy))
    · rw [List.mem_singleton.1 hy]

theorem Spec.IsFirstMin.snoc_ge {l : List (Nat × K)} {b x : Nat × K} (h : IsFirstMin l b) (hx : b.2 ≤ x.2) :
    IsFirstMin (l ++ [x]) b := by
  obtain ⟨i, h1, h2, h3⟩ := h
  have hi : i < l.length := (List.getElem?_eq_some_iff.1 h1).1
  refine ⟨i, by rwa [List.getElem?_append_left hi], ?_, ?_⟩
  · intro j y hj hy
    rw [List.getElem?_append_left (by omega)] at hy
    exact h2 j y hj hy
  · intro y hy
    rcases List.mem_append.1 hy with hy | hy
    · exact h3 y hy
    · rw [List.mem_singleton.1 hy]; exact hx

/-- The best score and rule count found so far, as a value that may be missing. -/
def BestOf (l : List (Nat × K)) (s : Option K) (n : Option Nat) : Prop :=
  (l = [] ∧ s = none ∧ n = none) ∨ ∃ b, IsFirstMin l b ∧ s = some b.2 ∧ n = some b.1

theorem BestOf.snoc_lt {l : List (Nat × K)} {s : Option K} {n : Option Nat} (h : BestOf l s n) (x : Nat × K)
    (hx : ltInf x.2 s = true) : BestOf (l ++ [x]) (some x.2) (some x.1) := by
  right
  refine ⟨x, ?_, rfl, rfl⟩
  rcases h with ⟨rfl, _, _⟩ | ⟨b, hb, rfl, _⟩
  · exact isFirstMin_singleton x
  · exact hb.snoc_lt (by simpa [ltInf] using hx)

theorem BestOf.snoc_ge {l : List (Nat × K)} {s : Option K} {n : Option Nat} (h : BestOf l s n) (x : Nat × K)
    (hx : ltInf x.2 s = false) : BestOf (l ++ [x]) s n := by
  right
  rcases h with ⟨rfl, rfl, _⟩ | ⟨b, hb, rfl, hn⟩
  · simp [ltInf] at hx
  · exact ⟨b, hb.snoc_ge (by simpa [ltInf] using hx), rfl, hn⟩

/-! ### pre-pruning -/

/-- State of pre-pruning after it has been asked with `before` and has not fired yet. -/
structure PreInv (q : PreParams K) (before : List (Nat × K)) (p : PrePruning K) : Prop where
  agg : p.aggregation = q.aggregation
  rem : p.removeUnusedRules = some q.removeUnusedRules
  upd : p.updateInterval = q.updateInterval
  stp : p.stopInterval = q.stopInterval
  imp : p.minImprovement = q.minImprovement
  off : p.offset = q.offset
  notStopped : p.stopped = false
  recent : p.recentBuffer.Holds q.numCurrent ((q.assessments before).map Prod.snd)
  past : p.pastBuffer.Holds q.numPast
    (((q.assessments before).map Prod.snd).take ((q.assessments before).length - q.numCurrent))
  best : BestOf ((q.assessments before).drop (q.numPast + q.numCurrent)) p.bestScore p.bestNumRules

theorem improvementTooSmall_iff (a b m : K) : improvementTooSmall a b m = true ↔ TooSmall a b m := by
  unfold improvementTooSmall TooSmall
  by_cases h : b = 0 <;> simp [h]

theorem assessments_snoc (q : PreParams K) (before : List (Nat × K)) (x : Nat × K) :
    q.assessments (before ++ [x]) = q.assessments before ++ (if q.assessed x.1 then [x] else []) := by
  unfold PreParams.assessments
  rw [List.filter_append]
  congr 1
  by_cases h : q.assessed x.1 <;> simp [h]

/-- The best score is updated as specified. -/
theorem PreInv.updateBest {q : PreParams K} {before : List (Nat × K)} {p : PrePruning K} (h : PreInv q before p)
    (n : Nat) (s : K) (ha : q.assessed n = true) :
    ∃ bs bn, p.updateBest n s = { p with bestScore := bs, bestNumRules := bn } ∧
      BestOf ((q.assessments (before ++ [(n, s)])).drop (q.numPast + q.numCurrent)) bs bn := by
  have e : q.assessments (before ++ [(n, s)]) = q.assessments before ++ [(n, s)] := by
    rw [assessments_snoc]; simp [ha]
  rw [e]
  have hPpos := h.past.cpos
  have hCpos := h.recent.cpos
  have hfull : p.pastBuffer.full = true ↔ q.numPast + q.numCurrent ≤ (q.assessments before).length := by
    rw [h.past.full_iff, List.length_take, List.length_map]; omega
  unfold PrePruning.updateBest RingBuffer.isFull
  by_cases hf : q.numPast + q.numCurrent ≤ (q.assessments before).length
  · rw [List.drop_append_of_le_length hf, hfull.2 hf]
    cases hl : ltInf s p.bestScore with
    | true => exact ⟨some s, some n, rfl, h.best.snoc_lt (n, s) hl⟩
    | false => exact ⟨p.bestScore, p.bestNumRules, rfl, h.best.snoc_ge (n, s) hl⟩
  · have hf' : p.pastBuffer.full = false := by
      cases hx : p.pastBuffer.full with
      | true => exact absurd (hfull.1 hx) hf
      | false => rfl
    have hd : (q.assessments before ++ [(n, s)]).drop (q.numPast + q.numCurrent) = [] := by
      apply List.drop_eq_nil_of_le; simp; omega
    have hd' : (q.assessments before).drop (q.numPast + q.numCurrent) = [] := by
      apply List.drop_eq_nil_of_le; omega
    have hb := h.best
    rw [hd'] at hb
    rw [hd, hf']
    exact ⟨p.bestScore, p.bestNumRules, rfl, hb⟩

/-- The buffers are updated as specified. -/
theorem pushScore_spec {P C : Nat} {S : List K} {p : PrePruning K} (hr : p.recentBuffer.Holds C S)
    (hp : p.pastBuffer.Holds P (S.take (S.length - C))) (s : K) :
    ∃ rb pb, p.pushScore s = .ok { p with recentBuffer := rb, pastBuffer := pb } ∧
      rb.Holds C (S ++ [s]) ∧ pb.Holds P ((S ++ [s]).take ((S ++ [s]).length - C)) := by
  obtain ⟨rb, old, hpush, hrb, hold⟩ := hr.push s
  have hCpos := hr.cpos
  unfold PrePruning.pushScore
  rw [hpush]
  cases hrf : p.recentBuffer.full with
  | false =>
    refine ⟨rb, p.pastBuffer, rfl, hrb, ?_⟩
    have hlt : S.length < C := by
      by_contra hge
      rw [hr.full_iff.2 (by omega)] at hrf
      exact Bool.noConfusion hrf
    rw [show S.length - C = 0 by omega] at hp
    rw [List.length_append, List.length_singleton, show S.length + 1 - C = 0 by omega]
    simpa using hp
  | true =>
    have hle := hr.full_iff.1 hrf
    have hidx : S.length - C < S.length := by omega
    have hv := hold hrf
    rw [List.getElem?_eq_getElem hidx] at hv
    obtain ⟨pb, old2, hpush2, hpb, _⟩ := hp.push S[S.length - C]
    refine ⟨rb, pb, ?_, hrb, ?_⟩
    · simp only [hv, useInit, ok_bind, hpush2]
      rfl
    · have e1 : (S ++ [s]).take ((S ++ [s]).length - C) = S.take (S.length - C) ++ [S[S.length - C]] := by
        rw [List.length_append, List.length_singleton, List.take_append_of_le_length (by omega),
          show S.length + 1 - C = S.length - C + 1 by omega, List.take_succ_eq_append_getElem hidx]
      rw [e1]
      exact hpb

/-- The decision is taken as specified. -/
theorem decide_spec {q : PreParams K} {before : List (Nat × K)} {p : PrePruning K} (h : PreInv q before p)
    (hs : 1 ≤ q.stopInterval) (n : Nat) (ha : q.assessed n = true) (bs : Option K) (bn : Option Nat) (b : Nat × K)
    (hbn : bn = some b.1) (hf : p.pastBuffer.isFull = true) :
    (¬ q.Fires before n → PrePruning.decide { p with bestScore := bs, bestNumRules := bn } n = .ok ({}, false)) ∧
    (q.Fires before n → PrePruning.decide { p with bestScore := bs, bestNumRules := bn } n =
      .ok ({ stop := q.removeUnusedRules, numUsedRules := b.1 }, true)) := by
  have hPpos := h.past.cpos
  have hCpos := h.recent.cpos
  set E := q.assessments before with hE
  set S := E.map Prod.snd with hS
  have hSl : S.length = E.length := by simp [hS]
  have hle : q.numPast + q.numCurrent ≤ E.length := by
    have := h.past.full_iff.1 hf
    rw [List.length_take, List.length_map, ← hE] at this; omega
  unfold PrePruning.decide
  rw [h.agg, h.rem, h.stp, h.imp, modAt_of_pos hs, ok_bind]
  by_cases hmod : n % q.stopInterval = 0
  swap
  · have hnf : ¬ q.Fires before n := fun hf' => hmod hf'.2.2.1
    exact ⟨fun _ => by simp [hmod, pure_eq_ok], fun hf' => absurd hf' hnf⟩
  have hSne : S ≠ [] := by
    intro e; rw [e] at hSl; simp at hSl; omega
  have hTne : S.take (E.length - q.numCurrent) ≠ [] := by
    intro e
    have := congrArg List.length e
    simp [hSl] at this; omega
  obtain ⟨x1, i2, i3⟩ := aggregateBuffer_spec h.past hTne q.aggregation
  obtain ⟨x2, j2, j3⟩ := aggregateBuffer_spec h.recent hSne q.aggregation
  have hwin1 : IsAggregate q.aggregation (q.pastWindow S) x1 := by
    have : q.pastWindow S = (S.take (E.length - q.numCurrent)).drop
        ((S.take (E.length - q.numCurrent)).length - q.numPast) := by
      unfold PreParams.pastWindow
      rw [List.drop_take, List.length_take]
      congr 1
      · omega
      · congr 1; omega
    rw [this]; exact i3
  have hwin2 : IsAggregate q.aggregation (q.recentWindow S) x2 := j3
  simp only [hmod, if_true, i2, j2, ok_bind]
  by_cases hts : TooSmall x1 x2 q.minImprovement
  · have hfires : q.Fires before n := ⟨ha, by rw [← hE, ← hS, hSl]; exact hle, hmod, x1, x2, hwin1, hwin2, hts⟩
    refine ⟨fun hf' => absurd hfires hf', fun _ => ?_⟩
    simp only [(improvementTooSmall_iff _ _ _).2 hts, if_true, useInit, hbn, ok_bind, pure_eq_ok]
  · have hnf : ¬ q.Fires before n := by
      rintro ⟨_, _, _, y1, y2, hy1, hy2, hy3⟩
      rw [IsAggregate.unique hy1 hwin1, IsAggregate.unique hy2 hwin2] at hy3
      exact hts hy3
    refine ⟨fun _ => ?_, fun hf' => absurd hf' hnf⟩
    have : improvementTooSmall x1 x2 q.minImprovement = false := by
      rw [Bool.eq_false_iff]; exact fun hh => hts ((improvementTooSmall_iff _ _ _).1 hh)
    simp only [this, Bool.false_eq_true, if_false, pure_eq_ok]

theorem PreInv.step {q : PreParams K} {before : List (Nat × K)} {p : PrePruning K} (h : PreInv q before p)
    (hu : 1 ≤ q.updateInterval) (hs : 1 ≤ q.stopInterval) (n : Nat) (s : K) :
    (¬ q.Fires before n → ∃ p', p.test n s = .ok ({}, p') ∧ PreInv q (before ++ [(n, s)]) p') ∧
    (q.Fires before n → ∃ p' b, p.test n s = .ok ({ stop := q.removeUnusedRules, numUsedRules := b.1 }, p') ∧
      p'.stopped = true ∧
      IsFirstMin ((q.assessments (before ++ [(n, s)])).drop (q.numPast + q.numCurrent)) b) := by
  by_cases ha : q.assessed n = true
  swap
  · -- not assessed
    have hnf : ¬ q.Fires before n := fun hf => ha hf.1
    refine ⟨fun _ => ⟨p, ?_, ?_⟩, fun hf => absurd hf hnf⟩
    · unfold PrePruning.test
      rw [h.notStopped, h.off, h.upd]
      simp only [PreParams.assessed, Bool.and_eq_true, decide_eq_true_eq, not_and] at ha
      by_cases ho : n > q.offset
      · have := ha ho
        simp [ho, modAt_of_pos hu, this]
      · simp [ho]
    · have e : q.assessments (before ++ [(n, s)]) = q.assessments before := by
        rw [assessments_snoc]; simp [ha]
      constructor
      all_goals first
        | exact h.agg | exact h.rem | exact h.upd | exact h.stp | exact h.imp | exact h.off | exact h.notStopped
        | (rw [e]; exact h.recent) | (rw [e]; exact h.past) | (rw [e]; exact h.best)
  -- assessed
  have htest : p.test n s = p.assess n s := by
    have ha' := ha
    simp only [PreParams.assessed, Bool.and_eq_true, decide_eq_true_eq] at ha'
    unfold PrePruning.test
    rw [h.notStopped, h.off, h.upd, modAt_of_pos hu]
    simp [ha'.1, ha'.2]
  rw [htest]
  have e : q.assessments (before ++ [(n, s)]) = q.assessments before ++ [(n, s)] := by
    rw [assessments_snoc]; simp [ha]
  obtain ⟨bs, bn, hub, hbest⟩ := h.updateBest n s ha
  have hrec := h.recent
  have hpast := h.past
  have hlen : ((q.assessments before).map Prod.snd).length = (q.assessments before).length := by simp
  rw [← hlen] at hpast
  have hinv : ∀ st, ∃ p', PrePruning.pushScore { p with bestScore := bs, bestNumRules := bn, stopped := st } s = .ok p' ∧
      p'.stopped = st ∧ (st = false → PreInv q (before ++ [(n, s)]) p') := by
    intro st
    obtain ⟨rb, pb, h1, h2, h3⟩ := pushScore_spec
      (p := { p with bestScore := bs, bestNumRules := bn, stopped := st }) hrec hpast s
    refine ⟨_, h1, rfl, ?_⟩
    rintro rfl
    constructor
    · exact h.agg
    · exact h.rem
    · exact h.upd
    · exact h.stp
    · exact h.imp
    · exact h.off
    · rfl
    · rw [e, List.map_append]; exact h2
    · have : (q.assessments before ++ [(n, s)]).length = ((q.assessments before).map Prod.snd ++ [s]).length := by simp
      rw [e, List.map_append, this]; exact h3
    · exact hbest
  unfold PrePruning.assess
  rw [hub]
  simp only
  cases hf : p.pastBuffer.isFull with
  | false =>
    have hnf : ¬ q.Fires before n := by
      intro hf'
      have h1 := hf'.2.1
      have h2 : p.pastBuffer.full = true := by
        rw [h.past.full_iff, List.length_take, List.length_map]
        rw [hlen] at h1
        have := h.recent.cpos; omega
      rw [RingBuffer.isFull, h2] at hf
      exact Bool.noConfusion hf
    refine ⟨fun _ => ?_, fun hf' => absurd hf' hnf⟩
    obtain ⟨p', h1, _, h3⟩ := hinv false
    rw [h.notStopped]
    simp only [Bool.false_eq_true, if_false, h1, ok_bind]
    exact ⟨p', rfl, h3 rfl⟩
  | true =>
    have hne : (q.assessments (before ++ [(n, s)])).drop (q.numPast + q.numCurrent) ≠ [] := by
      have := h.past.full_iff.1 hf
      rw [List.length_take, List.length_map] at this
      have := h.past.cpos
      rw [e, Ne, List.drop_eq_nil_iff]; simp; omega
    rcases hbest with ⟨hx, _, _⟩ | ⟨b, hb1, hb2, hb3⟩
    · exact absurd hx hne
    obtain ⟨hd1, hd2⟩ := decide_spec h hs n ha bs bn b hb3 hf
    constructor
    · intro hnf
      obtain ⟨p', h1, _, h3⟩ := hinv false
      simp only [if_true, hd1 hnf, h1, ok_bind]
      exact ⟨p', rfl, h3 rfl⟩
    · intro hfires
      obtain ⟨p', h1, h2, _⟩ := hinv true
      simp only [if_true, hd2 hfires, h1, ok_bind]
      exact ⟨p', b, rfl, h2, hb1⟩

/-- A criterion that has fired never reports anything again. -/
theorem test_of_stopped {p : PrePruning K} (h : p.stopped = true) (n : Nat) (s : K) : p.test n s = .ok ({}, p) := by
  unfold PrePruning.test; simp [h]

theorem runTests_cons {σ ι : Type _} {test : σ → ι → Res (Result × σ)} {st st' : σ} {x : ι} {r : Result} (xs : List ι)
    (h : test st x = .ok (r, st')) {rs : List Result} {st'' : σ} (h' : runTests test st' xs = .ok (rs, st'')) :
    runTests test st (x :: xs) = .ok (r :: rs, st'') := by
  unfold runTests
  simp only [h, ok_bind, h', pure_eq_ok]

theorem run_of_stopped {p : PrePruning K} (h : p.stopped = true) (xs : List (Nat × K)) :
    runTests (fun p x => PrePruning.test p x.1 x.2) p xs = .ok (xs.map (fun _ => {}), p) := by
  induction xs with
  | nil => rfl
  | cons x xs ih => exact runTests_cons xs (test_of_stopped h x.1 x.2) ih

/-- What has to be reported by the `i`-th test of a history. -/
def PreResultSpec (q : PreParams K) (history : List (Nat × K)) (i : Nat) (n : Nat) (r : Result) : Prop :=
  (¬ q.Fires (history.take i) n → r = {}) ∧
  ((∃ j x, j < i ∧ history[j]? = some x ∧ q.Fires (history.take j) x.1) → r = {}) ∧
  (q.Fires (history.take i) n → (∀ j x, j < i → history[j]? = some x → ¬ q.Fires (history.take j) x.1) →
    ∃ b, r = { stop := q.removeUnusedRules, numUsedRules := b.1 } ∧
      IsFirstMin ((q.assessments (history.take (i + 1))).drop (q.numPast + q.numCurrent)) b)

theorem PreInv.run {q : PreParams K} (hu : 1 ≤ q.updateInterval) (hs : 1 ≤ q.stopInterval) :
    ∀ (xs before : List (Nat × K)) (p : PrePruning K), PreInv q before p →
      (∀ (j : Nat) (x : Nat × K), j < before.length → before[j]? = some x → ¬ q.Fires (before.take j) x.1) →
      ∃ rs p', runTests (fun p x => PrePruning.test p x.1 x.2) p xs = .ok (rs, p') ∧ rs.length = xs.length ∧
        ∀ (i : Nat) (x : Nat × K) (r : Result), xs[i]? = some x → rs[i]? = some r →
          PreResultSpec q (before ++ xs) (before.length + i) x.1 r := by
  intro xs
  induction xs with
  | nil => intro before p _ _; exact ⟨[], p, rfl, rfl, by simp⟩
  | cons y ys ih =>
    intro before p hinv hno
    obtain ⟨h1, h2⟩ := hinv.step hu hs y.1 y.2
    have htk : (before ++ y :: ys).take before.length = before := by simp
    have htk1 : (before ++ y :: ys).take (before.length + 1) = before ++ [y] := by
      rw [show before ++ y :: ys = (before ++ [y]) ++ ys by simp, List.take_left' (by simp)]
    have hno' : ∀ (j : Nat) (x : Nat × K), j < before.length → (before ++ y :: ys)[j]? = some x →
        ¬ q.Fires ((before ++ y :: ys).take j) x.1 := by
      intro j x hj hx
      rw [List.getElem?_append_left hj] at hx
      rw [List.take_append_of_le_length (by omega)]
      exact hno j x hj hx
    by_cases hf : q.Fires before y.1
    · obtain ⟨p', b, e1, e2, e3⟩ := h2 hf
      refine ⟨_, p', runTests_cons ys e1 (run_of_stopped e2 ys), by simp, ?_⟩
      intro i x r hx hr
      cases i with
      | zero =>
        simp only [List.getElem?_cons_zero, Option.some.injEq] at hx hr
        subst hx hr
        refine ⟨?_, ?_, ?_⟩
        · intro hnf; rw [Nat.add_zero, htk] at hnf; exact absurd hf hnf
        · rintro ⟨j, x, hj, hx, hfx⟩
          exact absurd hfx (hno' j x (by omega) hx)
        · intro _ _
          exact ⟨b, rfl, by rw [Nat.add_zero, htk1]; exact e3⟩
      | succ i =>
        simp only [List.getElem?_cons_succ, List.getElem?_map, Option.map_eq_some_iff] at hx hr
        obtain ⟨_, _, rfl⟩ := hr
        refine ⟨fun _ => rfl, fun _ => rfl, ?_⟩
        intro _ hall
        refine absurd ?_ (hall before.length y (by omega) (by simp))
        rw [htk]; exact hf
    · obtain ⟨p', e1, e2⟩ := h1 hf
      obtain ⟨rs, p'', e3, e4, e5⟩ := ih (before ++ [y]) p' e2 (by
        intro j x hj hx
        rw [List.length_append, List.length_singleton] at hj
        by_cases hjb : j < before.length
        · rw [List.getElem?_append_left hjb] at hx
          rw [List.take_append_of_le_length (by omega)]
          exact hno j x hjb hx
        · have : j = before.length := by omega
          subst this
          simp only [List.getElem?_concat_length, Option.some.injEq] at hx
          subst hx
          simpa using hf)
      refine ⟨{} :: rs, p'', runTests_cons ys e1 e3, by simp [e4], ?_⟩
      intro i x r hx hr
      cases i with
      | zero =>
        simp only [List.getElem?_cons_zero, Option.some.injEq] at hx hr
        subst hx hr
        refine ⟨fun _ => rfl, fun _ => rfl, ?_⟩
        intro hfx
        rw [Nat.add_zero, htk] at hfx
        exact absurd hfx hf
      | succ i =>
        have := e5 i x r (by simpa using hx) (by simpa using hr)
        simpa [Nat.add_assoc, Nat.add_comm 1 i] using this

theorem preInv_init {q : PreParams K} (hp : 1 ≤ q.numPast) (hc : 1 ≤ q.numCurrent)
    (hov : (q.numPast + q.numCurrent) * q.updateInterval < 2 ^ 32)
    (hoff : q.offset = q.minRules - (q.numPast + q.numCurrent) * q.updateInterval) :
    PreInv q [] (PrePruning.init q.aggregation (some q.removeUnusedRules) q.minRules q.updateInterval q.stopInterval
      q.numPast q.numCurrent q.minImprovement) := by
  constructor
  all_goals try rfl
  · show offsetOf _ _ _ _ = _
    rw [Nat.add_mul] at hov hoff
    unfold offsetOf
    rw [Nat.mod_eq_of_lt (by omega : q.numPast * q.updateInterval < 2 ^ 32),
      Nat.mod_eq_of_lt (by omega : q.numCurrent * q.updateInterval < 2 ^ 32), Nat.mod_eq_of_lt hov, hoff]
    simp only
    split <;> omega
  · exact RingBuffer.holds_init hc
  · have e : q.assessments [] = [] := by simp [PreParams.assessments]
    rw [e, List.map_nil, List.take_nil]
    exact RingBuffer.holds_init hp
  · left; exact ⟨by simp [PreParams.assessments], rfl, rfl⟩

/-- The `k`-th of increasing multiples of `u` that exceed `o` exceeds `o + k * u`. -/
theorem grid_lower_bound {u o : Nat} : ∀ (l : List Nat) (o : Nat), l.Pairwise (· < ·) → (∀ n ∈ l, n % u = 0) →
    (∀ n ∈ l, o < n) → ∀ (k : Nat) (n : Nat), l[k]? = some n → o + k * u < n
  | [], _, _, _, _, k, n, h => by simp at h
  | a :: l, o, hp, hu, ho, k, n, h => by
    cases k with
    | zero => simp at h; subst h; have := ho a (by simp); omega
    | succ k =>
      rw [List.pairwise_cons] at hp
      have := grid_lower_bound (u := u) (o := o) l (o + u) hp.2 (fun n hn => hu n (List.mem_cons_of_mem _ hn)) (by
        intro m hm
        have h1 := ho a (by simp)
        have h2 := hp.1 m hm
        have h3 := hu a (by simp)
        have h4 := hu m (List.mem_cons_of_mem _ hm)
        obtain ⟨x, hx⟩ := Nat.dvd_of_mod_eq_zero h3
        obtain ⟨y, hy⟩ := Nat.dvd_of_mod_eq_zero h4
        have h5 : x < y := by
          by_contra hge
          have := Nat.mul_le_mul_left u (Nat.le_of_not_lt hge)
          omega
        have h6 := Nat.mul_le_mul_left u (Nat.succ_le_of_lt h5)
        rw [Nat.mul_succ] at h6
        omega) k n (by simpa using h)
      rw [Nat.succ_mul]; omega

/-! ### post-pruning -/

theorem post_run (q : PostPruning K) (hi : 1 ≤ q.interval) (hm : 1 ≤ q.minRules) :
    ∀ (xs before : List (Nat × K)) (p : PostPruning K), p.minRules = q.minRules → p.interval = q.interval →
      ∀ bn, BestOf (before.filter (fun x => decide (q.minRules ≤ x.1 ∧ x.1 % q.interval = 0))) p.bestScore bn →
      ∃ rs p' bn', runTests (fun p x => PostPruning.test p x.1 x.2) p xs = .ok (rs, p') ∧ rs.length = xs.length ∧
        (∀ r ∈ rs, r.stop = false) ∧
        BestOf ((before ++ xs).filter (fun x => decide (q.minRules ≤ x.1 ∧ x.1 % q.interval = 0))) p'.bestScore bn' ∧
        bn' = (((rs.map Result.numUsedRules).filter (· ≠ 0)).getLast? <|> bn) := by
  intro xs
  induction xs with
  | nil =>
    intro before p _ _ bn hb
    exact ⟨[], p, bn, rfl, rfl, by simp, by simpa using hb, by simp⟩
  | cons y ys ih =>
    intro before p h1 h2 bn hb
    have hsplit : before ++ y :: ys = (before ++ [y]) ++ ys := by simp
    by_cases hass : q.minRules ≤ y.1 ∧ y.1 % q.interval = 0
    · have hfil : (before ++ [y]).filter (fun x => decide (q.minRules ≤ x.1 ∧ x.1 % q.interval = 0)) =
          before.filter (fun x => decide (q.minRules ≤ x.1 ∧ x.1 % q.interval = 0)) ++ [y] := by
        rw [List.filter_append]; simp [hass]
      cases hl : ltInf y.2 p.bestScore with
      | true =>
        obtain ⟨rs, p', bn', e1, e2, e3, e4, e5⟩ := ih (before ++ [y])
          { p with bestScore := some y.2, bestNumRules := y.1 } h1 h2 (some y.1) (by rw [hfil]; exact hb.snoc_lt y hl)
        refine ⟨{ numUsedRules := y.1 } :: rs, p', bn', runTests_cons ys ?_ e1, by simp [e2], ?_, by rw [hsplit]; exact e4, ?_⟩
        · unfold PostPruning.test
          rw [h1, h2, if_pos hass.1, modAt_of_pos hi]
          simp [hass.2, hl]
        · intro r hr
          rcases List.mem_cons.1 hr with rfl | hr
          · rfl
          · exact e3 r hr
        · rw [e5]
          have hy : y.1 ≠ 0 := by omega
          simp only [List.map_cons]
          rw [List.filter_cons_of_pos (by simpa using hy), List.getLast?_cons]
          cases (((rs.map Result.numUsedRules).filter (· ≠ 0)).getLast?) <;> rfl
      | false =>
        obtain ⟨rs, p', bn', e1, e2, e3, e4, e5⟩ := ih (before ++ [y]) p h1 h2 bn (by rw [hfil]; exact hb.snoc_ge y hl)
        refine ⟨{} :: rs, p', bn', runTests_cons ys ?_ e1, by simp [e2], ?_, by rw [hsplit]; exact e4, ?_⟩
        · unfold PostPruning.test
          rw [h1, h2, if_pos hass.1, modAt_of_pos hi]
          simp [hl]
        · intro r hr
          rcases List.mem_cons.1 hr with rfl | hr
          · rfl
          · exact e3 r hr
        · rw [e5]; simp
    · have hfil : (before ++ [y]).filter (fun x => decide (q.minRules ≤ x.1 ∧ x.1 % q.interval = 0)) =
          before.filter (fun x => decide (q.minRules ≤ x.1 ∧ x.1 % q.interval = 0)) := by
        rw [List.filter_append]; simp [hass]
      obtain ⟨rs, p', bn', e1, e2, e3, e4, e5⟩ := ih (before ++ [y]) p h1 h2 bn (by rw [hfil]; exact hb)
      refine ⟨{} :: rs, p', bn', runTests_cons ys ?_ e1, by simp [e2], ?_, by rw [hsplit]; exact e4, ?_⟩
      · unfold PostPruning.test
        rw [h1, h2, modAt_of_pos hi]
        by_cases hm' : q.minRules ≤ y.1
        · have : ¬ (y.1 % q.interval = 0) := fun h => hass ⟨hm', h⟩
          simp [this]
        · have : ¬ (y.1 ≥ q.minRules) := hm'
          simp [this]
      · intro r hr
        rcases List.mem_cons.1 hr with rfl | hr
        · rfl
        · exact e3 r hr
      · rw [e5]; simp

end

end MLRL.Stopping
