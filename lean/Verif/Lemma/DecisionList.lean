import Verif.Model.DecisionList
import Verif.Spec.DecisionList
import Verif.Spec.Predictor
import Verif.Lemma.Body
import Verif.Lemma.LossUpdate

/-!
# Lemmas about the prediction by decision lists
-/

set_option linter.unusedSectionVars false

namespace MLRL.DecisionList

open Predictor Spec

variable {K : Type}

/-! ### sparse examples -/

theorem forSparseLoop_eq {S : Type} (apply : Head K → S → Res S) (m : Nat) (row : SparseRow) (sv : FVal) (hnd : (row.map Prod.fst).Nodup)
    (hlt : ∀ p ∈ row, p.1 < m) (rules : List (Rule K)) : ∀ (s : S) (t : TmpArrays) (n : Nat),
    t.values.length = m → t.stamps.length = m → (∀ s ∈ t.stamps, s < n) →
    forSparseLoop apply row sv rules s t n = forDense apply (Body.Spec.toDense m row sv) rules s := by
  induction rules with
  | nil => intros; rfl
  | cons r rs ih =>
    intro s0 t n hv hs hn
    obtain ⟨t', e1, e2, e3, e4⟩ := coversSparse_eq n m row sv t r.body hv hs hnd hlt
      (fun s h => Nat.ne_of_lt (hn s h))
    have hn' : ∀ s ∈ t'.stamps, s < n + 1 := by
      intro s h
      rcases e3 s h with h | h
      · have := hn s h; omega
      · omega
    simp only [forSparseLoop, forDense]
    rw [e4]
    cases hb : r.body.coversDense (Body.Spec.toDense m row sv) with
    | error e => rfl
    | ok b =>
      simp only [Except.map, ok_bind]
      cases b with
      | false => exact ih s0 t' (n + 1) e1 e2 hn'
      | true =>
        simp only [if_true]
        congr 1
        funext s
        exact ih s t' (n + 1) e1 e2 hn'

/-! ### dense predictions -/

/-- The labels a head refers to, with their values. -/
def entries : Head K → List (Nat × K)
  | .complete values => (values.zipIdx).map (fun p => (p.2, p.1))
  | .partial_ es => es

/-- The first value for label `j`. -/
def value (j : Nat) (es : List (Nat × K)) : Option K := (es.find? (fun e => e.1 == j)).map Prod.snd

theorem applyComplete_eq [Zero K] [LT K] [DecidableLT K] (values : List K) : ∀ (i : Nat) (s : DenseState),
    applyComplete values i s = applyPartial ((values.zipIdx i).map (fun p => (p.2, p.1))) s := by
  induction values with
  | nil => intros; rfl
  | cons v vs ih =>
    intro i s
    simp only [applyComplete, List.zipIdx_cons, List.map_cons, applyPartial]
    congr 1
    funext s
    exact ih (i + 1) s

theorem applyHeadDense_eq [Zero K] [LT K] [DecidableLT K] (h : Head K) (s : DenseState) : applyHeadDense h s = applyPartial (entries h) s := by
  cases h with
  | complete values => exact applyComplete_eq values 0 s
  | partial_ es => rfl

theorem mem_entries (h : Head K) (j : Nat) (v : K) : (j, v) ∈ entries h ↔ Predicts j v h := by
  cases h with
  | complete values =>
    simp only [entries, Predicts, List.mem_map, Prod.mk.injEq, Prod.exists]
    constructor
    · rintro ⟨a, b, hm, rfl, rfl⟩
      rw [List.mk_mem_zipIdx_iff_getElem?] at hm
      exact hm
    · intro h
      exact ⟨v, j, List.mk_mem_zipIdx_iff_getElem?.mpr h, rfl, rfl⟩
  | partial_ es => rfl

theorem entries_fit {n : Nat} {h : Head K} (hf : Predictor.Spec.HeadFits n h) : ∀ e ∈ entries h, e.1 < n := by
  intro e he
  have := (mem_entries h e.1 e.2).mp he
  cases h with
  | complete values =>
    simp only [Predicts] at this
    obtain ⟨h1, _⟩ := List.getElem?_eq_some_iff.mp this
    simp only [Predictor.Spec.HeadFits] at hf
    omega
  | partial_ es => exact hf e he

theorem value_eq_none {j : Nat} {h : Head K} : value j (entries h) = none ↔ ∀ v, ¬ Predicts j v h := by
  simp only [value, Option.map_eq_none_iff, List.find?_eq_none]
  constructor
  · intro hn v hp
    exact hn _ ((mem_entries h j v).mpr hp) (by simp)
  · intro hn e he heq
    simp only [beq_iff_eq] at heq
    exact hn e.2 ((mem_entries h j e.2).mp (by rw [← heq]; exact he))

theorem value_eq_some {j : Nat} {h : Head K} {v : K} (hv : value j (entries h) = some v) : Predicts j v h := by
  simp only [value, Option.map_eq_some_iff] at hv
  obtain ⟨e, h1, rfl⟩ := hv
  have h2 := List.find?_some h1
  simp only [beq_iff_eq] at h2
  refine (mem_entries h j e.2).mp ?_
  rw [← h2]
  exact List.mem_of_find?_eq_some h1

theorem setLabel_spec [Zero K] [LT K] [DecidableLT K] {n index : Nat} (v : K) {s : DenseState} (hr : s.row.length = n) (hm : s.mask.length = n)
    (hi : index < n) : ∃ s', setLabel index v s = .ok s' ∧ s'.row.length = n ∧ s'.mask.length = n ∧
      ∀ (j : Nat) (m : Bool) (c : Option Bool), s.mask[j]? = some m → s.row[j]? = some c →
        s'.mask[j]? = some (m || decide (index = j)) ∧
        s'.row[j]? = some (if m = false ∧ index = j then some (decide (v > 0)) else c) := by
  obtain ⟨b, hb⟩ : ∃ b, s.mask[index]? = some b := ⟨_, List.getElem?_eq_getElem (by omega)⟩
  unfold setLabel
  rw [readAt_of_getElem? hb, ok_bind]
  cases b with
  | true =>
    refine ⟨s, rfl, hr, hm, ?_⟩
    intro j m c h1 h2
    by_cases hij : index = j
    · subst hij
      rw [hb] at h1
      cases h1
      simp [hb, h2]
    · simp [hij, h1, h2]
  | false =>
    simp only [Bool.false_eq_true, if_false]
    rw [writeAt_of_lt (by omega), ok_bind, writeAt_of_lt (by omega), ok_bind]
    refine ⟨_, rfl, by simpa using hr, by simpa using hm, ?_⟩
    intro j m c h1 h2
    by_cases hij : index = j
    · subst hij
      rw [hb] at h1
      cases h1
      simp [hr, hm, hi]
    · simp [hij, h1, h2]

theorem applyPartial_spec [Zero K] [LT K] [DecidableLT K] {n : Nat} (es : List (Nat × K)) : ∀ {s : DenseState}, s.row.length = n →
    s.mask.length = n → (∀ e ∈ es, e.1 < n) → ∃ s', applyPartial es s = .ok s' ∧ s'.row.length = n ∧ s'.mask.length = n ∧
      ∀ (j : Nat) (m : Bool) (c : Option Bool), s.mask[j]? = some m → s.row[j]? = some c →
        s'.mask[j]? = some (m || (value j es).isSome) ∧
        s'.row[j]? = some (if m then c else ((value j es).map (fun v => decide (v > 0))).or c) := by
  induction es with
  | nil =>
    intro s hr hm _
    refine ⟨s, rfl, hr, hm, ?_⟩
    intro j m c h1 h2
    simp [value, h1, h2]
  | cons e es ih =>
    intro s hr hm hf
    obtain ⟨s1, h1, h2, h3, h4⟩ := setLabel_spec e.2 hr hm (hf e (by simp))
    obtain ⟨s2, g1, g2, g3, g4⟩ := ih h2 h3 (fun e' he' => hf e' (by simp [he']))
    refine ⟨s2, ?_, g2, g3, ?_⟩
    · show setLabel e.1 e.2 s >>= _ = _
      rw [h1, ok_bind, g1]
    · intro j m c hm' hc'
      obtain ⟨a1, a2⟩ := h4 j m c hm' hc'
      obtain ⟨b1, b2⟩ := g4 j _ _ a1 a2
      rw [b1, b2]
      by_cases hij : e.1 = j
      · cases m <;> simp [value, hij]
      · have hij' : (e.1 == j) = false := by simpa using hij
        cases m <;> simp [value, hij, hij']

/-- The decision of the first rule that covers the example and predicts for label `j`. -/
def decision [Zero K] [LT K] [DecidableLT K] (covered : Rule K → Bool) (rules : List (Rule K)) (j : Nat) : Option Bool :=
  rules.findSome? (fun r => if covered r then (value j (entries r.head)).map (fun v => decide (v > 0)) else none)

theorem forDense_spec [Zero K] [LT K] [DecidableLT K] {n : Nat} {row : List FVal} {covered : Rule K → Bool} (rules : List (Rule K)) :
    ∀ {s : DenseState}, (∀ r ∈ rules, r.body.coversDense row = .ok (covered r)) → (∀ r ∈ rules, Predictor.Spec.HeadFits n r.head) →
    s.row.length = n → s.mask.length = n → ∃ s', forDense applyHeadDense row rules s = .ok s' ∧ s'.row.length = n ∧
      ∀ (j : Nat) (m : Bool) (c : Option Bool), s.mask[j]? = some m → s.row[j]? = some c →
        s'.row[j]? = some (if m then c else (decision covered rules j).or c) := by
  induction rules with
  | nil =>
    intro s _ _ hr _
    refine ⟨s, rfl, hr, ?_⟩
    intro j m c h1 h2
    simp [decision, h2]
  | cons r rs ih =>
    intro s hc hf hr hm
    simp only [forDense]
    rw [hc r (by simp), ok_bind]
    cases hcov : covered r with
    | false =>
      simp only [Bool.false_eq_true, if_false, ok_bind]
      obtain ⟨s', h1, h2, h3⟩ := ih (s := s) (fun r' hr' => hc r' (by simp [hr'])) (fun r' hr' => hf r' (by simp [hr'])) hr hm
      refine ⟨s', h1, h2, ?_⟩
      intro j m c e1 e2
      rw [h3 j m c e1 e2]
      simp [decision, hcov]
    | true =>
      simp only [if_true]
      rw [applyHeadDense_eq]
      obtain ⟨s1, h1, h2, h3, h4⟩ := applyPartial_spec (entries r.head) hr hm (entries_fit (hf r (by simp)))
      rw [h1, ok_bind]
      obtain ⟨s', g1, g2, g3⟩ := ih (fun r' hr' => hc r' (by simp [hr'])) (fun r' hr' => hf r' (by simp [hr'])) h2 h3
      refine ⟨s', g1, g2, ?_⟩
      intro j m c e1 e2
      obtain ⟨a1, a2⟩ := h4 j m c e1 e2
      rw [g3 j _ _ a1 a2]
      cases m with
      | true => simp
      | false =>
        cases hv : value j (entries r.head) with
        | none => simp [decision, hcov, hv]
        | some v => simp [decision, hcov, hv]

theorem decision_eq_none [Zero K] [LT K] [DecidableLT K] {covered : Rule K → Bool} {rules : List (Rule K)} {j : Nat} :
    decision covered rules j = none ↔ Undecided covered rules j := by
  simp only [decision, List.findSome?_eq_none_iff, Undecided]
  constructor
  · intro h r hr hc
    have := h r hr
    rw [if_pos hc, Option.map_eq_none_iff] at this
    exact value_eq_none.mp this
  · intro h r hr
    split
    · rename_i hc
      rw [Option.map_eq_none_iff]
      exact value_eq_none.mpr (h r hr hc)
    · rfl

theorem decision_eq_some [Zero K] [LT K] [DecidableLT K] {covered : Rule K → Bool} {rules : List (Rule K)} {j : Nat} {b : Bool}
    (h : decision covered rules j = some b) : Decided covered rules j b := by
  simp only [decision] at h
  obtain ⟨pre, r, post, h1, h2, h3⟩ := List.findSome?_eq_some_iff.mp h
  split at h2
  · rename_i hc
    obtain ⟨v, hv, hb⟩ := Option.map_eq_some_iff.mp h2
    refine ⟨pre, r, post, v, h1, hc, value_eq_some hv, ?_, ?_⟩
    · rw [← hb]; simp
    · intro r' hr' hc'
      have := h3 r' hr'
      rw [if_pos hc', Option.map_eq_none_iff] at this
      exact value_eq_none.mp this
  · cases h2

/-! ### sparse predictions -/

/-- What holds while the elements of `buffer` and `scores` are merged: `w` has been written, `b` and `s` remain. -/
structure Merging (b0 s0 w b s : List Nat) : Prop where
  sortedBuffer : (w ++ b).Pairwise (· < ·)
  sortedScores : (w ++ s).Pairwise (· < ·)
  elements : ∀ x, x ∈ w ∨ x ∈ b ∨ x ∈ s ↔ x ∈ b0 ∨ x ∈ s0
  size : b0.length ≤ w.length + b.length

theorem mergeStep_spec {numLabels : Nat} {b0 s0 w b s : List Nat} (h : Merging b0 s0 w b s) (hb : b ≠ []) (hlt : ∀ x ∈ b, x < numLabels)
    (hst : ∀ x ∈ s, x < numLabels) :
    ∃ r, mergeStep numLabels b s = .ok r ∧ Merging b0 s0 (w ++ [r.1]) r.2.1 r.2.2 ∧ (∀ x ∈ r.2.1, x < numLabels) ∧
      (∀ x ∈ r.2.2, x < numLabels) := by
  obtain ⟨hs1, hs2, he, hsz⟩ := h
  cases b with
  | nil => exact absurd rfl hb
  | cons x bs =>
    have hx := hlt x (by simp)
    rw [List.pairwise_append] at hs1 hs2
    obtain ⟨p1, p2, p3⟩ := hs1
    obtain ⟨_, q2, q3⟩ := hs2
    rw [List.pairwise_cons] at p2
    have hsorted : ∀ (t : Nat) (l : List Nat), (∀ a ∈ w, a < t) → l.Pairwise (· < ·) → (∀ a ∈ l, t < a) → (∀ a ∈ w, ∀ c ∈ l, a < c) →
        (w ++ [t] ++ l).Pairwise (· < ·) := by
      intro t l h1 h2 h3 h4
      rw [List.pairwise_append, List.pairwise_append]
      refine ⟨⟨p1, by simp, ?_⟩, h2, ?_⟩
      · intro a ha c hc
        simp only [List.mem_singleton] at hc
        subst hc
        exact h1 a ha
      · intro a ha c hc
        simp only [List.mem_append, List.mem_singleton] at ha
        rcases ha with ha | rfl
        · exact h4 a ha c hc
        · exact h3 c hc
    cases s with
    | nil =>
      refine ⟨(x, bs, []), ?_, ⟨?_, ?_, ?_, ?_⟩, ?_, ?_⟩
      · simp [mergeStep, currentIndex, hx, increment, pure_eq_ok, ok_bind]
      · exact hsorted x bs (fun a ha => p3 a ha x (by simp)) p2.2 p2.1 (fun a ha c hc => p3 a ha c (by simp [hc]))
      · exact hsorted x [] (fun a ha => p3 a ha x (by simp)) (by simp) (by simp) (by simp)
      · intro y; rw [← he]; simp; tauto
      · simp at hsz ⊢; omega
      · intro y hy; exact hlt y (by simp [show y ∈ bs from hy])
      · intro y hy; simp at hy
    | cons y ys =>
      rw [List.pairwise_cons] at q2
      rcases lt_trichotomy x y with hxy | hxy | hxy
      · refine ⟨(x, bs, y :: ys), ?_, ⟨?_, ?_, ?_, ?_⟩, ?_, ?_⟩
        · simp [mergeStep, currentIndex, hxy, increment, pure_eq_ok, ok_bind]
        · exact hsorted x bs (fun a ha => p3 a ha x (by simp)) p2.2 p2.1 (fun a ha c hc => p3 a ha c (by simp [hc]))
        · refine hsorted x (y :: ys) (fun a ha => p3 a ha x (by simp)) (List.pairwise_cons.mpr q2) ?_ q3
          intro a ha
          rcases List.mem_cons.mp ha with rfl | ha
          · exact hxy
          · exact lt_trans hxy (q2.1 a ha)
        · intro z; rw [← he]; simp; tauto
        · simp at hsz ⊢; omega
        · intro z hz; exact hlt z (by simp [show z ∈ bs from hz])
        · exact hst
      · subst hxy
        refine ⟨(x, bs, ys), ?_, ⟨?_, ?_, ?_, ?_⟩, ?_, ?_⟩
        · simp [mergeStep, currentIndex, increment, pure_eq_ok, ok_bind]
        · exact hsorted x bs (fun a ha => p3 a ha x (by simp)) p2.2 p2.1 (fun a ha c hc => p3 a ha c (by simp [hc]))
        · exact hsorted x ys (fun a ha => p3 a ha x (by simp)) q2.2 q2.1 (fun a ha c hc => q3 a ha c (by simp [hc]))
        · intro z; rw [← he]; simp; tauto
        · simp at hsz ⊢; omega
        · intro z hz; exact hlt z (by simp [show z ∈ bs from hz])
        · intro z hz; exact hst z (by simp [show z ∈ ys from hz])
      · refine ⟨(y, x :: bs, ys), ?_, ⟨?_, ?_, ?_, ?_⟩, ?_, ?_⟩
        · simp [mergeStep, currentIndex, increment, pure_eq_ok, ok_bind, Nat.not_lt.mpr (le_of_lt hxy), Nat.ne_of_gt hxy]
        · refine hsorted y (x :: bs) (fun a ha => q3 a ha y (by simp)) (List.pairwise_cons.mpr p2) ?_ p3
          intro a ha
          rcases List.mem_cons.mp ha with rfl | ha
          · exact hxy
          · exact lt_trans hxy (p2.1 a ha)
        · exact hsorted y ys (fun a ha => q3 a ha y (by simp)) q2.2 q2.1 (fun a ha c hc => q3 a ha c (by simp [hc]))
        · intro z; rw [← he]; simp; tauto
        · simp at hsz ⊢; omega
        · exact hlt
        · intro z hz; exact hst z (by simp [show z ∈ ys from hz])

theorem appendMerged_spec {numLabels : Nat} {b0 s0 : List Nat} (k : Nat) : ∀ (pre w b s : List Nat), b.length + s.length = k →
    Merging b0 s0 w b s → (∀ x ∈ b, x < numLabels) → (∀ x ∈ s, x < numLabels) →
    ∃ w' s', appendMerged numLabels (pre ++ w) b s = .ok (pre ++ w', s') ∧ Merging b0 s0 w' [] s' := by
  induction k using Nat.strong_induction_on with
  | _ k ih =>
    intro pre w b s hk hm hb hs
    unfold appendMerged
    cases b with
    | nil => exact ⟨w, s, rfl, hm⟩
    | cons x bs =>
      obtain ⟨r, h1, h2, h3, h4⟩ := mergeStep_spec hm (by simp) hb hs
      have hcons := mergeStep_consumes h1
      obtain ⟨w', s', g1, g2⟩ := ih _ (by omega) pre (w ++ [r.1]) r.2.1 r.2.2 rfl h2 h3 h4
      refine ⟨w', s', ?_, g2⟩
      simp only [List.isEmpty_cons, Bool.false_eq_true, if_false]
      split
      · rename_i r' hr'
        rw [h1] at hr'
        cases hr'
        rw [List.append_assoc]
        exact g1
      · rename_i e he
        rw [h1] at he
        cases he

theorem overwrite_spec {numLabels : Nat} {pre b0 s0 : List Nat} (hb : b0.Pairwise (· < ·)) (hs : s0.Pairwise (· < ·))
    (hbl : ∀ x ∈ b0, x < numLabels) (hsl : ∀ x ∈ s0, x < numLabels) :
    ∃ w b s, overwrite numLabels pre.length b0.length (pre ++ b0, b0, s0) = .ok (pre ++ w, b, s) ∧ Merging b0 s0 w b s ∧
      (∀ x ∈ b, x < numLabels) ∧ (∀ x ∈ s, x < numLabels) := by
  obtain ⟨r, h1, w, h2, h3, h4, h5, h6⟩ := loop_rule (body := overwriteStep numLabels pre.length)
    (fun n (s : List Nat × List Nat × List Nat) => ∃ w, w.length = n ∧ s.1 = pre ++ (w ++ b0.drop n) ∧ Merging b0 s0 w s.2.1 s.2.2 ∧
      (∀ x ∈ s.2.1, x < numLabels) ∧ (∀ x ∈ s.2.2, x < numLabels)) b0.length (pre ++ b0, b0, s0)
    ⟨[], rfl, by simp, ⟨by simpa using hb, by simpa using hs, by simp, by simp⟩, hbl, hsl⟩ (by
      rintro n ⟨row, b, s⟩ hn ⟨w, hw, hrow, hm, hb', hs'⟩
      simp only at hrow hm hb' hs'
      have hne : b ≠ [] := by
        intro hb0
        have := hm.size
        rw [hb0, hw] at this
        simp only [List.length_nil] at this
        omega
      obtain ⟨r, g1, g2, g3, g4⟩ := mergeStep_spec hm hne hb' hs'
      refine ⟨(pre ++ (w ++ [r.1] ++ b0.drop (n + 1)), r.2.1, r.2.2), ?_, w ++ [r.1], by simp [hw], rfl, g2, g3, g4⟩
      unfold overwriteStep
      simp only
      rw [g1, ok_bind, writeAt_of_lt (by rw [hrow]; simp; omega), ok_bind, pure_eq_ok, hrow]
      congr 2
      rw [List.set_append_right _ _ (by omega), show pre.length + n - pre.length = n by omega, List.set_append_right _ _ (by omega),
        show n - w.length = 0 by omega, List.drop_eq_getElem_cons hn, List.set_cons_zero]
      simp)
  refine ⟨w, r.2.1, r.2.2, ?_, h4, h5, h6⟩
  unfold overwrite
  rw [h1]
  rcases r with ⟨r1, r2, r3⟩
  simp only at h3
  simp [h3]

theorem applyScores_spec {numLabels : Nat} {scores row : List Nat} (hr : row.Pairwise (· < ·)) (hs : scores.Pairwise (· < ·))
    (hrl : ∀ x ∈ row, x < numLabels) (hsl : ∀ x ∈ scores, x < numLabels) :
    ∃ row', applyScores numLabels scores row = .ok row' ∧ row'.Pairwise (· < ·) ∧ ∀ x, x ∈ row' ↔ x ∈ row ∨ x ∈ scores := by
  unfold applyScores
  cases scores with
  | nil => exact ⟨row, rfl, hr, by simp⟩
  | cons first rest =>
    by_cases hlen : row.length > 0
    · simp only [if_pos hlen]
      obtain ⟨_, hbefore⟩ := LossUpdate.lowerBound_spec (p := 0) (x := first) hr (by omega)
      have hle : LossUpdate.lowerBound row 0 first ≤ row.length := by
        unfold LossUpdate.lowerBound
        have := (List.takeWhile_sublist (fun i => decide (i < first)) (l := row.drop 0)).length_le
        simpa using this
      generalize hk : LossUpdate.lowerBound row 0 first = k at *
      have hpre : ∀ x ∈ row.take k, x < first := by
        intro x hx
        obtain ⟨i, hi, hxi⟩ := List.getElem_of_mem hx
        rw [List.length_take] at hi
        refine hbefore i (by omega) x ?_
        rw [← hxi, List.getElem_take]
        exact List.getElem?_eq_getElem (by omega)
      have hrow : row = row.take k ++ row.drop k := (List.take_append_drop k row).symm
      have hsplit := hr
      rw [hrow, List.pairwise_append] at hsplit
      obtain ⟨p1, p2, p3⟩ := hsplit
      obtain ⟨w, b, s, h1, h2, h3, h4⟩ := overwrite_spec (numLabels := numLabels) (pre := row.take k) (s0 := first :: rest) p2 hs
        (fun x hx => hrl x (List.mem_of_mem_drop hx)) hsl
      rw [← hrow, List.length_take, List.length_drop, Nat.min_eq_left hle] at h1
      rw [h1, ok_bind]
      obtain ⟨w', s', g1, g2⟩ := appendMerged_spec _ (row.take k) w b s rfl h2 h3 h4
      simp only
      rw [g1, ok_bind, pure_eq_ok]
      refine ⟨_, rfl, ?_, ?_⟩
      · rw [List.append_assoc, List.pairwise_append]
        refine ⟨p1, g2.sortedScores, ?_⟩
        intro a ha c hc
        have hc' : c ∈ row.drop k ∨ c ∈ first :: rest := by
          rw [← g2.elements]
          simp only [List.mem_append] at hc
          tauto
        rcases hc' with hc' | hc'
        · exact p3 a ha c hc'
        · rw [List.pairwise_cons] at hs
          have := hpre a ha
          rcases List.mem_cons.mp hc' with rfl | hc'
          · exact this
          · exact lt_trans this (hs.1 c hc')
      · intro x
        have := g2.elements x
        conv_rhs => rw [hrow]
        simp only [List.mem_append, List.append_assoc, List.not_mem_nil, false_or] at this ⊢
        tauto
    · simp only [if_neg hlen]
      have : row = [] := List.eq_nil_of_length_eq_zero (by omega)
      subst this
      exact ⟨_, rfl, by simpa using hs, by simp⟩

theorem scoreIndices_sorted [Zero K] [DecidableEq K] {h : Head K} (hs : HeadSorted h) : (scoreIndices h).Pairwise (· < ·) := by
  cases h with
  | complete values => exact List.Pairwise.filter _ List.pairwise_lt_range
  | partial_ es => exact List.Pairwise.sublist (List.Sublist.map _ List.filter_sublist) hs

theorem mem_scoreIndices [Zero K] [DecidableEq K] {h : Head K} {j : Nat} : j ∈ scoreIndices h ↔ ∃ v, v ≠ 0 ∧ Predicts j v h := by
  cases h with
  | complete values =>
    simp only [scoreIndices, List.mem_filter, List.mem_range, Predicts, decide_eq_true_eq]
    constructor
    · rintro ⟨h1, h2⟩
      rw [List.getElem?_eq_getElem h1] at h2
      exact ⟨values[j], by simpa using h2, List.getElem?_eq_getElem h1⟩
    · rintro ⟨v, h1, h2⟩
      obtain ⟨h3, _⟩ := List.getElem?_eq_some_iff.mp h2
      rw [h2]
      exact ⟨h3, by simpa using h1⟩
  | partial_ es =>
    simp only [scoreIndices, List.mem_map, List.mem_filter, Predicts, decide_eq_true_eq]
    constructor
    · rintro ⟨⟨i, v⟩, ⟨h1, h2⟩, rfl⟩; exact ⟨v, h2, h1⟩
    · rintro ⟨v, h1, h2⟩; exact ⟨(j, v), ⟨h2, h1⟩, rfl⟩

theorem forDense_sparse_spec [Zero K] [DecidableEq K] {n : Nat} {row : List FVal} {covered : Rule K → Bool} (rules : List (Rule K)) :
    ∀ {s : List Nat}, (∀ r ∈ rules, r.body.coversDense row = .ok (covered r)) → (∀ r ∈ rules, Predictor.Spec.HeadFits n r.head) →
    (∀ r ∈ rules, HeadSorted r.head) → s.Pairwise (· < ·) → (∀ x ∈ s, x < n) →
    ∃ s', forDense (applyHeadSparse n) row rules s = .ok s' ∧ s'.Pairwise (· < ·) ∧ ∀ j, j ∈ s' ↔ j ∈ s ∨ SomeNonZero covered rules j := by
  induction rules with
  | nil =>
    intro s _ _ _ hs _
    exact ⟨s, rfl, hs, by simp [SomeNonZero]⟩
  | cons r rs ih =>
    intro s hc hf hso hs hl
    simp only [forDense]
    rw [hc r (by simp), ok_bind]
    have hfit : ∀ x ∈ scoreIndices r.head, x < n := by
      intro x hx
      obtain ⟨v, _, hp⟩ := mem_scoreIndices.mp hx
      exact entries_fit (hf r (by simp)) (x, v) ((mem_entries _ _ _).mpr hp)
    cases hcov : covered r with
    | false =>
      simp only [Bool.false_eq_true, if_false, ok_bind]
      obtain ⟨s', h1, h2, h3⟩ := ih (s := s) (fun r' hr' => hc r' (by simp [hr'])) (fun r' hr' => hf r' (by simp [hr']))
        (fun r' hr' => hso r' (by simp [hr'])) hs hl
      refine ⟨s', h1, h2, ?_⟩
      intro j
      rw [h3]
      simp [SomeNonZero, hcov]
    | true =>
      simp only [if_true]
      obtain ⟨s1, h1, h2, h3⟩ := applyScores_spec hs (scoreIndices_sorted (hso r (by simp))) hl hfit
      unfold applyHeadSparse at ih ⊢
      rw [h1, ok_bind]
      obtain ⟨s', g1, g2, g3⟩ := ih (s := s1) (fun r' hr' => hc r' (by simp [hr'])) (fun r' hr' => hf r' (by simp [hr']))
        (fun r' hr' => hso r' (by simp [hr'])) h2 (fun x hx => by
          rcases (h3 x).mp hx with hx | hx
          · exact hl x hx
          · exact hfit x hx)
      refine ⟨s', g1, g2, ?_⟩
      intro j
      rw [g3, h3, mem_scoreIndices]
      simp only [SomeNonZero, List.mem_cons, exists_eq_or_imp, hcov, true_and]
      exact or_assoc

end MLRL.DecisionList
