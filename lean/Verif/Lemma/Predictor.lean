import Verif.Spec.Predictor
import Verif.Lemma.Body
import Verif.Lemma.RuleList

set_option linter.unusedSectionVars false

namespace MLRL.Predictor

open Spec

variable {K : Type}

/-! ### heads and rules -/

theorem addComplete_spec [AddCommMonoid K] (vs : List K) : ∀ (start : Nat) (scores : List K),
    start + vs.length ≤ scores.length →
    ∃ s', addComplete vs start scores = .ok s' ∧ s'.length = scores.length ∧
      ∀ j (x : K), scores[j]? = some x → s'[j]? = some (x + (if start ≤ j then (vs[j - start]?).getD 0 else 0)) := by
  induction vs with
  | nil => intro start scores _; exact ⟨scores, rfl, rfl, by intro j x hx; simp [hx]⟩
  | cons v vs ih =>
    intro start scores h
    rw [List.length_cons] at h
    have hlt : start < scores.length := by omega
    obtain ⟨s', h1, h2, h3⟩ := ih (start + 1) (scores.set start (scores[start] + v)) (by rw [List.length_set]; omega)
    refine ⟨s', ?_, by rw [h2, List.length_set], ?_⟩
    · unfold addComplete
      rw [readAt_of_lt hlt, ok_bind, writeAt_of_lt hlt, ok_bind, h1]
    · intro j x hx
      by_cases hj : j = start
      · subst hj
        have hx' : scores[j] = x := by
          rw [List.getElem?_eq_getElem hlt] at hx; exact Option.some.inj hx
        have := h3 j (scores[j] + v) (by simp [hlt])
        rw [this, if_neg (by omega), if_pos (Nat.le_refl _), hx']
        simp
      · have := h3 j x (by rw [List.getElem?_set_ne (by omega)]; exact hx)
        rw [this]
        by_cases hle : start + 1 ≤ j
        · rw [if_pos hle, if_pos (by omega), show j - start = (j - (start + 1)) + 1 by omega, List.getElem?_cons_succ]
        · rw [if_neg hle, if_neg (by omega)]

theorem addPartial_spec [AddCommMonoid K] (es : List (Nat × K)) : ∀ (scores : List K), (∀ e ∈ es, e.1 < scores.length) →
    ∃ s', addPartial es scores = .ok s' ∧ s'.length = scores.length ∧
      ∀ j (x : K), scores[j]? = some x →
        s'[j]? = some (x + ((es.filter (fun e => decide (e.1 = j))).map Prod.snd).sum) := by
  induction es with
  | nil => intro scores _; exact ⟨scores, rfl, rfl, by intro j x hx; simp [hx]⟩
  | cons e es ih =>
    intro scores h
    obtain ⟨i, v⟩ := e
    have hlt : i < scores.length := h (i, v) (by simp)
    obtain ⟨s', h1, h2, h3⟩ := ih (scores.set i (scores[i] + v)) (by
      intro e he; rw [List.length_set]; exact h e (List.mem_cons_of_mem _ he))
    refine ⟨s', ?_, by rw [h2, List.length_set], ?_⟩
    · unfold addPartial
      rw [readAt_of_lt hlt, ok_bind, writeAt_of_lt hlt, ok_bind, h1]
    · intro j x hx
      by_cases hj : i = j
      · subst hj
        have hx' : scores[i] = x := by
          rw [List.getElem?_eq_getElem hlt] at hx; exact Option.some.inj hx
        have := h3 i (scores[i] + v) (by simp [hlt])
        rw [this, hx']
        simp [add_assoc]
      · have := h3 j x (by rw [List.getElem?_set_ne (by omega)]; exact hx)
        rw [this]
        simp [hj]

theorem applyHead_spec [AddCommMonoid K] (h : Head K) (scores : List K) (hf : HeadFits scores.length h) :
    ∃ s', applyHead h scores = .ok s' ∧ s'.length = scores.length ∧
      ∀ j (x : K), scores[j]? = some x → s'[j]? = some (x + contribution j h) := by
  cases h with
  | complete vs =>
    obtain ⟨s', h1, h2, h3⟩ := addComplete_spec vs 0 scores (by simpa [HeadFits] using hf)
    exact ⟨s', h1, h2, by simpa [contribution] using h3⟩
  | partial_ es => exact addPartial_spec es scores hf

theorem applyRulesDense_eq_foldlM [Add K] (row : List FVal) (rules : List (Rule K)) (scores : List K) :
    applyRulesDense row rules scores = rules.foldlM (fun s r => applyRuleDense row r s) scores := by
  induction rules generalizing scores with
  | nil => rfl
  | cons r rs ih =>
    rw [List.foldlM_cons]
    unfold applyRulesDense
    congr 1
    funext s
    exact ih s

theorem applyRuleDense_spec [AddCommMonoid K] (row : List FVal) (r : Rule K) (scores : List K) (b : Bool)
    (hc : r.body.coversDense row = .ok b) (hf : HeadFits scores.length r.head) :
    ∃ s', applyRuleDense row r scores = .ok s' ∧ s'.length = scores.length ∧
      ∀ j (x : K), scores[j]? = some x → s'[j]? = some (x + if b then contribution j r.head else 0) := by
  unfold applyRuleDense
  rw [hc, ok_bind]
  cases b with
  | true => simpa using applyHead_spec r.head scores hf
  | false => exact ⟨scores, rfl, rfl, by intro j x hx; simp [hx]⟩

/-! ### sparse examples -/

theorem applyRulesSparseLoop_eq [Add K] (m : Nat) (row : SparseRow) (sv : FVal) (hnd : (row.map Prod.fst).Nodup)
    (hlt : ∀ p ∈ row, p.1 < m) (rules : List (Rule K)) : ∀ (scores : List K) (t : TmpArrays) (n : Nat),
    t.values.length = m → t.stamps.length = m → (∀ s ∈ t.stamps, s < n) →
    applyRulesSparseLoop row sv rules scores t n = applyRulesDense (Body.Spec.toDense m row sv) rules scores := by
  induction rules with
  | nil => intros; rfl
  | cons r rs ih =>
    intro scores t n hv hs hn
    obtain ⟨t', e1, e2, e3, e4⟩ := coversSparse_eq n m row sv t r.body hv hs hnd hlt
      (fun s h => Nat.ne_of_lt (hn s h))
    have hn' : ∀ s ∈ t'.stamps, s < n + 1 := by
      intro s h
      rcases e3 s h with h | h
      · have := hn s h; omega
      · omega
    unfold applyRulesSparseLoop applyRulesDense applyRuleSparse applyRuleDense
    rw [e4]
    cases hb : r.body.coversDense (Body.Spec.toDense m row sv) with
    | error e => rfl
    | ok b =>
      cases b with
      | true =>
        simp only [Except.map, ok_bind, if_true]
        cases hh : applyHead r.head scores with
        | error e => rfl
        | ok s =>
          simp only [ok_bind, pure_eq_ok]
          exact ih s t' (n + 1) e1 e2 hn'
      | false =>
        simp only [Except.map, ok_bind, Bool.false_eq_true, if_false, pure_eq_ok]
        exact ih scores t' (n + 1) e1 e2 hn'

/-! ### incremental prediction -/

theorem collect_length {R : Type} (k : Nat) : ∀ (it : RuleList.ConstIterator R) (xs : List R),
    RuleList.collect k it = .ok xs → xs.length = k := by
  induction k with
  | zero => intro it xs h; cases h; rfl
  | succ k ih =>
    intro it xs h
    unfold RuleList.collect at h
    cases hd : it.deref with
    | error e => rw [hd] at h; cases h
    | ok r =>
      rw [hd, ok_bind] at h
      cases hc : RuleList.collect k it.next with
      | error e => rw [hc] at h; cases h
      | ok rs =>
        rw [hc, ok_bind, pure_eq_ok] at h
        cases h
        simp [ih _ _ hc]

/-- Collecting `a + b` rules is collecting `a` rules and, from there, `b` rules. -/
theorem collect_add {R : Type} (a b : Nat) : ∀ (it : RuleList.ConstIterator R) (xs : List R),
    RuleList.collect (a + b) it = .ok xs →
    RuleList.collect a it = .ok (xs.take a) ∧ RuleList.collect b (it.add a) = .ok (xs.drop a) := by
  induction a with
  | zero => intro it xs h; rw [Nat.zero_add] at h; exact ⟨rfl, h⟩
  | succ a ih =>
    intro it xs h
    rw [show a + 1 + b = (a + b) + 1 by omega] at h
    unfold RuleList.collect at h
    cases hd : it.deref with
    | error e => rw [hd] at h; cases h
    | ok r =>
      rw [hd, ok_bind] at h
      cases hc : RuleList.collect (a + b) it.next with
      | error e => rw [hc] at h; cases h
      | ok rs =>
        rw [hc, ok_bind, pure_eq_ok] at h
        cases h
        obtain ⟨h1, h2⟩ := ih _ _ hc
        refine ⟨?_, ?_⟩
        · unfold RuleList.collect
          rw [hd, ok_bind, h1, ok_bind]; rfl
        · have : (it.next.add a) = it.add (a + 1) := by
            unfold RuleList.ConstIterator.next RuleList.ConstIterator.add
            simp only; congr 1; omega
          rw [← this, h2]; rfl

/-- A sequence of incremental steps. -/
def Incremental.applyAll {R S : Type} (apply : R → S → Res S) : List Nat → Incremental R S → Res (Incremental R S)
  | [], p => .ok p
  | s :: ss, p => do
    let p ← p.applyNext apply s
    Incremental.applyAll apply ss p

theorem Incremental.applyAll_spec {R S : Type} (apply : R → S → Res S) (rules : List R) (row : S)
    (b e : RuleList.ConstIterator R) (hb : RuleList.collect (e.index - b.index) b = .ok rules)
    (hbe : b.index ≤ e.index) :
    ∀ (steps : List Nat) (done : Nat) (row' : S), done ≤ rules.length →
      (rules.take done).foldlM (fun s r => apply r s) row = .ok row' →
      (∀ k ≤ rules.length, ∃ s, (rules.take k).foldlM (fun s r => apply r s) row = .ok s) →
      ∃ p, Incremental.applyAll apply steps { current := b.add done, end_ := e, row := row' } = .ok p ∧
        p.getNumNext = rules.length - min (done + steps.sum) rules.length ∧
        (rules.take (min (done + steps.sum) rules.length)).foldlM (fun s r => apply r s) row = .ok p.row := by
  have hlen := collect_length _ _ _ hb
  intro steps
  induction steps with
  | nil =>
    intro done row' hd hrow _
    refine ⟨_, rfl, ?_, ?_⟩
    · simp only [getNumNext, RuleList.ConstIterator.add, List.sum_nil]; omega
    · simpa [Nat.min_eq_left hd] using hrow
  | cons s ss ih =>
    intro done row' hd hrow hall
    have hnn : getNumNext (⟨b.add done, e, row'⟩ : Incremental R S) = rules.length - done := by
      simp only [getNumNext, RuleList.ConstIterator.add]; omega
    have hstep : ∃ row'', (rules.take (done + min s (rules.length - done))).foldlM (fun s r => apply r s) row = .ok row'' :=
      hall _ (by omega)
    obtain ⟨row'', hrow''⟩ := hstep
    have hc1 : RuleList.collect (done + (rules.length - done)) b = .ok rules := by
      rw [show done + (rules.length - done) = e.index - b.index by omega]; exact hb
    have hc2 := (collect_add done (rules.length - done) b rules hc1).2
    have hc3 := (collect_add (min s (rules.length - done)) (rules.length - done - min s (rules.length - done)) (b.add done)
      (rules.drop done) (by
        rw [show min s (rules.length - done) + (rules.length - done - min s (rules.length - done)) = rules.length - done by
          omega]; exact hc2)).1
    have happly : applyNext apply (⟨b.add done, e, row'⟩ : Incremental R S) s =
        .ok ⟨b.add (done + min s (rules.length - done)), e, row''⟩ := by
      unfold applyNext
      simp only [hnn]
      unfold RuleList.iterate
      have : ((b.add done).add (min s (rules.length - done))).index - (b.add done).index = min s (rules.length - done) := by
        simp [RuleList.ConstIterator.add]
      rw [this, hc3, ok_bind]
      have hsplit : rules.take (done + min s (rules.length - done)) =
          rules.take done ++ (rules.drop done).take (min s (rules.length - done)) := List.take_add
      rw [hsplit, List.foldlM_append, hrow, ok_bind] at hrow''
      rw [hrow'', ok_bind, pure_eq_ok]
      unfold RuleList.ConstIterator.add
      simp [Nat.add_assoc]
    obtain ⟨p, h1, h2, h3⟩ := ih (done + min s (rules.length - done)) row'' (by omega) hrow'' hall
    refine ⟨p, ?_, ?_, ?_⟩
    · unfold applyAll
      rw [happly, ok_bind, h1]
    · rw [h2, List.sum_cons]; omega
    · rw [List.sum_cons]
      have : min (done + (s + ss.sum)) rules.length = min (done + min s (rules.length - done) + ss.sum) rules.length := by
        omega
      rw [this]; exact h3

end MLRL.Predictor
