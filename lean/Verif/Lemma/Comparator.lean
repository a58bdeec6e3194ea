import Verif.Model.Induction
import Verif.Lemma.Induction

/-!
# Growing rules with different comparison functions

If two comparison functions agree on all qualities that may become the best one, growing a rule behaves the same. This is used for floating point
qualities, where nothing is better than a quality that is not a number: such qualities are never considered best.
-/

namespace MLRL.Induction

open Refinement

/-- Two comparison functions agree, if they are used to compare with a quality that satisfies `P`; better qualities satisfy `P` as well. -/
structure Agree {Q : Type} (b1 b2 : Q → Q → Bool) (P : Q → Prop) : Prop where
  same : ∀ x q, P q → b1 x q = b2 x q
  keep : ∀ x q, P q → b1 x q = true → P x

section
variable {A Q : Type} {b1 b2 : Q → Q → Bool} {P : Q → Prop}

/-- All qualities that are stored by a comparator satisfy `P`. -/
def Stored (P : Q → Prop) (s : Single A Q) : Prop := P s.quality ∧ ∀ x, s.best = some x → P x.quality

theorem consider_congr (h : Agree b1 b2 P) {s : Single A Q} (hs : Stored P s) (x : Scored A Q) :
    s.consider b1 x = s.consider b2 x ∧ Stored P (s.consider b1 x) := by
  unfold Single.consider
  have he := h.same x.quality s.quality hs.1
  cases hb : b1 x.quality s.quality with
  | false =>
    rw [hb] at he
    rw [← he]
    exact ⟨rfl, hs⟩
  | true =>
    rw [hb] at he
    rw [← he]
    have hP := h.keep _ _ hs.1 hb
    exact ⟨rfl, hP, fun y hy => (by cases hy; exact hP)⟩

theorem execTrace_congr (h : Agree b1 b2 P) : ∀ (trace : List (Nat × Scored A Q)) (entries : List (Single A Q)), (∀ c ∈ entries, Stored P c) →
    execTrace (singleOps b1) trace entries = execTrace (singleOps b2) trace entries ∧
      ∀ r, execTrace (singleOps b1) trace entries = .ok r → ∀ c ∈ r, Stored P c
  | [], entries, he => ⟨rfl, fun r hr => (by cases hr; exact he)⟩
  | (i, x) :: trace, entries, he => by
    simp only [execTrace]
    cases hr : readAt entries i with
    | error e => exact ⟨rfl, fun r hr => (by cases hr)⟩
    | ok c =>
      rw [ok_bind, ok_bind]
      have hc : Stored P c := by
        unfold readAt at hr
        split at hr
        · rename_i a ha
          cases hr
          exact he _ (List.mem_of_getElem? ha)
        · cases hr
      obtain ⟨h1, h2⟩ := consider_congr h hc x
      show (Except.ok (c.consider b1 x) >>= _) = (Except.ok (c.consider b2 x) >>= _) ∧ ∀ r, (Except.ok (c.consider b1 x) >>= _) = _ → _
      rw [ok_bind, ok_bind, ← h1]
      cases hw : writeAt entries i (c.consider b1 x) with
      | error e => exact ⟨rfl, fun r hr => (by cases hr)⟩
      | ok entries' =>
        rw [ok_bind, ok_bind]
        refine execTrace_congr h trace entries' ?_
        intro d hd
        unfold writeAt at hw
        split at hw
        · cases hw
          rcases List.mem_or_eq_of_mem_set hd with hd | rfl
          · exact he d hd
          · exact h2
        · cases hw

theorem mergeAll_congr (h : Agree b1 b2 P) : ∀ (entries : List (Single A Q)) (s : Single A Q) (found : Bool), (∀ c ∈ entries, Stored P c) → Stored P s →
    mergeAll (singleOps b1) entries s found = mergeAll (singleOps b2) entries s found ∧
      ∀ r, mergeAll (singleOps b1) entries s found = .ok r → Stored P r.1
  | [], s, found, _, hs => ⟨rfl, fun r hr => (by cases hr; exact hs)⟩
  | o :: entries, s, found, he, hs => by
    simp only [mergeAll]
    show (Single.merge b1 s o >>= _) = (Single.merge b2 s o >>= _) ∧ ∀ r, (Single.merge b1 s o >>= _) = _ → _
    have ho := he o List.mem_cons_self
    have hrest : ∀ c ∈ entries, Stored P c := fun c hc => he c (List.mem_cons_of_mem _ hc)
    have hsame := h.same o.quality s.quality hs.1
    unfold Single.merge
    rw [← hsame]
    cases hb : b1 o.quality s.quality with
    | false =>
      simp only [Bool.false_eq_true, if_false]
      exact mergeAll_congr h entries s _ hrest hs
    | true =>
      simp only [if_true]
      cases hbest : o.best with
      | none => exact ⟨rfl, fun r hr => (by cases hr)⟩
      | some x =>
        have hP := ho.2 x hbest
        exact mergeAll_congr h entries ⟨some x, x.quality⟩ _ hrest ⟨hP, fun y hy => (by cases hy; exact hP)⟩

theorem findRefinement_congr (h : Agree b1 b2 P) (numFeatures : Nat) (trace : List (Nat × Scored A Q)) {s : Single A Q} (hs : Stored P s) :
    findRefinement (singleOps b1) numFeatures trace s = findRefinement (singleOps b2) numFeatures trace s ∧
      ∀ r, findRefinement (singleOps b1) numFeatures trace s = .ok r → Stored P r.1 := by
  unfold findRefinement
  have hcopy : ∀ c ∈ List.replicate numFeatures ((singleOps b1).copy s), Stored P c := by
    intro c hc
    rw [List.eq_of_mem_replicate hc]
    exact ⟨hs.1, fun x hx => (by cases hx)⟩
  obtain ⟨h1, h2⟩ := execTrace_congr h trace _ hcopy
  rw [show (singleOps b2).copy s = (singleOps b1).copy s from rfl, ← h1]
  cases he : execTrace (singleOps b1) trace (List.replicate numFeatures ((singleOps b1).copy s)) with
  | error e => exact ⟨rfl, fun r hr => (by cases hr)⟩
  | ok entries =>
    rw [ok_bind, ok_bind]
    exact mergeAll_congr h entries s false (h2 entries he) hs

end

section
variable {σ Cond H Q : Type} {ops : SubspaceOps σ Cond} {b1 b2 : Q → Q → Bool} {P : Q → Prop} {sortHead : H → H} {cfg : GrowConfig}
  {search : Search σ Cond H Q}

theorem growLoop_congr (h : Agree b1 b2 P) : ∀ (fuel : Nat) (st : GrowState σ Cond H Q), Stored P st.comparator →
    growLoop ops b1 sortHead cfg search fuel st = growLoop ops b2 sortHead cfg search fuel st
  | 0, _, _ => rfl
  | fuel + 1, st, hs => by
    simp only [growLoop]
    by_cases hlim : cfg.maxConditions = 0 ∨ st.conditions.length < cfg.maxConditions
    · rw [if_pos hlim, if_pos hlim]
      cases hc : search.candidates st.conditions.length st.subspace st.outputs with
      | error e => rfl
      | ok candidates =>
        rw [Run.lift_ok, Run.done_bind, Run.done_bind]
        obtain ⟨h1, h2⟩ := findRefinement_congr h candidates.length (search.schedule st.conditions.length candidates) hs
        rw [← h1]
        cases hf : findRefinement (singleOps b1) candidates.length (search.schedule st.conditions.length candidates) st.comparator with
        | error e => rfl
        | ok r =>
          rw [Run.lift_ok, Run.done_bind, Run.done_bind]
          have hr := h2 r hf
          obtain ⟨comparator, found⟩ := r
          cases found with
          | false => rfl
          | true =>
            simp only [if_true]
            cases ha : st.addBest ops sortHead cfg comparator with
            | error e => rfl
            | ok p =>
              rw [Run.lift_ok, Run.done_bind, Run.done_bind]
              obtain ⟨st', k⟩ := p
              simp only
              split
              · rfl
              · refine growLoop_congr h fuel st' ?_
                unfold GrowState.addBest at ha
                cases hb : comparator.best with
                | none => rw [hb] at ha; cases ha
                | some best =>
                  rw [hb] at ha
                  simp only [useInit, ok_bind] at ha
                  cases hfi : ops.filter st.subspace best.refinement.condition with
                  | error e => rw [hfi] at ha; cases ha
                  | ok s =>
                    rw [hfi, ok_bind] at ha
                    cases ha
                    refine ⟨hr.1, fun x hx => ?_⟩
                    cases hx
                    exact hr.2 best hb
    · rw [if_neg hlim, if_neg hlim]

/-- Growing a rule behaves the same for comparison functions that agree. -/
theorem growRule_congr (h : Agree b1 b2 P) {minQuality : Q} (hm : P minQuality) (fuel : Nat) :
    growRule ops b1 sortHead cfg search minQuality fuel = growRule ops b2 sortHead cfg search minQuality fuel := by
  unfold growRule
  rw [growLoop_congr h fuel _ ⟨hm, fun x hx => (by cases hx)⟩]

end

end MLRL.Induction
