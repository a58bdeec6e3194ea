import Verif.Spec.Refinement
import Mathlib.Data.List.Perm.Basic

/-! # Lemmas about the selection of refinements -/

namespace MLRL.Refinement

set_option linter.unusedSectionVars false

variable {A Q : Type} {better : Q → Q → Bool}

theorem StrictWeak.asymm (h : StrictWeak better) {a b : Q} (hab : better a b = true) : better b a = false := by
  cases hba : better b a with
  | false => rfl
  | true =>
    have := h.trans a b a hab hba
    rw [h.irrefl] at this
    cases this

/-- If `a` is not better than `b` and `b` is not better than `c`, `a` is not better than `c`. -/
theorem StrictWeak.not_trans (h : StrictWeak better) {a b c : Q} (hab : better a b = false) (hbc : better b c = false) :
    better a c = false := by
  cases hac : better a c with
  | false => rfl
  | true =>
    rcases h.comparable a b c hac with h1 | h1
    · rw [h1] at hab; cases hab
    · rw [h1] at hbc; cases hbc

/-- If `a` is better than `c` and `b` is not, `a` is better than `b`. -/
theorem StrictWeak.of_not (h : StrictWeak better) {a b c : Q} (hac : better a c = true) (hbc : better b c = false) :
    better a b = true := by
  rcases h.comparable a b c hac with h1 | h1
  · exact h1
  · rw [h1] at hbc; cases hbc

/-- If `a` is better than `b` and `c` is not better than `b`... -/
theorem StrictWeak.not_of_better (h : StrictWeak better) {a b c : Q} (hbc : better b c = true) (hac : better a c = false) :
    better a b = false := by
  cases hab : better a b with
  | false => rfl
  | true =>
    rw [h.trans a b c hab hbc] at hac
    cases hac

/-! ### Single comparator -/

/-- The comparator after some candidates, compared to the one before. -/
def SingleResult (better : Q → Q → Bool) (s : Single A Q) (l : List (Scored A Q)) (c : Single A Q) (found : Bool) : Prop :=
  ((∀ x ∈ l, better x.quality s.quality = false) ∧ c = s ∧ found = false) ∨
    ∃ x, c = ⟨some x, x.quality⟩ ∧ found = true ∧ better x.quality s.quality = true ∧ FirstBest better l x

theorem single_fold (h : StrictWeak better) (l : List (Scored A Q)) (s : Single A Q) :
    ∃ found, SingleResult better s l (l.foldl (Single.consider better) s) found := by
  induction l generalizing s with
  | nil => exact ⟨false, Or.inl ⟨by simp, rfl, rfl⟩⟩
  | cons y l ih =>
    rw [List.foldl_cons]
    cases hy : better y.quality s.quality with
    | true =>
      have hc : Single.consider better s y = ⟨some y, y.quality⟩ := by simp [Single.consider, hy]
      rw [hc]
      obtain ⟨found, hr⟩ := ih ⟨some y, y.quality⟩
      rcases hr with ⟨h1, h2, h3⟩ | ⟨x, h1, h2, h3, b, a, h4, h5, h6⟩
      · exact ⟨true, Or.inr ⟨y, h2, rfl, hy, [], l, rfl, by simp, h1⟩⟩
      · refine ⟨true, Or.inr ⟨x, h1, rfl, h.trans _ _ _ h3 hy, y :: b, a, by rw [h4]; rfl, ?_, h6⟩⟩
        intro z hz
        rcases List.mem_cons.1 hz with rfl | hz
        · exact h3
        · exact h5 z hz
    | false =>
      have hc : Single.consider better s y = s := by simp [Single.consider, hy]
      rw [hc]
      obtain ⟨found, hr⟩ := ih s
      rcases hr with ⟨h1, h2, h3⟩ | ⟨x, h1, h2, h3, b, a, h4, h5, h6⟩
      · refine ⟨false, Or.inl ⟨?_, h2, rfl⟩⟩
        intro z hz
        rcases List.mem_cons.1 hz with rfl | hz
        · exact hy
        · exact h1 z hz
      · refine ⟨true, Or.inr ⟨x, h1, rfl, h3, y :: b, a, by rw [h4]; rfl, ?_, h6⟩⟩
        intro z hz
        rcases List.mem_cons.1 hz with rfl | hz
        · exact h.of_not h3 hy
        · exact h5 z hz

/-- The result of the search for a single feature, starting with a copy. -/
theorem single_copy_fold (h : StrictWeak better) (l : List (Scored A Q)) (s : Single A Q) :
    (∀ x ∈ l, better x.quality s.quality = false) ∧ l.foldl (Single.consider better) s.copy = s.copy ∨
      ∃ x, l.foldl (Single.consider better) s.copy = ⟨some x, x.quality⟩ ∧ better x.quality s.quality = true ∧
        FirstBest better l x := by
  obtain ⟨found, hr⟩ := single_fold h l s.copy
  rcases hr with ⟨h1, h2, _⟩ | ⟨x, h1, _, h3, h4⟩
  · exact Or.inl ⟨h1, h2⟩
  · exact Or.inr ⟨x, h1, h3, h4⟩

theorem FirstBest.not_better (h : StrictWeak better) {l : List (Scored A Q)} {x : Scored A Q} (hx : FirstBest better l x) :
    ∀ y ∈ l, better y.quality x.quality = false := by
  obtain ⟨b, a, h1, h2, h3⟩ := hx
  intro y hy
  rw [h1, List.mem_append, List.mem_cons] at hy
  rcases hy with hy | rfl | hy
  · exact h.asymm (h2 y hy)
  · exact h.irrefl _
  · exact h3 y hy

/-- Merging the comparator of a feature. -/
theorem single_merge (h : StrictWeak better) {s c : Single A Q} {D l : List (Scored A Q)} {found : Bool}
    (hr : SingleResult better s D c found) :
    ∃ c' f, Single.merge better c (l.foldl (Single.consider better) s.copy) = .ok (c', f) ∧
      SingleResult better s (D ++ l) c' (found || f) := by
  rcases single_copy_fold h l s with ⟨e1, e2⟩ | ⟨y, e1, e2, e3⟩
  · rw [e2]
    have hq : better s.quality c.quality = false := by
      rcases hr with ⟨_, rfl, _⟩ | ⟨x, rfl, _, hx, _⟩
      · exact h.irrefl _
      · exact h.asymm hx
    refine ⟨c, false, by simp [Single.merge, Single.copy, hq, pure_eq_ok], ?_⟩
    rw [Bool.or_false]
    rcases hr with ⟨h1, h2, h3⟩ | ⟨x, h1, h2, h3, b, a, h4, h5, h6⟩
    · refine Or.inl ⟨?_, h2, h3⟩
      intro z hz
      rcases List.mem_append.1 hz with hz | hz
      · exact h1 z hz
      · exact e1 z hz
    · refine Or.inr ⟨x, h1, h2, h3, b, a ++ l, by rw [h4]; simp, h5, ?_⟩
      intro z hz
      rcases List.mem_append.1 hz with hz | hz
      · exact h6 z hz
      · exact h.not_of_better h3 (e1 z hz)
  · rw [e1]
    rcases hr with ⟨h1, rfl, rfl⟩ | ⟨x, rfl, rfl, h3, b, a, h4, h5, h6⟩
    · refine ⟨⟨some y, y.quality⟩, true, by simp [Single.merge, e2, useInit, ok_bind, pure_eq_ok], ?_⟩
      obtain ⟨b, a, f1, f2, f3⟩ := e3
      refine Or.inr ⟨y, rfl, rfl, e2, D ++ b, a, by rw [f1]; simp, ?_, f3⟩
      intro z hz
      rcases List.mem_append.1 hz with hz | hz
      · exact h.of_not e2 (h1 z hz)
      · exact f2 z hz
    · cases hyx : better y.quality x.quality with
      | true =>
        refine ⟨⟨some y, y.quality⟩, true, by simp [Single.merge, hyx, useInit, ok_bind, pure_eq_ok], ?_⟩
        obtain ⟨b', a', f1, f2, f3⟩ := e3
        refine Or.inr ⟨y, rfl, rfl, e2, D ++ b', a', by rw [f1]; simp, ?_, f3⟩
        intro z hz
        rcases List.mem_append.1 hz with hz | hz
        · rw [h4, List.mem_append, List.mem_cons] at hz
          rcases hz with hz | rfl | hz
          · exact h.trans _ _ _ hyx (h5 z hz)
          · exact hyx
          · exact h.of_not hyx (h6 z hz)
        · exact f2 z hz
      | false =>
        refine ⟨⟨some x, x.quality⟩, false, by simp [Single.merge, hyx, pure_eq_ok], ?_⟩
        refine Or.inr ⟨x, rfl, rfl, h3, b, a ++ l, by rw [h4]; simp, h5, ?_⟩
        intro z hz
        rcases List.mem_append.1 hz with hz | hz
        · exact h6 z hz
        · exact h.not_trans (e3.not_better h z hz) hyx

theorem single_mergeAll (h : StrictWeak better) {s c : Single A Q} (ls : List (List (Scored A Q))) {D : List (Scored A Q)}
    {found : Bool} (hr : SingleResult better s D c found) :
    ∃ c' f, mergeAll (singleOps better) (ls.map (fun l => l.foldl (Single.consider better) s.copy)) c found = .ok (c', f) ∧
      SingleResult better s (D ++ ls.flatten) c' f := by
  induction ls generalizing D c found with
  | nil => exact ⟨c, found, rfl, by simpa using hr⟩
  | cons l ls ih =>
    obtain ⟨c1, f1, h1, h2⟩ := single_merge h (l := l) hr
    obtain ⟨c2, f2, h3, h4⟩ := ih h2
    refine ⟨c2, f2, ?_, by simpa [List.append_assoc] using h4⟩
    rw [List.map_cons]
    simp only [mergeAll]
    have : (singleOps better).merge c (l.foldl (Single.consider better) s.copy) = .ok (c1, f1) := h1
    rw [this, ok_bind]
    exact h3

/-! ### Schedules -/

section
variable {C X : Type} {ops : ComparatorOps C X}

theorem mapM_ok {α β : Type} {f : α → Res β} {l : List α} {r : List β} (h : l.mapM f = .ok r) :
    r.length = l.length ∧ ∀ (i : Nat) (a : α), l[i]? = some a → ∃ b, r[i]? = some b ∧ f a = .ok b := by
  induction l generalizing r with
  | nil =>
    rw [List.mapM_nil] at h
    cases h
    exact ⟨rfl, by simp⟩
  | cons a l ih =>
    rw [List.mapM_cons] at h
    cases hb : f a with
    | error e => rw [hb] at h; cases h
    | ok b =>
      rw [hb, ok_bind] at h
      cases hr : l.mapM f with
      | error e => rw [hr] at h; cases h
      | ok bs =>
        rw [hr, ok_bind, pure_eq_ok] at h
        cases h
        obtain ⟨h1, h2⟩ := ih hr
        refine ⟨by simp [h1], ?_⟩
        intro i a' hi
        cases i with
        | zero =>
          simp only [List.getElem?_cons_zero, Option.some.injEq] at hi
          subst hi
          exact ⟨b, rfl, hb⟩
        | succ i =>
          simp only [List.getElem?_cons_succ] at hi ⊢
          exact h2 i a' hi

theorem execTrace_spec (trace : List (Nat × X)) (entries final : List C) (hlen : final.length = entries.length)
    (hb : ∀ p ∈ trace, p.1 < entries.length)
    (h : ∀ (i : Nat) (c c' : C), entries[i]? = some c → final[i]? = some c' →
      ((trace.filter (fun p => p.1 == i)).map Prod.snd).foldlM ops.consider c = .ok c') :
    execTrace ops trace entries = .ok final := by
  induction trace generalizing entries with
  | nil =>
    simp only [execTrace]
    congr 1
    apply List.ext_getElem? 
    intro i
    by_cases hi : i < entries.length
    · rw [List.getElem?_eq_getElem hi, List.getElem?_eq_getElem (by omega)]
      have := h i _ _ (List.getElem?_eq_getElem hi) (List.getElem?_eq_getElem (by omega : i < final.length))
      simp only [List.filter_nil, List.map_nil, List.foldlM_nil, pure_eq_ok, Except.ok.injEq] at this
      rw [this]
    · rw [List.getElem?_eq_none (by omega), List.getElem?_eq_none (by omega)]
  | cons p trace ih =>
    obtain ⟨i, x⟩ := p
    have hi : i < entries.length := hb _ List.mem_cons_self
    have hi' := h i _ _ (List.getElem?_eq_getElem hi) (List.getElem?_eq_getElem (by omega : i < final.length))
    rw [List.filter_cons_of_pos (by simp), List.map_cons, List.foldlM_cons] at hi'
    simp only [execTrace]
    rw [readAt_of_lt hi, ok_bind]
    cases hc : ops.consider entries[i] x with
    | error e => rw [hc] at hi'; cases hi'
    | ok c1 =>
      rw [hc, ok_bind] at hi'
      rw [ok_bind, writeAt_of_lt hi, ok_bind]
      apply ih
      · simpa using hlen
      · intro p hp
        simpa using hb p (List.mem_cons_of_mem _ hp)
      · intro j c c' hj hj'
        by_cases hij : i = j
        · subst hij
          simp only [List.getElem?_set_self hi, Option.some.injEq] at hj
          subst hj
          rw [List.getElem?_eq_getElem (by omega), Option.some.injEq] at hj'
          subst hj'
          exact hi'
        · rw [List.getElem?_set_ne hij] at hj
          have := h j c c' hj hj'
          rwa [List.filter_cons_of_neg (by simpa using hij)] at this

end

/-! ### Fixed comparator -/

/-- The content of the comparator is consistent with respect to the initial minimum quality. -/
structure Fixed.Ok (better : Q → Q → Bool) (k : Nat) (q0 : Q) (s : Fixed A Q) : Prop where
  sorted : Sorted better s.order
  length : s.order.length ≤ k
  improve : ∀ x ∈ s.order, better x.quality q0 = true
  minQuality : s.minQuality = match s.order.getLast? with
    | some w => w.quality
    | none => q0

theorem sorted_last (h : StrictWeak better) {l : List (Scored A Q)} (hs : Sorted better l) {w : Scored A Q}
    (hw : l.getLast? = some w) : ∀ x ∈ l, better w.quality x.quality = false := by
  obtain ⟨ys, rfl⟩ := List.getLast?_eq_some_iff.1 hw
  intro x hx
  rcases List.mem_append.1 hx with hx | hx
  · exact (List.pairwise_append.1 hs).2.2 x hx w (by simp)
  · simp only [List.mem_singleton] at hx
    subst hx
    exact h.irrefl _

/-- `Best` with the additional fact that is needed in the induction. -/
def BestInv (better : Q → Q → Bool) (s : Fixed A Q) (all : List (Scored A Q)) : Prop :=
  ∃ dropped, (s.order ++ dropped).Perm all ∧ (∀ x ∈ s.order, ∀ y ∈ dropped, better y.quality x.quality = false) ∧
    ∀ y ∈ dropped, better y.quality s.minQuality = false

theorem fixed_consider (h : StrictWeak better) {sort : List (Scored A Q) → List (Scored A Q)} (hsort : SortSpec better sort)
    {k : Nat} (hk : 1 ≤ k) {q0 : Q} {s : Fixed A Q} (hs : s.Ok better k q0) {all : List (Scored A Q)} (hb : BestInv better s all)
    (x : Scored A Q) :
    ∃ s', Fixed.consider better sort k s x = .ok s' ∧ s'.Ok better k q0 ∧ BestInv better s' (all ++ [x]) ∧
      s.order.length ≤ s'.order.length ∧
      (s'.order = [] → s.order = [] ∧ better x.quality q0 = false) := by
  obtain ⟨dropped, b1, b2, b3⟩ := hb
  cases hx : better x.quality s.minQuality with
  | false =>
    refine ⟨s, by simp [Fixed.consider, hx, pure_eq_ok], hs, ⟨dropped ++ [x], ?_, ?_, ?_⟩, Nat.le_refl _, fun he => ⟨he, ?_⟩⟩
    · rw [← List.append_assoc]
      exact b1.append_right _
    · intro z hz y hy
      rcases List.mem_append.1 hy with hy | hy
      · exact b2 z hz y hy
      · simp only [List.mem_singleton] at hy
        subst hy
        have hq := hs.minQuality
        cases hw : s.order.getLast? with
        | none => rw [List.getLast?_eq_none_iff.1 hw] at hz; cases hz
        | some w =>
          rw [hw] at hq
          simp only at hq
          rw [hq] at hx
          exact h.not_trans hx (sorted_last h hs.sorted hw z hz)
    · intro y hy
      rcases List.mem_append.1 hy with hy | hy
      · exact b3 y hy
      · simp only [List.mem_singleton] at hy
        subst hy
        exact hx
    · have hq := hs.minQuality
      rw [he] at hq
      simp only [List.getLast?_nil] at hq
      rw [← hq]; exact hx
  | true =>
    have hxq : better x.quality q0 = true := by
      have hq := hs.minQuality
      cases hw : s.order.getLast? with
      | none => rw [hw] at hq; simp only at hq; rw [← hq]; exact hx
      | some w =>
        rw [hw] at hq
        simp only at hq
        rw [hq] at hx
        exact h.trans _ _ _ hx (hs.improve w (List.mem_of_getLast? hw))
    have hyx : ∀ y ∈ dropped, better y.quality x.quality = false := fun y hy => h.not_of_better hx (b3 y hy)
    -- the common part: the new order consists of `base ++ [x]`, and `base` with `more` was in the old order
    have key : ∀ base more : List (Scored A Q), (base ++ more).Perm s.order → base.length + 1 ≤ k →
        s.order.length ≤ base.length + 1 → (∀ w ∈ more, better w.quality x.quality = false) →
        (∀ w ∈ more, ∀ z ∈ base, better w.quality z.quality = false) →
        (if s.order.length < k then s.order ++ [x] else s.order.dropLast ++ [x]) = base ++ [x] →
        (s.order.length < k ∨ s.order ≠ []) →
        ∃ s', Fixed.consider better sort k s x = .ok s' ∧ s'.Ok better k q0 ∧ BestInv better s' (all ++ [x]) ∧
          s.order.length ≤ s'.order.length ∧ (s'.order = [] → s.order = [] ∧ better x.quality q0 = false) := by
      intro base more hperm hlen hlen' hmx hmz hif hne
      have hp := hsort.perm (base ++ [x])
      have hsd := hsort.sorted (base ++ [x])
      have hsne : sort (base ++ [x]) ≠ [] := by
        intro he
        have := hp.length_eq
        rw [he] at this
        simp at this
      obtain ⟨w, hw⟩ : ∃ w, (sort (base ++ [x])).getLast? = some w := by
        cases hw : (sort (base ++ [x])).getLast? with
        | none => exact absurd (List.getLast?_eq_none_iff.1 hw) hsne
        | some w => exact ⟨w, rfl⟩
      have hcons : Fixed.consider better sort k s x = .ok ⟨sort (base ++ [x]), w.quality⟩ := by
        simp only [Fixed.consider, hx, if_true]
        rw [if_pos hne, hif, hw]
        rfl
      have hbase : ∀ z ∈ base, z ∈ s.order := fun z hz => hperm.subset (List.mem_append_left _ hz)
      have hmore : ∀ z ∈ more, z ∈ s.order := fun z hz => hperm.subset (List.mem_append_right _ hz)
      have hnew : ∀ z ∈ sort (base ++ [x]), ∀ y ∈ more ++ dropped, better y.quality z.quality = false := by
        intro z hz y hy
        have hz' := hp.subset hz
        rw [List.mem_append, List.mem_singleton] at hz'
        rcases List.mem_append.1 hy with hy | hy
        · rcases hz' with hz' | rfl
          · exact hmz y hy z hz'
          · exact hmx y hy
        · rcases hz' with hz' | rfl
          · exact b2 z (hbase z hz') y hy
          · exact hyx y hy
      refine ⟨_, hcons, ⟨hsd, ?_, ?_, ?_⟩, ⟨more ++ dropped, ?_, hnew, ?_⟩, ?_, fun he => absurd he hsne⟩
      · have := hp.length_eq
        simp only [List.length_append, List.length_singleton] at this
        simp only
        omega
      · intro z hz
        have hz' := hp.subset hz
        rw [List.mem_append, List.mem_singleton] at hz'
        rcases hz' with hz' | rfl
        · exact hs.improve z (hbase z hz')
        · exact hxq
      · simp only
        rw [hw]
      · refine (hp.append_right _).trans (List.Perm.trans ?_ (((hperm.append_right dropped).append_right [x]).trans
          (b1.append_right _)))
        have h1 : base ++ [x] ++ (more ++ dropped) = base ++ ([x] ++ (more ++ dropped)) := by simp
        have h2 : base ++ more ++ dropped ++ [x] = base ++ ((more ++ dropped) ++ [x]) := by simp
        rw [h1, h2]
        exact List.Perm.append_left _ List.perm_append_comm
      · intro y hy
        exact hnew w (List.mem_of_getLast? hw) y hy
      · have := hp.length_eq
        simp only [List.length_append, List.length_singleton] at this
        simp only
        omega
    by_cases hfull : s.order.length < k
    · exact key s.order [] (by simp) (by omega) (by omega) (by simp) (by simp) (by rw [if_pos hfull]) (Or.inl hfull)
    · have hne : s.order ≠ [] := by
        intro he
        rw [he] at hfull
        simp at hfull
        omega
      obtain ⟨w, hw⟩ : ∃ w, s.order.getLast? = some w := by
        cases hw : s.order.getLast? with
        | none => exact absurd (List.getLast?_eq_none_iff.1 hw) hne
        | some w => exact ⟨w, rfl⟩
      obtain ⟨ys, hys⟩ := List.getLast?_eq_some_iff.1 hw
      have hq := hs.minQuality
      rw [hw] at hq
      simp only at hq
      have hlast := sorted_last h hs.sorted hw
      have hl := hs.length
      refine key ys [w] (by rw [hys]) ?_ ?_ ?_ ?_ ?_ (Or.inr hne)
      · rw [hys] at hl; simpa using hl
      · rw [hys]; simp
      · intro z hz
        simp only [List.mem_singleton] at hz
        subst hz
        rw [hq] at hx
        exact h.asymm hx
      · intro z hz y hy
        simp only [List.mem_singleton] at hz
        subst hz
        exact hlast y (by rw [hys]; exact List.mem_append_left _ hy)
      · rw [if_neg hfull, hys]
        simp

theorem fixed_fold (h : StrictWeak better) {sort : List (Scored A Q) → List (Scored A Q)} (hsort : SortSpec better sort)
    {k : Nat} (hk : 1 ≤ k) {q0 : Q} (l : List (Scored A Q)) {s : Fixed A Q} (hs : s.Ok better k q0) {all : List (Scored A Q)}
    (hb : BestInv better s all) :
    ∃ s', l.foldlM (Fixed.consider better sort k) s = .ok s' ∧ s'.Ok better k q0 ∧ BestInv better s' (all ++ l) ∧
      s.order.length ≤ s'.order.length ∧
      (s'.order = [] → s.order = [] ∧ ∀ x ∈ l, better x.quality q0 = false) := by
  induction l generalizing s all with
  | nil => exact ⟨s, rfl, hs, by simpa using hb, Nat.le_refl _, fun he => ⟨he, by simp⟩⟩
  | cons x l ih =>
    obtain ⟨s1, h1, h2, h3, h4, h5⟩ := fixed_consider h hsort hk hs hb x
    obtain ⟨s2, g1, g2, g3, g4, g5⟩ := ih h2 h3
    refine ⟨s2, by rw [List.foldlM_cons, h1, ok_bind, g1], g2, by simpa using g3, by omega, fun he => ?_⟩
    obtain ⟨e1, e2⟩ := g5 he
    obtain ⟨e3, e4⟩ := h5 e1
    refine ⟨e3, ?_⟩
    intro z hz
    rcases List.mem_cons.1 hz with rfl | hz
    · exact e4
    · exact e2 z hz

theorem bestInv_self (s : Fixed A Q) : BestInv better s s.order := ⟨[], by simp, by simp, by simp⟩

theorem new_ok (k : Nat) (q0 : Q) : (Fixed.new q0 : Fixed A Q).Ok better k q0 :=
  ⟨List.Pairwise.nil, by simp [Fixed.new], by simp [Fixed.new], rfl⟩

theorem mergeLoop_spec (h : StrictWeak better) (k : Nat) (l1 l2 : List (Scored A Q)) (h1 : Sorted better l1)
    (h2 : Sorted better l2) :
    Sorted better (mergeLoop better k l1 l2).1 ∧ Best better (l1 ++ l2) (mergeLoop better k l1 l2).1 ∧
      (mergeLoop better k l1 l2).1.length = min k (l1.length + l2.length) := by
  -- prepending an element that is not worse than all others
  have cons : ∀ {x : Scored A Q} {rest kept : List (Scored A Q)}, (∀ z ∈ rest, better z.quality x.quality = false) →
      Sorted better kept → Best better rest kept → Sorted better (x :: kept) ∧ Best better (x :: rest) (x :: kept) := by
    intro x rest kept hz hk hb
    obtain ⟨d, d1, d2⟩ := hb
    refine ⟨List.pairwise_cons.2 ⟨fun z hz' => hz z (d1.subset (List.mem_append_left _ hz')), hk⟩, d, ?_, ?_⟩
    · exact List.Perm.cons x d1
    · intro z hz' y hy
      rcases List.mem_cons.1 hz' with rfl | hz'
      · exact hz y (d1.subset (List.mem_append_right _ hy))
      · exact d2 z hz' y hy
  have perm : ∀ {a b kept : List (Scored A Q)}, a.Perm b → Best better a kept → Best better b kept := by
    rintro a b kept hab ⟨d, d1, d2⟩
    exact ⟨d, d1.trans hab, d2⟩
  induction k generalizing l1 l2 with
  | zero =>
    refine ⟨by simp [mergeLoop, Sorted], ⟨l1 ++ l2, by simp [mergeLoop], by simp [mergeLoop]⟩, by simp [mergeLoop]⟩
  | succ n ih =>
    cases l1 with
    | nil =>
      cases l2 with
      | nil => exact ⟨by simp [mergeLoop, Sorted], ⟨[], by simp [mergeLoop], by simp⟩, by simp [mergeLoop]⟩
      | cons y l2 =>
        obtain ⟨hy, hl2⟩ := List.pairwise_cons.1 h2
        obtain ⟨i1, i2, i3⟩ := ih [] l2 h1 hl2
        simp only [mergeLoop]
        obtain ⟨c1, c2⟩ := cons (x := y) (rest := l2) hy i1 (by simpa using i2)
        exact ⟨c1, by simpa using c2, by simp only [List.length_cons, i3, List.length_nil]; omega⟩
    | cons x l1 =>
      obtain ⟨hx, hl1⟩ := List.pairwise_cons.1 h1
      cases l2 with
      | nil =>
        obtain ⟨i1, i2, i3⟩ := ih l1 [] hl1 h2
        simp only [mergeLoop]
        obtain ⟨c1, c2⟩ := cons (x := x) (rest := l1) hx i1 (by simpa using i2)
        exact ⟨c1, by simpa using c2, by simp only [List.length_cons, i3, List.length_nil]; omega⟩
      | cons y l2 =>
        obtain ⟨hy, hl2⟩ := List.pairwise_cons.1 h2
        simp only [mergeLoop]
        cases hxy : better x.quality y.quality with
        | true =>
          obtain ⟨i1, i2, i3⟩ := ih l1 (y :: l2) hl1 h2
          simp only [if_true]
          obtain ⟨c1, c2⟩ := cons (x := x) (rest := l1 ++ y :: l2) (by
            intro z hz
            rw [List.mem_append, List.mem_cons] at hz
            rcases hz with hz | rfl | hz
            · exact hx z hz
            · exact h.asymm hxy
            · exact h.not_of_better hxy (hy z hz)) i1 i2
          exact ⟨c1, by simpa using c2, by simp only [List.length_cons, i3]; omega⟩
        | false =>
          obtain ⟨i1, i2, i3⟩ := ih (x :: l1) l2 h1 hl2
          simp only [Bool.false_eq_true, if_false]
          obtain ⟨c1, c2⟩ := cons (x := y) (rest := (x :: l1) ++ l2) (by
            intro z hz
            rw [List.mem_append, List.mem_cons] at hz
            rcases hz with (rfl | hz) | hz
            · exact hxy
            · exact h.not_trans (hx z hz) hxy
            · exact hy z hz) i1 i2
          refine ⟨c1, perm ?_ c2, by simp only [List.length_cons, i3]; omega⟩
          exact (List.perm_middle (l₁ := x :: l1)).symm

end MLRL.Refinement
