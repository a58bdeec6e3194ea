import Verif.Model.Predictor
import Mathlib.Data.List.Nodup
import Mathlib.Data.List.Perm.Basic

set_option linter.unusedSectionVars false

namespace MLRL.Predictor

variable {K B : Type}

/-- Two memories agree on some rows. -/
def Agree (R P : Nat → Prop) (m m' : Mem K B) : Prop :=
  (∀ r, R r → m.scores[r]? = m'.scores[r]?) ∧ ∀ i, P i → m.preds[i]? = m'.preds[i]?

/-- A step only touches some rows. -/
def Action.Owned (R P : Nat → Prop) : Action K B → Prop
  | .rowStep r _ => R r
  | .transform r _ i => R r ∧ P i

theorem readAt_congr {α : Type} {a b : List α} {i : Nat} (h : a[i]? = b[i]?) : readAt a i = readAt b i := by
  unfold readAt; rw [h]

theorem lt_length_congr {α : Type} {a b : List α} {i : Nat} (h : a[i]? = b[i]?) (hb : i < b.length) : i < a.length := by
  rw [List.getElem?_eq_getElem hb] at h
  exact (List.getElem?_eq_some_iff.1 h).1

theorem writeAt_eq_ok {α : Type} {a b : List α} {i : Nat} {v : α} (h : writeAt a i v = .ok b) :
    i < a.length ∧ b = a.set i v := by
  unfold writeAt at h
  split at h
  · rename_i hlt
    cases h; exact ⟨hlt, rfl⟩
  · cases h

/-- The effect of a step on the rows it may touch only depends on these rows, other rows are left unchanged. -/
theorem Action.exec_agree {R P : Nat → Prop} {a : Action K B} (ho : a.Owned R P) {m n n' : Mem K B} (hag : Agree R P m n)
    (hn : a.exec n = .ok n') :
    ∃ m', a.exec m = .ok m' ∧ Agree R P m' n' ∧
      ∀ R' P' : Nat → Prop, (∀ r, R r → ¬ R' r) → (∀ i, P i → ¬ P' i) → Agree R' P' m' m := by
  cases a with
  | rowStep r f =>
    simp only [exec] at hn ⊢
    have hr := hag.1 r ho
    rw [readAt_congr hr]
    cases h1 : readAt n.scores r with
    | error e => rw [h1] at hn; cases hn
    | ok row =>
      rw [h1, ok_bind] at hn
      rw [ok_bind]
      cases h2 : f row with
      | error e => rw [h2] at hn; cases hn
      | ok row' =>
        rw [h2, ok_bind] at hn
        rw [ok_bind]
        cases h3 : writeAt n.scores r row' with
        | error e => rw [h3] at hn; cases hn
        | ok s =>
          rw [h3, ok_bind, pure_eq_ok] at hn
          cases hn
          obtain ⟨hlt, rfl⟩ := writeAt_eq_ok h3
          have hlt' := lt_length_congr hr hlt
          rw [writeAt_of_lt hlt', ok_bind]
          refine ⟨_, rfl, ⟨?_, hag.2⟩, ?_⟩
          · intro r' hr'
            by_cases e : r = r'
            · subst e; simp [hlt, hlt']
            · simp [List.getElem?_set_ne e, hag.1 r' hr']
          · intro R' P' hR _
            refine ⟨?_, fun i _ => rfl⟩
            intro r' hr'
            have e : r ≠ r' := fun e => hR r ho (e ▸ hr')
            simp [List.getElem?_set_ne e]
  | transform r g i =>
    simp only [exec] at hn ⊢
    have hr := hag.1 r ho.1
    have hi := hag.2 i ho.2
    rw [readAt_congr hr]
    cases h1 : readAt n.scores r with
    | error e => rw [h1] at hn; cases hn
    | ok row =>
      rw [h1, ok_bind] at hn
      rw [ok_bind]
      cases h3 : writeAt n.preds i (g row) with
      | error e => rw [h3] at hn; cases hn
      | ok s =>
        rw [h3, ok_bind, pure_eq_ok] at hn
        cases hn
        obtain ⟨hlt, rfl⟩ := writeAt_eq_ok h3
        have hlt' := lt_length_congr hi hlt
        rw [writeAt_of_lt hlt', ok_bind]
        refine ⟨_, rfl, ⟨hag.1, ?_⟩, ?_⟩
        · intro i' hi'
          by_cases e : i = i'
          · subst e; simp [hlt, hlt']
          · simp [List.getElem?_set_ne e, hag.2 i' hi']
        · intro R' P' _ hP
          refine ⟨fun i _ => rfl, ?_⟩
          intro i' hi'
          have e : i ≠ i' := fun e => hP i ho.2 (e ▸ hi')
          simp [List.getElem?_set_ne e]

theorem Agree.trans {R P : Nat → Prop} {a b c : Mem K B} (h : Agree R P a b) (h' : Agree R P b c) : Agree R P a c :=
  ⟨fun r hr => (h.1 r hr).trans (h'.1 r hr), fun i hi => (h.2 i hi).trans (h'.2 i hi)⟩

/-- If the threads own disjoint sets of rows and each of them, running on its own, would succeed, then each interleaving
succeeds and leaves in the rows of each thread what this thread would have left on its own. -/
theorem execAll_interleaved {R P : Nat → Nat → Prop} (hR : ∀ t u, t ≠ u → ∀ r, R t r → ¬ R u r)
    (hP : ∀ t u, t ≠ u → ∀ i, P t i → ¬ P u i) (final : Nat → Mem K B) :
    ∀ (trace : List (Nat × Action K B)) (m : Mem K B) (alone : Nat → Mem K B),
      (∀ p ∈ trace, p.2.Owned (R p.1) (P p.1)) → (∀ t, Agree (R t) (P t) m (alone t)) →
      (∀ t, execAll ((trace.filter (fun p => decide (p.1 = t))).map Prod.snd) (alone t) = .ok (final t)) →
      ∃ m', execAll (trace.map Prod.snd) m = .ok m' ∧ ∀ t, Agree (R t) (P t) m' (final t) := by
  intro trace
  induction trace with
  | nil =>
    intro m alone _ hag hal
    refine ⟨m, rfl, ?_⟩
    intro t
    have : alone t = final t := by
      have h := hal t
      simp only [List.filter_nil, List.map_nil] at h
      exact Except.ok.inj h
    rw [← this]; exact hag t
  | cons p trace ih =>
    intro m alone ho hag hal
    obtain ⟨t, a⟩ := p
    have hoa : a.Owned (R t) (P t) := ho (t, a) (by simp)
    have ht := hal t
    simp only [List.filter_cons, decide_true, if_true, List.map_cons] at ht
    unfold execAll at ht
    cases hx : a.exec (alone t) with
    | error e => rw [hx] at ht; cases ht
    | ok n' =>
      rw [hx, ok_bind] at ht
      obtain ⟨m1, e1, e2, e3⟩ := Action.exec_agree hoa (hag t) hx
      obtain ⟨m', h1, h2⟩ := ih m1 (fun u => if u = t then n' else alone u)
        (fun p hp => ho p (List.mem_cons_of_mem _ hp))
        (by
          intro u
          by_cases hu : u = t
          · subst hu; simpa using e2
          · simp only [hu, if_false]
            exact (e3 (R u) (P u) (hR t u (Ne.symm hu)) (hP t u (Ne.symm hu))).trans (hag u))
        (by
          intro u
          by_cases hu : u = t
          · subst hu; simpa using ht
          · have := hal u
            simp only [List.filter_cons] at this
            have hne : ¬ t = u := fun e => hu e.symm
            simpa [hu, hne] using this)
      refine ⟨m', ?_, h2⟩
      rw [List.map_cons]
      unfold execAll
      rw [e1, ok_bind, h1]

theorem execAll_append (as bs : List (Action K B)) (m : Mem K B) :
    execAll (as ++ bs) m = execAll as m >>= execAll bs := by
  induction as generalizing m with
  | nil => rfl
  | cons a as ih =>
    rw [List.cons_append]
    unfold execAll
    cases a.exec m with
    | error e => rfl
    | ok m' => rw [ok_bind, ok_bind, ih]

/-- A sequence of modifications of a row. -/
theorem execAll_rowSteps (r : Nat) (fs : List (List K → Res (List K))) : ∀ (m : Mem K B) (row res : List K),
    m.scores[r]? = some row → fs.foldlM (fun s f => f s) row = .ok res →
    execAll (fs.map (fun f => (.rowStep r f : Action K B))) m = .ok { m with scores := m.scores.set r res } := by
  induction fs with
  | nil =>
    intro m row res h1 h2
    cases h2
    have : m.scores.set r row = m.scores := by
      obtain ⟨hlt, e⟩ := List.getElem?_eq_some_iff.1 h1
      rw [← e]; exact List.set_getElem_self hlt
    rw [this]; rfl
  | cons f fs ih =>
    intro m row res h1 h2
    rw [List.foldlM_cons] at h2
    cases hf : f row with
    | error e => rw [hf] at h2; cases h2
    | ok row' =>
      rw [hf, ok_bind] at h2
      obtain ⟨hlt, e⟩ := List.getElem?_eq_some_iff.1 h1
      have := ih { m with scores := m.scores.set r row' } row' res (by simp [hlt]) h2
      rw [List.map_cons]
      simp only [execAll, Action.exec]
      rw [readAt_of_getElem? h1, ok_bind, hf, ok_bind, writeAt_of_lt hlt, ok_bind, pure_eq_ok, ok_bind, this]
      simp

variable [Zero K]

/-- One thread with a scratch row processes its examples. -/
theorem execAll_scratch (steps : Nat → List (List K → Res (List K))) (g : List K → List B) (n t : Nat)
    (result : Nat → List K) : ∀ (examples : List Nat) (m : Mem K B) (row : List K), m.scores[t]? = some row →
    row.length = n → (∀ i ∈ examples, i < m.preds.length) →
    (∀ i ∈ examples, (steps i).foldlM (fun s f => f s) (List.replicate n 0) = .ok (result i) ∧ (result i).length = n) →
    ∃ m', execAll (examples.flatMap (predictForExample steps g t)) m = .ok m' ∧
      (∀ i ∈ examples, m'.preds[i]? = some (g (result i))) ∧ (∀ i, i ∉ examples → m'.preds[i]? = m.preds[i]?) := by
  intro examples
  induction examples with
  | nil => intro m row _ _ _ _; exact ⟨m, rfl, by simp, by simp⟩
  | cons i examples ih =>
    intro m row h1 h2 h3 h4
    obtain ⟨hlt, e⟩ := List.getElem?_eq_some_iff.1 h1
    have hi : i < m.preds.length := h3 i (by simp)
    have hz : row.map (fun _ => (0 : K)) = List.replicate n 0 := by
      rw [← h2]; exact List.map_const'
    have htask : execAll (predictForExample steps g t i) m =
        .ok ⟨m.scores.set t (result i), m.preds.set i (g (result i))⟩ := by
      unfold predictForExample
      have h5 := execAll_rowSteps t ((fun row => .ok (row.map (fun _ => 0))) :: steps i) m row (result i) h1 (by
        rw [List.foldlM_cons, ok_bind, hz]
        exact (h4 i (by simp)).1)
      rw [List.map_cons] at h5
      rw [execAll_append, List.singleton_append, h5, ok_bind]
      unfold execAll Action.exec
      simp only
      rw [readAt_of_getElem? (by simp [hlt] : (m.scores.set t (result i))[t]? = some (result i)), ok_bind,
        writeAt_of_lt hi, ok_bind]
      rfl
    obtain ⟨m', e1, e2, e3⟩ := ih ⟨m.scores.set t (result i), m.preds.set i (g (result i))⟩ (result i) (by simp [hlt])
      (h4 i (by simp)).2 (fun j hj => by simpa using h3 j (List.mem_cons_of_mem _ hj))
      (fun j hj => h4 j (List.mem_cons_of_mem _ hj))
    refine ⟨m', ?_, ?_, ?_⟩
    · rw [List.flatMap_cons, execAll_append, htask, ok_bind, e1]
    · intro j hj
      by_cases hj' : j ∈ examples
      · exact e2 j hj'
      · have : j = i := by simpa [hj'] using hj
        subst this
        rw [e3 j hj']
        simp [hi]
    · intro j hj
      rw [e3 j (fun h => hj (List.mem_cons_of_mem _ h))]
      have : i ≠ j := fun e => hj (by simp [e])
      simp [List.getElem?_set_ne this]

omit [Zero K] in
/-- One thread whose examples have rows of their own. -/
theorem execAll_inPlace (steps : Nat → List (List K → Res (List K))) (g : List K → List B)
    (result : Nat → List K) : ∀ (examples : List Nat) (m : Mem K B), examples.Nodup →
    (∀ i ∈ examples, i < m.preds.length ∧ ∃ row, m.scores[i]? = some row ∧
      (steps i).foldlM (fun s f => f s) row = .ok (result i)) →
    ∃ m', execAll (examples.flatMap (predictForExampleInPlace steps g)) m = .ok m' ∧
      (∀ i ∈ examples, m'.preds[i]? = some (g (result i)) ∧ m'.scores[i]? = some (result i)) ∧
      (∀ i, i ∉ examples → m'.preds[i]? = m.preds[i]? ∧ m'.scores[i]? = m.scores[i]?) := by
  intro examples
  induction examples with
  | nil => intro m _ _; exact ⟨m, rfl, by simp, by simp⟩
  | cons i examples ih =>
    intro m hnd h
    rw [List.nodup_cons] at hnd
    obtain ⟨hi, row, h1, h2⟩ := h i (by simp)
    obtain ⟨hlt, e⟩ := List.getElem?_eq_some_iff.1 h1
    have htask : execAll (predictForExampleInPlace steps g i) m =
        .ok ⟨m.scores.set i (result i), m.preds.set i (g (result i))⟩ := by
      unfold predictForExampleInPlace
      rw [execAll_append, execAll_rowSteps i (steps i) m row (result i) h1 h2, ok_bind]
      unfold execAll Action.exec
      simp only
      rw [readAt_of_getElem? (by simp [hlt] : (m.scores.set i (result i))[i]? = some (result i)), ok_bind,
        writeAt_of_lt hi, ok_bind]
      rfl
    obtain ⟨m', e1, e2, e3⟩ := ih ⟨m.scores.set i (result i), m.preds.set i (g (result i))⟩ hnd.2 (by
      intro j hj
      obtain ⟨a, row', b, c⟩ := h j (List.mem_cons_of_mem _ hj)
      have hne : i ≠ j := fun e => hnd.1 (e ▸ hj)
      exact ⟨by simpa using a, row', by simpa [List.getElem?_set_ne hne] using b, c⟩)
    refine ⟨m', ?_, ?_, ?_⟩
    · rw [List.flatMap_cons, execAll_append, htask, ok_bind, e1]
    · intro j hj
      by_cases hj' : j ∈ examples
      · exact e2 j hj'
      · have : j = i := by simpa [hj'] using hj
        subst this
        rw [(e3 j hj').1, (e3 j hj').2]
        simp [hi, hlt]
    · intro j hj
      obtain ⟨a, b⟩ := e3 j (fun h => hj (List.mem_cons_of_mem _ h))
      have : i ≠ j := fun e => hj (by simp [e])
      rw [a, b]
      simp [List.getElem?_set_ne this]

/-- Different threads process different examples. -/
theorem assignment_disjoint {assignment : List (List Nat)} (h : assignment.flatten.Nodup) {t u : Nat} (htu : t ≠ u)
    {e e' : List Nat} (ht : assignment[t]? = some e) (hu : assignment[u]? = some e') {i : Nat} (hi : i ∈ e) : i ∉ e' := by
  rw [List.nodup_flatten] at h
  have hp := List.pairwise_iff_getElem.1 h.2
  obtain ⟨h1, rfl⟩ := List.getElem?_eq_some_iff.1 ht
  obtain ⟨h2, rfl⟩ := List.getElem?_eq_some_iff.1 hu
  rcases Nat.lt_or_gt_of_ne htu with hlt | hlt
  · exact hp t u h1 h2 hlt hi
  · intro hi'
    exact hp u t h2 h1 hlt hi' hi

end MLRL.Predictor
