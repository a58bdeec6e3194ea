import Verif.Spec.SparsePrediction
import Verif.Lemma.OutputStrata
import Verif.Lemma.Parallel
import Mathlib.Algebra.BigOperators.Group.List.Basic

set_option linter.unusedSectionVars false

namespace MLRL

/-- If the threads touch disjoint parts of the memory (`A t` is agreement on the part of thread `t`) and each of them, running on its own, would succeed, then each
interleaving succeeds and leaves in the part of each thread what this thread would have left on its own. -/
theorem interleaved {σ α : Type} (exec : α → σ → Res σ) (A : Nat → σ → σ → Prop) (trans : ∀ t a b c, A t a b → A t b c → A t a c) (final : Nat → σ) :
    ∀ (trace : List (Nat × α)) (m : σ) (alone : Nat → σ),
      (∀ p ∈ trace, ∀ m n n', A p.1 m n → exec p.2 n = .ok n' → ∃ m', exec p.2 m = .ok m' ∧ A p.1 m' n' ∧ ∀ u, u ≠ p.1 → A u m' m) →
      (∀ t, A t m (alone t)) →
      (∀ t, ((trace.filter (fun p => decide (p.1 = t))).map Prod.snd).foldlM (fun m a => exec a m) (alone t) = .ok (final t)) →
      ∃ m', (trace.map Prod.snd).foldlM (fun m a => exec a m) m = .ok m' ∧ ∀ t, A t m' (final t) := by
  intro trace
  induction trace with
  | nil =>
    intro m alone _ hag hal
    refine ⟨m, rfl, fun t => ?_⟩
    have : alone t = final t := Except.ok.inj (hal t)
    rw [← this]
    exact hag t
  | cons p trace ih =>
    intro m alone ho hag hal
    obtain ⟨t, a⟩ := p
    have ht := hal t
    simp only [List.filter_cons, decide_true, if_true, List.map_cons, List.foldlM_cons] at ht
    cases hx : exec a (alone t) with
    | error e => rw [hx] at ht; cases ht
    | ok n' =>
      rw [hx, ok_bind] at ht
      obtain ⟨m1, e1, e2, e3⟩ := ho (t, a) (by simp) m (alone t) n' (hag t) hx
      obtain ⟨m', h1, h2⟩ := ih m1 (fun u => if u = t then n' else alone u) (fun p hp => ho p (List.mem_cons_of_mem _ hp))
        (by
          intro u
          by_cases hu : u = t
          · subst hu; simpa using e2
          · simp only [hu, if_false]
            exact trans _ _ _ _ (e3 u hu) (hag u))
        (by
          intro u
          by_cases hu : u = t
          · subst hu; simpa using ht
          · have := hal u
            simp only [List.filter_cons] at this
            have hne : ¬ t = u := fun e => hu e.symm
            simpa [hu, hne] using this)
      refine ⟨m', ?_, h2⟩
      rw [List.map_cons, List.foldlM_cons]
      rw [e1, ok_bind, h1]

end MLRL

namespace MLRL.SparsePrediction

open Predictor (readAt_congr lt_length_congr writeAt_eq_ok assignment_disjoint)
open OutputStrata (buf buf_nil buf_length push_ok take_buf offsets offsets_length offsets_append concat_column)
open FeatureSpace (readRange)
open FeatureType (foldlM_rule)

variable {K : Type}

/-! ### Interleaving -/

/-- Two memories agree on some rows of the matrix of scores, of the prediction matrix and on some private copies. -/
structure Agree (R P C : Nat → Prop) (m m' : Mem K) : Prop where
  scores : ∀ r, R r → m.scores[r]? = m'.scores[r]?
  rows : ∀ i, P i → m.rows[i]? = m'.rows[i]?
  counts : ∀ t, C t → m.counts[t]? = m'.counts[t]?

theorem Agree.refl {R P C : Nat → Prop} (m : Mem K) : Agree R P C m m := ⟨fun _ _ => rfl, fun _ _ => rfl, fun _ _ => rfl⟩

theorem Agree.trans {R P C : Nat → Prop} {a b c : Mem K} (h : Agree R P C a b) (h' : Agree R P C b c) : Agree R P C a c :=
  ⟨fun r hr => (h.scores r hr).trans (h'.scores r hr), fun i hi => (h.rows i hi).trans (h'.rows i hi), fun i hi => (h.counts i hi).trans (h'.counts i hi)⟩

/-- A step only touches some parts of the memory. -/
def Action.Owned (R P C : Nat → Prop) : Action K → Prop
  | .rowStep r _ => R r
  | .clear i => P i
  | .apply r _ i => R r ∧ P i
  | .count t i => C t ∧ P i

theorem write_agree {α : Type} {a b b' : List α} {Q : Nat → Prop} {i : Nat} {v : α} (h : ∀ r, Q r → a[r]? = b[r]?) (hq : Q i) (hw : writeAt b i v = .ok b') :
    writeAt a i v = .ok (a.set i v) ∧ (∀ r, Q r → (a.set i v)[r]? = b'[r]?) ∧ ∀ r, r ≠ i → (a.set i v)[r]? = a[r]? := by
  obtain ⟨hlt, rfl⟩ := writeAt_eq_ok hw
  have hlt' := lt_length_congr (h i hq) hlt
  refine ⟨writeAt_of_lt hlt' v, fun r hr => ?_, fun r hr => List.getElem?_set_ne (fun e => hr e.symm)⟩
  by_cases e : i = r
  · subst e; simp [hlt, hlt']
  · rw [List.getElem?_set_ne e, List.getElem?_set_ne e, h r hr]

/-- The effect of a step on the part it may touch only depends on this part, other parts are left unchanged. -/
theorem Action.exec_agree {R P C : Nat → Prop} {a : Action K} (ho : a.Owned R P C) {m n n' : Mem K} (hag : Agree R P C m n) (hn : a.exec n = .ok n') :
    ∃ m', a.exec m = .ok m' ∧ Agree R P C m' n' ∧
      ∀ R' P' C' : Nat → Prop, (∀ r, R r → ¬ R' r) → (∀ i, P i → ¬ P' i) → (∀ i, C i → ¬ C' i) → Agree R' P' C' m' m := by
  cases a with
  | rowStep r f =>
    simp only [exec] at hn ⊢
    rw [readAt_congr (hag.scores r ho)]
    cases h1 : readAt n.scores r with
    | error e => rw [h1] at hn; cases hn
    | ok row =>
      rw [h1, ok_bind] at hn
      rw [ok_bind]
      cases h2 : f row with
      | error e => rw [h2] at hn; cases hn
      | ok row' =>
        rw [h2, ok_bind] at hn
        rw [ok_bind]
        cases h3 : writeAt n.scores r row' with
        | error e => rw [h3] at hn; cases hn
        | ok s =>
          rw [h3, ok_bind, pure_eq_ok] at hn
          cases hn
          obtain ⟨w1, w2, w3⟩ := write_agree hag.scores ho h3
          rw [w1, ok_bind]
          exact ⟨_, rfl, ⟨w2, hag.rows, hag.counts⟩, fun R' P' C' hR _ _ => ⟨fun r' hr' => w3 r' (fun e => hR r ho (e ▸ hr')), fun _ _ => rfl, fun _ _ => rfl⟩⟩
  | clear i =>
    simp only [exec] at hn ⊢
    cases h3 : writeAt n.rows i [] with
    | error e => rw [h3] at hn; cases hn
    | ok s =>
      rw [h3, ok_bind, pure_eq_ok] at hn
      cases hn
      obtain ⟨w1, w2, w3⟩ := write_agree hag.rows ho h3
      rw [w1, ok_bind]
      exact ⟨_, rfl, ⟨hag.scores, w2, hag.counts⟩, fun R' P' C' _ hP _ => ⟨fun _ _ => rfl, fun r' hr' => w3 r' (fun e => hP i ho (e ▸ hr')), fun _ _ => rfl⟩⟩
  | apply r g i =>
    simp only [exec] at hn ⊢
    rw [readAt_congr (hag.scores r ho.1), readAt_congr (hag.rows i ho.2)]
    cases h1 : readAt n.scores r with
    | error e => rw [h1] at hn; cases hn
    | ok s =>
      rw [h1, ok_bind] at hn
      rw [ok_bind]
      cases h2 : readAt n.rows i with
      | error e => rw [h2] at hn; cases hn
      | ok row =>
        rw [h2, ok_bind] at hn
        rw [ok_bind]
        cases h4 : g s row with
        | error e => rw [h4] at hn; cases hn
        | ok row' =>
          rw [h4, ok_bind] at hn
          rw [ok_bind]
          cases h3 : writeAt n.rows i row' with
          | error e => rw [h3] at hn; cases hn
          | ok s =>
            rw [h3, ok_bind, pure_eq_ok] at hn
            cases hn
            obtain ⟨w1, w2, w3⟩ := write_agree hag.rows ho.2 h3
            rw [w1, ok_bind]
            exact ⟨_, rfl, ⟨hag.scores, w2, hag.counts⟩, fun R' P' C' _ hP _ => ⟨fun _ _ => rfl, fun r' hr' => w3 r' (fun e => hP i ho.2 (e ▸ hr')), fun _ _ => rfl⟩⟩
  | count t i =>
    simp only [exec] at hn ⊢
    rw [readAt_congr (hag.rows i ho.2), readAt_congr (hag.counts t ho.1)]
    cases h1 : readAt n.rows i with
    | error e => rw [h1] at hn; cases hn
    | ok s =>
      rw [h1, ok_bind] at hn
      rw [ok_bind]
      cases h2 : readAt n.counts t with
      | error e => rw [h2] at hn; cases hn
      | ok c =>
        rw [h2, ok_bind] at hn
        rw [ok_bind]
        generalize (c + s.length % 2 ^ 32) % 2 ^ 32 = v at hn ⊢
        cases h3 : writeAt n.counts t v with
        | error e => rw [h3] at hn; cases hn
        | ok s =>
          rw [h3, ok_bind, pure_eq_ok] at hn
          cases hn
          obtain ⟨w1, w2, w3⟩ := write_agree hag.counts ho.1 h3
          rw [w1, ok_bind]
          exact ⟨_, rfl, ⟨hag.scores, hag.rows, w2⟩, fun R' P' C' _ _ hC => ⟨fun _ _ => rfl, fun _ _ => rfl, fun r' hr' => w3 r' (fun e => hC t ho.1 (e ▸ hr'))⟩⟩

/-- No step changes the size of an array. -/
theorem Action.exec_length {a : Action K} {m m' : Mem K} (h : a.exec m = .ok m') :
    m'.scores.length = m.scores.length ∧ m'.rows.length = m.rows.length ∧ m'.counts.length = m.counts.length := by
  have key : ∀ {α : Type} {a b : List α} {i : Nat} {v : α}, writeAt a i v = .ok b → b.length = a.length := by
    intro α a b i v h
    obtain ⟨_, rfl⟩ := writeAt_eq_ok h
    simp
  cases a with
  | rowStep r f =>
    simp only [exec] at h
    cases h1 : readAt m.scores r with
    | error e => rw [h1] at h; cases h
    | ok row =>
      rw [h1, ok_bind] at h
      cases h2 : f row with
      | error e => rw [h2] at h; cases h
      | ok row' =>
        rw [h2, ok_bind] at h
        cases h3 : writeAt m.scores r row' with
        | error e => rw [h3] at h; cases h
        | ok s =>
          rw [h3, ok_bind, pure_eq_ok] at h
          cases h
          exact ⟨key h3, rfl, rfl⟩
  | clear i =>
    simp only [exec] at h
    cases h3 : writeAt m.rows i [] with
    | error e => rw [h3] at h; cases h
    | ok s =>
      rw [h3, ok_bind, pure_eq_ok] at h
      cases h
      exact ⟨rfl, key h3, rfl⟩
  | apply r g i =>
    simp only [exec] at h
    cases h1 : readAt m.scores r with
    | error e => rw [h1] at h; cases h
    | ok s =>
      rw [h1, ok_bind] at h
      cases h2 : readAt m.rows i with
      | error e => rw [h2] at h; cases h
      | ok row =>
        rw [h2, ok_bind] at h
        cases h4 : g s row with
        | error e => rw [h4] at h; cases h
        | ok row' =>
          rw [h4, ok_bind] at h
          cases h3 : writeAt m.rows i row' with
          | error e => rw [h3] at h; cases h
          | ok s =>
            rw [h3, ok_bind, pure_eq_ok] at h
            cases h
            exact ⟨rfl, key h3, rfl⟩
  | count t i =>
    simp only [exec] at h
    cases h1 : readAt m.rows i with
    | error e => rw [h1] at h; cases h
    | ok s =>
      rw [h1, ok_bind] at h
      cases h2 : readAt m.counts t with
      | error e => rw [h2] at h; cases h
      | ok c =>
        rw [h2, ok_bind] at h
        generalize (c + s.length % 2 ^ 32) % 2 ^ 32 = v at h
        cases h3 : writeAt m.counts t v with
        | error e => rw [h3] at h; cases h
        | ok s =>
          rw [h3, ok_bind, pure_eq_ok] at h
          cases h
          exact ⟨rfl, rfl, key h3⟩

theorem execAll_length : ∀ {as : List (Action K)} {m m' : Mem K}, execAll as m = .ok m' →
    m'.scores.length = m.scores.length ∧ m'.rows.length = m.rows.length ∧ m'.counts.length = m.counts.length
  | [], m, m', h => by cases h; exact ⟨rfl, rfl, rfl⟩
  | a :: as, m, m', h => by
    unfold execAll at h
    rw [List.foldlM_cons] at h
    cases h1 : a.exec m with
    | error e => rw [h1] at h; cases h
    | ok m1 =>
      rw [h1, ok_bind] at h
      obtain ⟨a1, a2, a3⟩ := Action.exec_length h1
      obtain ⟨b1, b2, b3⟩ := execAll_length (as := as) h
      exact ⟨b1.trans a1, b2.trans a2, b3.trans a3⟩

theorem execAll_append (as bs : List (Action K)) (m : Mem K) : execAll (as ++ bs) m = execAll as m >>= execAll bs := by
  unfold execAll
  rw [List.foldlM_append]

/-! ### A single thread -/

/-- A sequence of modifications of a row. -/
theorem execAll_rowSteps (r : Nat) (fs : List (List K → Res (List K))) : ∀ (m : Mem K) (row res : List K),
    m.scores[r]? = some row → fs.foldlM (fun s f => f s) row = .ok res →
    execAll (fs.map (fun f => (.rowStep r f : Action K))) m = .ok { m with scores := m.scores.set r res } := by
  induction fs with
  | nil =>
    intro m row res h1 h2
    cases h2
    have : m.scores.set r row = m.scores := by
      obtain ⟨hlt, e⟩ := List.getElem?_eq_some_iff.1 h1
      rw [← e]; exact List.set_getElem_self hlt
    rw [this]; rfl
  | cons f fs ih =>
    intro m row res h1 h2
    rw [List.foldlM_cons] at h2
    cases hf : f row with
    | error e => rw [hf] at h2; cases h2
    | ok row' =>
      rw [hf, ok_bind] at h2
      obtain ⟨hlt, e⟩ := List.getElem?_eq_some_iff.1 h1
      have := ih { m with scores := m.scores.set r row' } row' res (by simp [hlt]) h2
      rw [List.map_cons]
      simp only [execAll, List.foldlM_cons, Action.exec]
      rw [readAt_of_getElem? h1, ok_bind, hf, ok_bind, writeAt_of_lt hlt, ok_bind, pure_eq_ok, ok_bind]
      refine (show _ = execAll _ _ from rfl).trans (this.trans ?_)
      simp

variable [Zero K]

/-- What has to hold before example `i` is processed by thread `t`. `n` is the number of outputs, `result` are the resulting scores, `labels` is the resulting row of the
prediction matrix. -/
structure Ready (d : Delegate) (steps : Nat → List (List K → Res (List K))) (transformation : List K → List Nat → Res (List Nat)) (n : Nat)
    (result : Nat → List K) (labels : Nat → List Nat) (t i : Nat) (m : Mem K) : Prop where
  scores : ∃ row, m.scores[d.row t i]? = some row ∧
    (d.scratch = true → row.length = n ∧ (steps i).foldlM (fun s f => f s) (List.replicate n 0) = .ok (result i) ∧ (result i).length = n) ∧
    (d.scratch = false → (steps i).foldlM (fun s f => f s) row = .ok (result i))
  rows : ∃ old, m.rows[i]? = some old ∧ (d.clear = false → transformation (result i) old = .ok (labels i))
  cleared : d.clear = true → transformation (result i) [] = .ok (labels i)

variable {d : Delegate} {steps : Nat → List (List K → Res (List K))} {transformation : List K → List Nat → Res (List Nat)} {n : Nat}
  {result : Nat → List K} {labels : Nat → List Nat} {t : Nat}

/-- A thread processes an example. -/
theorem execAll_task {i c : Nat} {m : Mem K} (h : Ready d steps transformation n result labels t i m) (hc : m.counts[t]? = some c) :
    execAll (predictForExample d steps transformation t i) m = .ok ⟨m.scores.set (d.row t i) (result i), m.rows.set i (labels i),
      if d.count then m.counts.set t ((c + (labels i).length % 2 ^ 32) % 2 ^ 32) else m.counts⟩ := by
  obtain ⟨⟨row, h1, h2, h3⟩, ⟨old, h4, h5⟩, h6⟩ := h
  obtain ⟨hlt, -⟩ := List.getElem?_eq_some_iff.1 h1
  obtain ⟨hi, -⟩ := List.getElem?_eq_some_iff.1 h4
  obtain ⟨ht, -⟩ := List.getElem?_eq_some_iff.1 hc
  -- the scores
  have s1 : execAll ((if d.scratch then [.rowStep t (fun row => .ok (row.map (fun _ => 0)))] else []) ++
      (steps i).map (fun f => (.rowStep (d.row t i) f : Action K))) m = .ok { m with scores := m.scores.set (d.row t i) (result i) } := by
    cases hs : d.scratch with
    | true =>
      obtain ⟨e1, e2, -⟩ := h2 hs
      have hr : d.row t i = t := by simp [Delegate.row, hs]
      rw [hr] at h1 hlt ⊢
      have hz : row.map (fun _ => (0 : K)) = List.replicate n 0 := by rw [← e1]; exact List.map_const'
      have := execAll_rowSteps t ((fun row => .ok (row.map (fun _ => 0))) :: steps i) m row (result i) h1 (by
        rw [List.foldlM_cons, ok_bind, hz]
        exact e2)
      rw [List.map_cons] at this
      rw [if_pos rfl, List.singleton_append]
      exact this
    | false =>
      rw [if_neg (by simp), List.nil_append]
      exact execAll_rowSteps _ (steps i) m row (result i) h1 (h3 hs)
  -- the old row
  obtain ⟨old', s2, g1, g2⟩ : ∃ old' : List Nat, execAll (if d.clear then [(.clear i : Action K)] else []) { m with scores := m.scores.set (d.row t i) (result i) } =
      .ok ⟨m.scores.set (d.row t i) (result i), m.rows.set i old', m.counts⟩ ∧ transformation (result i) old' = .ok (labels i) ∧ True := by
    cases hcl : d.clear with
    | true =>
      refine ⟨[], ?_, h6 hcl, trivial⟩
      rw [if_pos rfl]
      simp only [execAll, List.foldlM_cons, List.foldlM_nil, Action.exec]
      rw [writeAt_of_lt hi]
      rfl
    | false =>
      refine ⟨old, ?_, h5 hcl, trivial⟩
      rw [if_neg (by simp)]
      have : m.rows.set i old = m.rows := by
        obtain ⟨hlt, e⟩ := List.getElem?_eq_some_iff.1 h4
        rw [← e]; exact List.set_getElem_self hlt
      rw [this]
      rfl
  have s3 : execAll [(.apply (d.row t i) transformation i : Action K)] ⟨m.scores.set (d.row t i) (result i), m.rows.set i old', m.counts⟩ =
      .ok ⟨m.scores.set (d.row t i) (result i), m.rows.set i (labels i), m.counts⟩ := by
    simp only [execAll, List.foldlM_cons, List.foldlM_nil, Action.exec]
    rw [readAt_of_getElem? (by simp [hlt] : (m.scores.set (d.row t i) (result i))[d.row t i]? = some (result i)), ok_bind,
      readAt_of_getElem? (by simp [hi] : (m.rows.set i old')[i]? = some old'), ok_bind, g1, ok_bind, writeAt_of_lt (by simpa using hi)]
    simp [pure_eq_ok, ok_bind]
  have s4 : execAll (if d.count then [(.count t i : Action K)] else []) ⟨m.scores.set (d.row t i) (result i), m.rows.set i (labels i), m.counts⟩ =
      .ok ⟨m.scores.set (d.row t i) (result i), m.rows.set i (labels i), if d.count then m.counts.set t ((c + (labels i).length % 2 ^ 32) % 2 ^ 32) else m.counts⟩ := by
    cases hco : d.count with
    | true =>
      rw [if_pos rfl, if_pos rfl]
      simp only [execAll, List.foldlM_cons, List.foldlM_nil, Action.exec]
      rw [readAt_of_getElem? (by simp [hi] : (m.rows.set i (labels i))[i]? = some (labels i)), ok_bind, readAt_of_getElem? hc, ok_bind, writeAt_of_lt ht]
      rfl
    | false => rw [if_neg (by simp), if_neg (by simp)]; rfl
  unfold predictForExample
  rw [execAll_append, execAll_append, execAll_append, s1, ok_bind, s2, ok_bind, s3, ok_bind, s4]

/-- The total number of elements of some rows. -/
def total (labels : Nat → List Nat) (examples : List Nat) : Nat := (examples.map (fun i => (labels i).length)).sum

/-- A thread processes its examples. -/
theorem execAll_examples : ∀ (examples : List Nat) (m : Mem K) (c : Nat), examples.Nodup → c < 2 ^ 32 → m.counts[t]? = some c →
    (∀ i ∈ examples, Ready d steps transformation n result labels t i m) →
    ∃ m', execAll (examples.flatMap (predictForExample d steps transformation t)) m = .ok m' ∧
      (∀ i ∈ examples, m'.rows[i]? = some (labels i) ∧ (d.scratch = false → m'.scores[i]? = some (result i))) ∧
      (∀ i, i ∉ examples → m'.rows[i]? = m.rows[i]? ∧ (d.scratch = false → m'.scores[i]? = m.scores[i]?)) ∧
      m'.counts[t]? = some (if d.count then (c + total labels examples) % 2 ^ 32 else c) := by
  intro examples
  induction examples with
  | nil =>
    intro m c _ hlt hc _
    refine ⟨m, rfl, by simp, by simp, ?_⟩
    have h0 : total labels [] = 0 := rfl
    rw [hc, h0, Nat.add_zero, Nat.mod_eq_of_lt hlt, ite_self]
  | cons i examples ih =>
    intro m c hnd hlt hc h
    rw [List.nodup_cons] at hnd
    have hi := h i (by simp)
    have htask := execAll_task hi hc
    obtain ⟨⟨row, g1, g2, g3⟩, ⟨old, g4, g5⟩, g6⟩ := hi
    obtain ⟨hrow, -⟩ := List.getElem?_eq_some_iff.1 g1
    obtain ⟨hil, -⟩ := List.getElem?_eq_some_iff.1 g4
    obtain ⟨ht, -⟩ := List.getElem?_eq_some_iff.1 hc
    have hpos : (0 : Nat) < 2 ^ 32 := by decide
    obtain ⟨m', e1, e2, e3, e4⟩ := ih ⟨m.scores.set (d.row t i) (result i), m.rows.set i (labels i),
        if d.count then m.counts.set t ((c + (labels i).length % 2 ^ 32) % 2 ^ 32) else m.counts⟩
      (if d.count then (c + (labels i).length % 2 ^ 32) % 2 ^ 32 else c) hnd.2
      (by cases d.count with
        | true => exact Nat.mod_lt _ hpos
        | false => exact hlt)
      (by cases d.count with
        | true => simp [ht]
        | false => simpa using hc)
      (by
        intro j hj
        have hne : i ≠ j := fun e => hnd.1 (e ▸ hj)
        obtain ⟨⟨row', k1, k2, k3⟩, ⟨old', k4, k5⟩, k6⟩ := h j (List.mem_cons_of_mem _ hj)
        refine ⟨?_, ⟨old', by simpa [List.getElem?_set_ne hne] using k4, k5⟩, k6⟩
        cases hs : d.scratch with
        | true =>
          have hr : d.row t i = t := by simp [Delegate.row, hs]
          have hr' : d.row t j = t := by simp [Delegate.row, hs]
          rw [hr] at hrow
          obtain ⟨q1, q2, q3⟩ := k2 hs
          exact ⟨result i, by simp [hr, hr', hrow], fun _ => ⟨(g2 hs).2.2, q2, q3⟩, fun e => by cases e⟩
        | false =>
          have hr : d.row t i = i := by simp [Delegate.row, hs]
          have hr' : d.row t j = j := by simp [Delegate.row, hs]
          rw [hr'] at k1
          exact ⟨row', by simpa [hr, hr', List.getElem?_set_ne hne] using k1, (fun e => by cases e), fun _ => k3 hs⟩)
    refine ⟨m', ?_, ?_, ?_, ?_⟩
    · rw [List.flatMap_cons, execAll_append, htask, ok_bind, e1]
    · intro j hj
      by_cases hj' : j ∈ examples
      · exact e2 j hj'
      · have : j = i := by simpa [hj'] using hj
        subst this
        obtain ⟨a, b⟩ := e3 j hj'
        refine ⟨by rw [a]; simp [hil], fun hs => ?_⟩
        rw [b hs]
        have hr : d.row t j = j := by simp [Delegate.row, hs]
        rw [hr] at hrow ⊢
        simp [hrow]
    · intro j hj
      obtain ⟨a, b⟩ := e3 j (fun h => hj (List.mem_cons_of_mem _ h))
      have hne : i ≠ j := fun e => hj (by simp [e])
      refine ⟨by rw [a]; simp [List.getElem?_set_ne hne], fun hs => ?_⟩
      rw [b hs]
      have hr : d.row t i = i := by simp [Delegate.row, hs]
      rw [hr]
      simp [List.getElem?_set_ne hne]
    · rw [e4]
      cases d.count with
      | true =>
        simp only [if_true, total, List.map_cons, List.sum_cons]
        rw [Nat.add_mod_mod, Nat.mod_add_mod, Nat.add_assoc]
      | false => rfl

/-! ### All threads -/

/-- The parts of the memory used by a thread. -/
def ownRow (d : Delegate) (assignment : List (List Nat)) (t r : Nat) : Prop :=
  if d.scratch then r = t else ∃ e, assignment[t]? = some e ∧ r ∈ e

def ownPrediction (assignment : List (List Nat)) (t i : Nat) : Prop := ∃ e, assignment[t]? = some e ∧ i ∈ e

theorem task_owned {assignment : List (List Nat)} {e : List Nat} {i : Nat} (he : assignment[t]? = some e) (hi : i ∈ e) {a : Action K}
    (ha : a ∈ predictForExample d steps transformation t i) : a.Owned (ownRow d assignment t) (ownPrediction assignment t) (fun u => u = t) := by
  have hrow : ownRow d assignment t (d.row t i) := by
    unfold ownRow Delegate.row
    cases d.scratch with
    | true => rfl
    | false => exact ⟨e, he, hi⟩
  have hp : ownPrediction assignment t i := ⟨e, he, hi⟩
  unfold predictForExample at ha
  simp only [List.mem_append, List.mem_map, List.mem_singleton] at ha
  rcases ha with (((ha | ⟨f, _, rfl⟩) | ha) | rfl) | ha
  · cases hs : d.scratch with
    | true =>
      rw [hs, if_pos rfl, List.mem_singleton] at ha
      subst ha
      simp only [Delegate.row, hs, if_true] at hrow
      exact hrow
    | false => rw [hs, if_neg (by simp)] at ha; cases ha
  · exact hrow
  · cases hs : d.clear with
    | true =>
      rw [hs, if_pos rfl, List.mem_singleton] at ha
      subst ha
      exact hp
    | false => rw [hs, if_neg (by simp)] at ha; cases ha
  · exact ⟨hrow, hp⟩
  · cases hs : d.count with
    | true =>
      rw [hs, if_pos rfl, List.mem_singleton] at ha
      subst ha
      exact ⟨rfl, hp⟩
    | false => rw [hs, if_neg (by simp)] at ha; cases ha

/-- What each thread counts. -/
def share (labels : Nat → List Nat) (assignment : List (List Nat)) (t : Nat) : Nat := total labels ((assignment[t]?).getD [])

/-- The parallel region as a whole. -/
theorem region_ok {numExamples : Nat} {assignment : List (List Nat)} (hassign : assignment.flatten.Perm (List.range numExamples)) {m : Mem K}
    (hcounts : ∀ t < m.counts.length, m.counts[t]? = some 0) (hthreads : assignment.length ≤ m.counts.length)
    (hready : ∀ t e, assignment[t]? = some e → ∀ i ∈ e, Ready d steps transformation n result labels t i m)
    {trace : List (Nat × Action K)} (htrace : IsExecution (predictForExample d steps transformation) assignment trace) :
    ∃ m', execAll (trace.map Prod.snd) m = .ok m' ∧ m'.rows.length = m.rows.length ∧ m'.scores.length = m.scores.length ∧ m'.counts.length = m.counts.length ∧
      (∀ i < numExamples, m'.rows[i]? = some (labels i) ∧ (d.scratch = false → m'.scores[i]? = some (result i))) ∧
      ∀ t < m.counts.length, m'.counts[t]? = some (if d.count then share labels assignment t % 2 ^ 32 else 0) := by
  obtain ⟨hth, hpr⟩ := htrace
  have hnd : assignment.flatten.Nodup := hassign.symm.nodup List.nodup_range
  have hpos : (0 : Nat) < 2 ^ 32 := by decide
  have hal : ∀ t, ∃ m', execAll ((trace.filter (fun p => decide (p.1 = t))).map Prod.snd) m = .ok m' ∧
      (∀ e : List Nat, assignment[t]? = some e → ∀ i ∈ e, m'.rows[i]? = some (labels i) ∧ (d.scratch = false → m'.scores[i]? = some (result i))) ∧
      (t < m.counts.length → m'.counts[t]? = some (if d.count then share labels assignment t % 2 ^ 32 else 0)) := by
    intro t
    cases he : assignment[t]? with
    | none =>
      have : trace.filter (fun p => decide (p.1 = t)) = [] := by
        rw [List.filter_eq_nil_iff]
        intro p hp
        have h1 := hth p hp
        have h2 := List.getElem?_eq_none_iff.1 he
        simp only [decide_eq_true_eq]
        omega
      rw [this]
      refine ⟨m, rfl, by simp, fun h => ?_⟩
      rw [hcounts t h]
      simp [share, he, total]
    | some e =>
      have htlt : t < assignment.length := (List.getElem?_eq_some_iff.1 he).1
      obtain ⟨m', h1, h2, -, h4⟩ := execAll_examples (d := d) (steps := steps) (transformation := transformation) (n := n) (result := result) (labels := labels)
        (t := t) e m 0 ((List.nodup_flatten.1 hnd).1 e (List.mem_of_getElem? he)) hpos (hcounts t (by omega)) (hready t e he)
      refine ⟨m', by rw [hpr t e he, h1], ?_, fun _ => ?_⟩
      · intro e' he' i hi
        cases he'
        exact h2 i hi
      · rw [h4]
        simp [share, he]
  choose final hfin hfin2 hfin3 using hal
  obtain ⟨m', h1, h2⟩ := interleaved (exec := Action.exec) (A := fun t => Agree (ownRow d assignment t) (ownPrediction assignment t) (fun u => u = t))
    (fun t a b c h h' => h.trans h') final trace m (fun _ => m) (by
      intro p hp m n n' hag hn
      have hlt := hth p hp
      have hmem' : p.2 ∈ (trace.filter (fun q => decide (q.1 = p.1))).map Prod.snd := List.mem_map.2 ⟨p, List.mem_filter.2 ⟨hp, by simp⟩, rfl⟩
      rw [hpr p.1 _ (List.getElem?_eq_getElem hlt)] at hmem'
      obtain ⟨i, hi, ha⟩ := List.mem_flatMap.1 hmem'
      obtain ⟨m', k1, k2, k3⟩ := Action.exec_agree (task_owned (List.getElem?_eq_getElem hlt) hi ha) hag hn
      refine ⟨m', k1, k2, fun u hu => k3 _ _ _ ?_ ?_ ?_⟩
      · intro r hr hr'
        unfold ownRow at hr hr'
        cases hs : d.scratch with
        | true =>
          rw [hs, if_pos rfl] at hr hr'
          exact hu (hr'.symm.trans hr)
        | false =>
          rw [hs, if_neg (by simp)] at hr hr'
          obtain ⟨e, he, hie⟩ := hr
          obtain ⟨e', he', hie'⟩ := hr'
          exact assignment_disjoint hnd (Ne.symm hu) he he' hie hie'
      · rintro r ⟨e, he, hie⟩ ⟨e', he', hie'⟩
        exact assignment_disjoint hnd (Ne.symm hu) he he' hie hie'
      · rintro c rfl h
        exact hu h.symm)
    (fun t => Agree.refl m) hfin
  obtain ⟨l1, l2, l3⟩ := execAll_length (as := trace.map Prod.snd) h1
  refine ⟨m', h1, l2, l1, l3, ?_, ?_⟩
  · intro i hi
    have : i ∈ assignment.flatten := hassign.symm.subset (by simpa using hi)
    obtain ⟨e, he, hie⟩ := List.mem_flatten.1 this
    obtain ⟨t, ht⟩ := List.mem_iff_getElem?.1 he
    obtain ⟨q1, q2⟩ := hfin2 t e ht i hie
    refine ⟨by rw [(h2 t).rows i ⟨e, ht, hie⟩, q1], fun hs => ?_⟩
    rw [(h2 t).scores i (by unfold ownRow; rw [hs, if_neg (by simp)]; exact ⟨e, ht, hie⟩)]
    exact q2 hs
  · intro t ht
    rw [(h2 t).counts t rfl]
    exact hfin3 t ht

/-! ### The reduction -/

theorem reduce_eq (order : List Nat) : reduce order = order.sum % 2 ^ 32 := by
  unfold reduce
  have : ∀ (l : List Nat) (c : Nat), l.foldl (fun n c => (n + c) % 2 ^ 32) (c % 2 ^ 32) = (c + l.sum) % 2 ^ 32 := by
    intro l
    induction l with
    | nil => intro c; simp
    | cons x l ih =>
      intro c
      rw [List.foldl_cons, Nat.mod_add_mod, ih, List.sum_cons, Nat.add_assoc]
  have := this order 0
  rwa [Nat.zero_mod, Nat.zero_add] at this

theorem sum_mod (l : List Nat) (k : Nat) : (l.map (fun x => x % k)).sum % k = l.sum % k := by
  induction l with
  | nil => rfl
  | cons x l ih =>
    rw [List.map_cons, List.sum_cons, List.sum_cons, Nat.mod_add_mod, Nat.add_mod, ih, ← Nat.add_mod]

theorem total_perm (labels : Nat → List Nat) {a b : List Nat} (h : a.Perm b) : total labels a = total labels b := (h.map _).sum_eq

theorem total_flatten (labels : Nat → List Nat) : ∀ assignment : List (List Nat), total labels assignment.flatten = (assignment.map (total labels)).sum
  | [] => rfl
  | e :: assignment => by
    rw [List.flatten_cons, List.map_cons, List.sum_cons, ← total_flatten labels assignment]
    unfold total
    rw [List.map_append, List.sum_append]

/-- The sum over all threads. -/
theorem share_sum (labels : Nat → List Nat) (assignment : List (List Nat)) {k : Nat} (hk : assignment.length ≤ k) :
    ((List.range k).map (share labels assignment)).sum = total labels assignment.flatten := by
  rw [total_flatten]
  obtain ⟨j, rfl⟩ := Nat.exists_eq_add_of_le hk
  clear hk
  induction j with
  | zero =>
    congr 1
    apply List.ext_getElem
    · simp
    · intro i h1 h2
      simp only [List.length_map, List.length_range, Nat.add_zero] at h1
      simp [share, h1]
  | succ j ih =>
    rw [← Nat.add_assoc, List.range_succ, List.map_append, List.sum_append, ih]
    simp [share, total]

/-! ### The matrix in the CSR format -/

theorem copyElements {N : Nat} (hN : N < 2 ^ 32) : ∀ (row data : List Nat) (p : List (Option Nat)), data.length + row.length ≤ N →
    row.foldlM copyElement (⟨buf data N, p⟩, data.length) = .ok (⟨buf (data ++ row) N, p⟩, (data ++ row).length)
  | [], data, p, _ => by simp [pure_eq_ok]
  | x :: row, data, p, h => by
    rw [List.length_cons] at h
    rw [List.foldlM_cons]
    unfold copyElement
    simp only
    rw [push_ok (by omega) rfl, ok_bind, pure_eq_ok, ok_bind, Nat.mod_eq_of_lt (by omega)]
    have := copyElements hN row (data ++ [x]) p (by simp; omega)
    rw [List.length_append, List.length_singleton, List.append_assoc, List.singleton_append] at this
    exact this

theorem copyElements_fault {N : Nat} (hN : N < 2 ^ 32) : ∀ (row data : List Nat) (p : List (Option Nat)), data.length ≤ N → N < data.length + row.length →
    row.foldlM copyElement (⟨buf data N, p⟩, data.length) = .error .outOfBounds
  | [], data, p, h, h' => by simp at h'; omega
  | x :: row, data, p, h, h' => by
    rw [List.length_cons] at h'
    rw [List.foldlM_cons]
    unfold copyElement
    simp only
    by_cases e : data.length = N
    · rw [writeAt_of_le (by rw [buf_length h]; omega)]
      rfl
    · rw [push_ok (by omega) rfl, ok_bind, pure_eq_ok, ok_bind, Nat.mod_eq_of_lt (by omega)]
      have := copyElements_fault hN row (data ++ [x]) p (by simp; omega) (by simp; omega)
      rw [List.length_append, List.length_singleton] at this
      exact this

theorem allocate_ok {N n : Nat} (h : n + 1 < 2 ^ 32) : ∃ p, Csr.allocate N n = .ok ⟨buf [] N, p⟩ ∧ p.length = n + 1 ∧ p[n]? = some (some N) := by
  unfold Csr.allocate
  rw [Nat.mod_eq_of_lt h, writeAt_of_lt (by simp), ok_bind, writeAt_of_lt (by simp), ok_bind, buf_nil]
  exact ⟨_, rfl, by simp, by simp⟩

theorem take_succ_flatten {rows : List (List Nat)} {i : Nat} (h : i < rows.length) : (rows.take (i + 1)).flatten = (rows.take i).flatten ++ rows[i] := by
  rw [List.take_add_one, List.getElem?_eq_getElem h, List.flatten_append]
  simp

theorem flatten_take_le (rows : List (List Nat)) (i : Nat) : (rows.take i).flatten.length ≤ rows.flatten.length := by
  conv_rhs => rw [← List.take_append_drop i rows]
  rw [List.flatten_append, List.length_append]
  omega

theorem create_ok {rows : List (List Nat)} (h1 : rows.length + 1 < 2 ^ 32) (h2 : rows.flatten.length < 2 ^ 32) :
    ∃ c, createBinarySparsePredictionMatrix rows rows.flatten.length = .ok c ∧ Represents c rows := by
  obtain ⟨p, a1, a2, a3⟩ := allocate_ok (N := rows.flatten.length) h1
  unfold createBinarySparsePredictionMatrix
  rw [a1, ok_bind]
  obtain ⟨s, g1, g2, g3, g4, g5, -⟩ := foldlM_rule (f := copyRow rows) (fun q (s : Csr × Nat) => s.1.indices = buf (rows.take q.length).flatten rows.flatten.length ∧
      s.1.indptr.length = rows.length + 1 ∧ s.1.indptr[rows.length]? = some (some rows.flatten.length) ∧
      (∀ j < q.length, s.1.indptr[j]? = some (some (rows.take j).flatten.length)) ∧ s.2 = (rows.take q.length).flatten.length)
    (List.range rows.length) [] (⟨buf [] rows.flatten.length, p⟩, 0) ⟨by simp, a2, a3, by simp, by simp⟩ (by
      rintro q i q' ⟨⟨ind, ptr⟩, k⟩ hq ⟨b1, b2, b3, b4, b5⟩
      rw [List.nil_append] at hq
      obtain ⟨rfl, hlt⟩ := OutputStrata.range_prefix hq
      dsimp only at b1 b2 b3 b4 b5
      subst b1 b5
      unfold copyRow
      simp only
      rw [writeAt_of_lt (by omega), ok_bind, readAt_of_lt hlt, ok_bind]
      have hle := flatten_take_le rows (q.length + 1)
      rw [take_succ_flatten hlt, List.length_append] at hle
      rw [copyElements h2 _ _ _ hle, ← take_succ_flatten hlt]
      refine ⟨_, rfl, by simp, by simpa using b2, ?_, ?_, by simp⟩
      · simp only
        rw [List.getElem?_set_ne (by omega), b3]
      · intro j hj
        simp only
        by_cases e : q.length = j
        · subst e
          rw [List.getElem?_set_self (by omega)]
        · rw [List.getElem?_set_ne e, b4 j (by simp at hj; omega)])
  rw [g1, ok_bind]
  rw [List.nil_append, List.length_range] at g2 g5
  refine ⟨s.1, rfl, ?_, g3, ?_⟩
  · rw [g2, List.take_length, OutputStrata.buf_full]
  · intro i hi
    rw [← List.length_flatten]
    by_cases e : i = rows.length
    · subst e
      rw [g4, List.take_length]
    · exact g5 i (by omega)

/-- If there are more elements than memory has been allocated for, an element is written beyond the end of the array. -/
theorem create_fault {rows : List (List Nat)} {N : Nat} (h1 : rows.length + 1 < 2 ^ 32) (h2 : N < rows.flatten.length) (h3 : N < 2 ^ 32) :
    createBinarySparsePredictionMatrix rows N = .error .outOfBounds := by
  obtain ⟨p, a1, a2, -⟩ := allocate_ok (N := N) h1
  unfold createBinarySparsePredictionMatrix
  rw [a1, ok_bind]
  have key : ∀ (k i : Nat) (p : List (Option Nat)), i + k = rows.length → p.length = rows.length + 1 → (rows.take i).flatten.length ≤ N →
      (List.range' i k).foldlM (copyRow rows) (⟨buf (rows.take i).flatten N, p⟩, (rows.take i).flatten.length) = .error .outOfBounds := by
    intro k
    induction k with
    | zero =>
      intro i p hi _ hle
      rw [Nat.add_zero] at hi
      rw [hi, List.take_length] at hle
      omega
    | succ k ih =>
      intro i p hi hp hle
      have hlt : i < rows.length := by omega
      rw [List.range'_succ, List.foldlM_cons]
      unfold copyRow
      simp only
      rw [writeAt_of_lt (by omega), ok_bind, readAt_of_lt hlt, ok_bind]
      by_cases h : (rows.take i).flatten.length + rows[i].length ≤ N
      · rw [copyElements h3 _ _ _ h, ok_bind, ← take_succ_flatten hlt]
        exact ih (i + 1) _ (by omega) (by simpa using hp) (by rw [take_succ_flatten hlt, List.length_append]; exact h)
      · rw [copyElements_fault h3 _ _ _ hle (by omega)]
        rfl
  have := key rows.length 0 p (by omega) a2 (by simp)
  rw [List.take_zero, List.flatten_nil, List.length_nil, ← List.range_eq_range'] at this
  rw [this]
  rfl

/-- Rows of a matrix in the CSR format. -/
theorem Represents.row {c : Csr} {rows : List (List Nat)} (h : Represents c rows) {i : Nat} (hi : i < rows.length) : c.row i = .ok rows[i] := by
  obtain ⟨h1, h2, h3⟩ := h
  have hp : c.indptr = (offsets rows ++ [rows.flatten.length]).map some := by
    apply List.ext_getElem?
    intro j
    by_cases hj : j ≤ rows.length
    · rw [h3 j hj, ← List.length_flatten, List.getElem?_map]
      by_cases h : j < rows.length
      · rw [List.getElem?_append_left (by rw [offsets_length]; exact h)]
        unfold offsets
        rw [List.getElem?_map, List.getElem?_range h]
        rfl
      · obtain rfl : j = rows.length := by omega
        rw [List.getElem?_append_right (Nat.le_of_eq (offsets_length rows)), offsets_length]
        simp
    · rw [List.getElem?_eq_none (by omega), List.getElem?_eq_none (by simp [offsets_length]; omega)]
  exact concat_column hi hp h1

/-! ### The parallel region and the reduction -/

theorem total_eq_flatten (labels : Nat → List Nat) (l : List Nat) : (l.map labels).flatten.length = total labels l := by
  rw [List.length_flatten, List.map_map]
  rfl

/-- The parallel region yields the rows and their total number of elements (modulo the range of 32 bit integers). -/
theorem region_sparse {numExamples : Nat} {assignment : List (List Nat)} (hassign : assignment.flatten.Perm (List.range numExamples)) {m : Mem K} {numThreads : Nat}
    (hcount : d.count = true) (hcounts : m.counts = List.replicate numThreads 0) (hthreads : assignment.length ≤ numThreads) (hrows : m.rows.length = numExamples)
    (hready : ∀ t e, assignment[t]? = some e → ∀ i ∈ e, Ready d steps transformation n result labels t i m)
    {trace : List (Nat × Action K)} (htrace : IsExecution (predictForExample d steps transformation) assignment trace)
    {reduction : List Nat → List Nat} (hred : ∀ l, (reduction l).Perm l) :
    ∃ m', execAll (trace.map Prod.snd) m = .ok m' ∧ m'.rows = (List.range numExamples).map labels ∧ m'.scores.length = m.scores.length ∧
      (∀ i < numExamples, d.scratch = false → m'.scores[i]? = some (result i)) ∧
      reduce (reduction m'.counts) = total labels (List.range numExamples) % 2 ^ 32 := by
  have hl : m.counts.length = numThreads := by rw [hcounts]; simp
  obtain ⟨m', g1, g2, g3, g4, g5, g6⟩ := region_ok hassign (m := m) (by
      intro t ht
      rw [hl] at ht
      rw [hcounts]
      simp [ht]) (by omega) hready htrace
  refine ⟨m', g1, ?_, g3, fun i hi hs => (g5 i hi).2 hs, ?_⟩
  · apply List.ext_getElem?
    intro i
    by_cases hi : i < numExamples
    · rw [(g5 i hi).1]
      simp [hi]
    · rw [List.getElem?_eq_none (by omega), List.getElem?_eq_none (by simp; omega)]
  · have hc : m'.counts = ((List.range numThreads).map (share labels assignment)).map (fun x => x % 2 ^ 32) := by
      apply List.ext_getElem?
      intro t
      by_cases ht : t < numThreads
      · rw [g6 t (by omega), hcount]
        simp [ht]
      · rw [List.getElem?_eq_none (by omega), List.getElem?_eq_none (by simp; omega)]
    rw [reduce_eq, (hred m'.counts).sum_eq, hc, sum_mod, share_sum labels assignment hthreads, total_perm labels hassign]

end MLRL.SparsePrediction
