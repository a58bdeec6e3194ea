import Verif.Lemma.BeamSearch
import Verif.Props.Induction

/-!
# C67: induction of rules via a beam search
-/

namespace MLRL.Beam

open Refinement Induction Predictor

section
variable {σ Cond H Q : Type} {ops : SubspaceOps σ Cond} {better : Q → Q → Bool} {cfg : BeamConfig} {search : BeamSearch σ Cond H Q}
  {sorts : Sorts σ Cond H Q}

/-- **C67.** Refining a beam exhibits no undefined behaviour. Each entry of the new beam still represents a sequence of refinements, there are not fewer entries
than before and at most as many as allowed. Whatever property holds of the quality of all entries and of all better qualities, still holds. If no entry has been
refined, no entry has changed and, for none of them, there is a refinement that is better than the last entry. -/
theorem refine_spec (hb : StrictWeak better) (hs : sorts.Spec better) (hv : search.Valid) (hw : 1 ≤ cfg.width) {P : Q → Prop}
    (hsucc : Succeeds ops cfg.toGrowConfig search P) {d : Nat} (hmax : cfg.maxConditions ≠ 0 → d < cfg.maxConditions) (hP : Upward better P) {order : List (Entry σ Cond H Q)}
    (h : BeamOk ops cfg search P d order) :
    ∃ order' found worst, refine ops better sorts cfg search d (decide (0 < cfg.maxHeadRefinements ∧ cfg.maxHeadRefinements ≤ d + 1)) order = .ok (order', found) ∧
      BeamOk ops cfg search P (d + 1) order' ∧ order.length ≤ order'.length ∧ order.getLast? = some worst ∧
      (found = true → ∃ e ∈ order, e.refinement.outputs ≠ .null) ∧
      (found = false → order' = order.map frozenEntry ∧
        ∀ (i : Nat) (e : Entry σ Cond H Q), order[i]? = some e → NoCandidate better search d worst.quality i e) := by
  cases hworst : order.getLast? with
  | none => exact absurd (List.getLast?_eq_none_iff.1 hworst) h.nonempty
  | some worst =>
    obtain ⟨s, h1, h2⟩ := refine_ok hb hs hv hw hsucc hmax hP h hworst
    refine ⟨s.order, s.result, worst, h1, ⟨?_, h2.inv.length, h2.inv.entries⟩, h2.grows, rfl, h2.found, fun hr => ⟨h2.notFound hr, (h2.exhausted hr).2⟩⟩
    intro hn
    have := h2.grows
    rw [hn] at this
    exact h.nonempty (List.length_eq_zero_iff.1 (by simpa using this))

/-- **C67.** The entries of the new beam are not worse than the worst one of the old beam. -/
theorem refine_not_worse (hb : StrictWeak better) (hs : sorts.Spec better) (hv : search.Valid) (hw : 1 ≤ cfg.width)
    {q : Q} (hsucc : Succeeds ops cfg.toGrowConfig search (fun a => better q a = false)) {d : Nat} (hmax : cfg.maxConditions ≠ 0 → d < cfg.maxConditions)
    {order : List (Entry σ Cond H Q)}
    (h : BeamOk ops cfg search (fun a => better q a = false) d order) :
    ∃ order' found, refine ops better sorts cfg search d (decide (0 < cfg.maxHeadRefinements ∧ cfg.maxHeadRefinements ≤ d + 1)) order = .ok (order', found) ∧
      ∀ e ∈ order', better q e.quality = false := by
  have hP : Upward better (fun a => better q a = false) := by
    intro a b ha hba
    cases hqb : better q b with
    | false => rfl
    | true => rw [hb.trans _ _ _ hqb hba] at ha; cases ha
  obtain ⟨order', found, worst, h1, h2, _⟩ := refine_spec hb hs hv hw hsucc hmax hP h
  exact ⟨order', found, h1, fun e he => (h2.entries e he).2⟩

/-- **C67 (partial).** If there are more entries than allowed, the entries of the new beam are sorted. In particular, the first one is the best one. Otherwise, each
entry is replaced by its refinements or is retained if there are none (missing is that the entries are sorted in this case, see `beam_not_sorted`, and that the
best ones are kept in the first case, see `beam_loses_best`). -/
theorem refine_order_partial (hb : StrictWeak better) (hs : sorts.Spec better) (hv : search.Valid) (hw : 1 ≤ cfg.width)
    (hsucc : Succeeds ops cfg.toGrowConfig search (fun _ => True)) {d : Nat} (hmax : cfg.maxConditions ≠ 0 → d < cfg.maxConditions) {order : List (Entry σ Cond H Q)}
    (h : BeamOk ops cfg search (fun _ => True) d order) {worst : Entry σ Cond H Q} (hworst : order.getLast? = some worst) :
    ∃ order' found, refine ops better sorts cfg search d (decide (0 < cfg.maxHeadRefinements ∧ cfg.maxHeadRefinements ≤ d + 1)) order = .ok (order', found) ∧
      ((order'.length = cfg.width ∧ Sorted better order') ∨
        ∃ groups, List.Forall₂ (Group ops better worst.quality) order groups ∧ order' = groups.flatten) := by
  obtain ⟨s, h1, h2⟩ := refine_ok hb hs hv hw hsucc hmax (fun _ _ _ _ => trivial) h hworst
  refine ⟨s.order, s.result, h1, ?_⟩
  rcases h2.order with h3 | ⟨groups, h3, h4, _⟩
  · exact Or.inl h3
  · exact Or.inr ⟨groups, h3, h4⟩

/-! ### Growing a rule -/

theorem mapM_initial {keep : Bool} {s : σ} (R : Entry σ Cond H Q → Prop) (xs : List (Scored (Found Cond H) Q))
    (h : ∀ x ∈ xs, ∃ e, initializeEntry ops s keep x = .ok e ∧ R e) :
    ∃ es, xs.mapM (initializeEntry ops s keep) = .ok es ∧ es.length = xs.length ∧ ∀ e ∈ es, R e := by
  induction xs with
  | nil => exact ⟨[], rfl, rfl, by simp⟩
  | cons x xs ih =>
    obtain ⟨e, e1, e2⟩ := h x List.mem_cons_self
    obtain ⟨es, h1, h2, h3⟩ := ih (fun y hy => h y (List.mem_cons_of_mem _ hy))
    refine ⟨e :: es, by rw [List.mapM_cons, e1, ok_bind, h1, ok_bind]; rfl, by simp [h2], ?_⟩
    intro c hc
    rcases List.mem_cons.1 hc with rfl | hc
    · exact e2
    · exact h3 c hc

/-- The initial beam. -/
theorem newBeam_ok {P : Q → Prop} (hsucc : Succeeds ops cfg.toGrowConfig search P) {candidates : List (List (Scored (Found Cond H) Q))}
    (hc : search.candidates 0 0 ops.create none = .ok candidates) {xs : List (Scored (Found Cond H) Q)} (hne : xs ≠ []) (hlen : xs.length ≤ cfg.width)
    (hx : ∀ x ∈ xs, x ∈ candidates.flatten ∧ P x.quality) :
    ∃ order, newBeam ops ops.create (decide (cfg.maxHeadRefinements = 1)) xs = .ok order ∧ BeamOk ops cfg search P 1 order := by
  have hinit : ∀ x ∈ xs, ∀ s0, OrCopy ops ops.create s0 → ∃ e, initializeEntry ops s0 (decide (cfg.maxHeadRefinements = 1)) x = .ok e ∧
      EntryOk.Some ops cfg search P 1 e ∧ P e.quality := by
      intro x hxm s0 h0
      obtain ⟨x1, x2⟩ := hx x hxm
      obtain ⟨candidates', c1, c2⟩ := hsucc [] ops.create none Path.start 0
      rw [List.length_nil, hc] at c1
      cases c1
      obtain ⟨s', hs'⟩ := c2 x x1 x2 s0 h0
      refine ⟨_, by unfold initializeEntry; rw [hs', ok_bind]; rfl, ⟨[x], s', _,
        Path.step (chosen := []) Path.start (by simp only [List.length_nil]; omega) (by simp) hc x1 x2 h0 hs', ⟨rfl, rfl, x, rfl, rfl, rfl⟩, by simp, ?_⟩, x2⟩
      intro _
      refine ⟨rfl, ?_, by simp⟩
      unfold outputsOf
      simp only [List.length_nil]
      by_cases h1 : cfg.maxHeadRefinements = 1
      · simp [h1]
      · simp only [decide_eq_true_eq, h1, if_false]
        have h2 : ¬ (0 < cfg.maxHeadRefinements ∧ cfg.maxHeadRefinements ≤ 0 + 1) := by omega
        simp [h2]
        try omega
  obtain ⟨init, last, rfl⟩ : ∃ init last, xs = init ++ [last] := ⟨xs.dropLast, xs.getLast hne, (List.dropLast_append_getLast hne).symm⟩
  obtain ⟨es, h1, h2, h3⟩ := mapM_initial (ops := ops) (keep := decide (cfg.maxHeadRefinements = 1)) (s := ops.copy ops.create)
    (fun e => EntryOk.Some ops cfg search P 1 e ∧ P e.quality) init (fun x hxi => hinit x (by simp [hxi]) _ (Or.inr rfl))
  obtain ⟨e, e1, e2⟩ := hinit last (by simp) _ (Or.inl rfl)
  refine ⟨es ++ [e], ?_, ⟨by simp, ?_, ?_⟩⟩
  · unfold newBeam
    rw [List.getLast?_concat]
    simp only [List.dropLast_concat]
    rw [h1, ok_bind, e1, ok_bind]
    rfl
  · simp only [List.length_append, List.length_singleton] at hlen ⊢
    omega
  · intro c hc
    rcases List.mem_append.1 hc with hc | hc
    · exact h3 c hc
    · rw [List.mem_singleton] at hc
      rw [hc]
      exact e2

/-- The reasons for not refining a beam any further: there are enough conditions, or no entry can be refined. In the latter case, the entries are the same as in
the previous beam, and there is no candidate that is better than its last entry. -/
def Ended (better : Q → Q → Bool) (cfg : BeamConfig) (search : BeamSearch σ Cond H Q) (d : Nat) (order : List (Entry σ Cond H Q)) : Prop :=
  (cfg.maxConditions ≠ 0 ∧ d = cfg.maxConditions) ∨
    ∃ (previous : List (Entry σ Cond H Q)) (worst : Entry σ Cond H Q), order = previous.map frozenEntry ∧ previous.getLast? = some worst ∧
      ∀ (i : Nat) (e : Entry σ Cond H Q), previous[i]? = some e → NoCandidate better search (d - 1) worst.quality i e

theorem beamLoop_ok (hb : StrictWeak better) (hs : sorts.Spec better) (hv : search.Valid) (hw : 1 ≤ cfg.width) {P : Q → Prop}
    (hsucc : Succeeds ops cfg.toGrowConfig search P) (hP : Upward better P) (fuel : Nat) : ∀ (d : Nat) (found : Bool) (order order' : List (Entry σ Cond H Q)), BeamOk ops cfg search P d order →
    (cfg.maxConditions ≠ 0 → d ≤ cfg.maxConditions) → (found = false → Ended better cfg search d order) →
    beamLoop ops better sorts cfg search fuel d found order = Run.done order' →
    ∃ d', BeamOk ops cfg search P d' order' ∧ (cfg.maxConditions ≠ 0 → d' ≤ cfg.maxConditions) ∧ Ended better cfg search d' order' := by
  induction fuel with
  | zero => intro d found order order' _ _ _ h; cases h
  | succ fuel ih =>
    intro d found order order' hok hmax hend h
    simp only [beamLoop] at h
    by_cases hcond : found = true ∧ (cfg.maxConditions = 0 ∨ d < cfg.maxConditions)
    · rw [if_pos hcond] at h
      obtain ⟨order1, found1, worst, h1, h2, _, h4, _, h5⟩ := refine_spec hb hs hv hw hsucc (fun hne => by omega) hP hok
      rw [h1, Run.lift_ok, Run.done_bind] at h
      refine ih (d + 1) found1 order1 order' h2 (fun hne => by omega) ?_ h
      intro hf
      obtain ⟨g1, g2⟩ := h5 hf
      exact Or.inr ⟨order, worst, g1, h4, g2⟩
    · rw [if_neg hcond] at h
      cases Run.done_inj h
      refine ⟨d, hok, hmax, ?_⟩
      cases found with
      | false => exact hend rfl
      | true =>
        by_cases hz : cfg.maxConditions = 0
        · exact absurd ⟨rfl, Or.inl hz⟩ hcond
        · have h1 := hmax hz
          have h2 : ¬ d < cfg.maxConditions := fun hlt => hcond ⟨rfl, Or.inr hlt⟩
          exact Or.inl ⟨hz, by omega⟩

/-- **C67.** If a rule is found via a beam search, its conditions are those of a sequence of refinements, its head is the one of the last refinement, and its
subspace results from filtering by all of its conditions. The rule is better than the minimum quality. If no rule is found, there is no candidate that is better
than the minimum quality. -/
theorem growRule_path (hb : StrictWeak better) (hs : sorts.Spec better) (hv : search.Valid) (hw : 1 ≤ cfg.width) {minQuality : Q}
    (hsucc : Succeeds ops cfg.toGrowConfig search (fun q => better q minQuality = true)) {fuel : Nat} {g : Grown σ Cond H} (hg : growRule ops better sorts cfg search minQuality fuel = Run.done g) :
    (g = ⟨[], ops.create, none⟩ ∧ ∃ candidates, search.candidates 0 0 ops.create none = .ok candidates ∧
      ∀ x ∈ candidates.flatten, better x.quality minQuality = false) ∨
    ∃ chosen s outputs last, Path ops cfg.toGrowConfig search (fun q => better q minQuality = true) chosen s outputs ∧ chosen.getLast? = some last ∧
      g = ⟨chosen.map (fun x => x.refinement.condition), s, some last.refinement.head⟩ ∧ better last.quality minQuality = true := by
  obtain ⟨candidates, c1, c2⟩ := hsucc [] ops.create none Path.start 0
  rw [List.length_nil] at c1
  obtain ⟨c, f, f1, f2, f3, f4, f5⟩ := fixed_find_partial hb hs.refinements hw minQuality candidates (search.schedule 0 0 candidates) (hv 0 0 candidates)
  have hff := find_found hw f1
  unfold growRule at hg
  rw [c1, Run.lift_ok, Run.done_bind, f1, Run.lift_ok, Run.done_bind] at hg
  simp only at hg
  cases f with
  | false =>
    left
    cases Run.done_inj hg
    refine ⟨rfl, candidates, c1, ?_⟩
    intro x hx
    cases hbx : better x.quality minQuality with
    | false => rfl
    | true =>
      obtain ⟨y, hy, _⟩ := f5 x hx hbx
      have hne : c.order ≠ [] := by
        intro hn
        rw [hn] at hy
        cases hy
      cases hff.2 hne
  | true =>
    right
    obtain ⟨order, o1, o2⟩ := newBeam_ok (P := fun q => better q minQuality = true) hsucc c1 (hff.1 rfl) f3 f4
    simp only at hg
    rw [o1, Run.lift_ok, Run.done_bind] at hg
    obtain ⟨order', l1, hg⟩ := run_bind_done hg
    obtain ⟨d', b1, _, _⟩ := beamLoop_ok hb hs hv hw hsucc (fun a b ha hba => hb.trans _ _ _ hba ha) fuel 1 true order order' o2 (by omega) (by simp) l1
    cases order' with
    | nil => exact absurd rfl b1.nonempty
    | cons e l =>
      simp only at hg
      cases Run.done_inj hg
      obtain ⟨⟨chosen, s, outputs, he⟩, hq⟩ := b1.entries e List.mem_cons_self
      obtain ⟨y, y1, y2, y3⟩ := he.represents.last
      refine ⟨chosen, s, outputs, y, he.path, y1, ?_, by rw [← y3]; exact hq⟩
      rw [he.represents.conditions, he.represents.subspace, y2]

/-- **C67.** There are at most as many conditions as allowed, and all but the first and the last refinement cover more than the minimum number of examples. -/
theorem path_limits {P : Q → Prop} {chosen : List (Scored (Found Cond H) Q)} {s : σ} {outputs : Option H} (h : Path ops cfg.toGrowConfig search P chosen s outputs) :
    (cfg.maxConditions ≠ 0 → chosen.length ≤ cfg.maxConditions) ∧ ∀ x ∈ chosen.tail.dropLast, cfg.minCoverage < x.refinement.numCovered := by
  induction h with
  | start => simp
  | @step chosen s outputs position candidates x s0 s' _ hlim hmin _ _ _ _ _ ih =>
    refine ⟨fun hne => by have := hlim hne; simp only [List.length_append, List.length_cons, List.length_nil]; omega, ?_⟩
    cases chosen with
    | nil => simp
    | cons a l =>
      simp only [List.cons_append, List.tail_cons, List.dropLast_concat]
      intro y hy
      rcases List.eq_nil_or_concat l with rfl | ⟨l', z, rfl⟩
      · cases hy
      · rw [List.concat_eq_append] at *
        rcases List.mem_append.1 hy with hy | hy
        · exact ih.2 y (by simp [hy])
        · rw [List.mem_singleton] at hy
          subst hy
          exact hmin y (by simp) (by rw [← List.cons_append, List.getLast?_concat])

/-- **C67.** Whatever holds of all candidates holds of all refinements of a rule. -/
theorem path_candidates {P : Q → Prop} {chosen : List (Scored (Found Cond H) Q)} {s : σ} {outputs : Option H} (h : Path ops cfg.toGrowConfig search P chosen s outputs)
    (A : Scored (Found Cond H) Q → Prop)
    (hA : ∀ n p s o candidates, search.candidates n p s o = .ok candidates → ∀ x ∈ candidates.flatten, P x.quality → A x) : ∀ x ∈ chosen, A x := by
  induction h with
  | start => simp
  | step _ _ _ hc hx hxP _ _ ih =>
    intro y hy
    rcases List.mem_append.1 hy with hy | hy
    · exact ih y hy
    · rw [List.mem_singleton] at hy
      subst hy
      exact hA _ _ _ _ _ hc _ hx hxP

/-! ### Termination -/

/-- A bound on the number of conditions. -/
def Bound (ops : SubspaceOps σ Cond) (cfg : BeamConfig) (search : BeamSearch σ Cond H Q) (P : Q → Prop) (n : Nat) : Prop :=
  (cfg.maxConditions ≠ 0 ∧ cfg.maxConditions ≤ n) ∨ ∀ chosen s outputs, Path ops cfg.toGrowConfig search P chosen s outputs → chosen.length < n

theorem beamLoop_terminates (hb : StrictWeak better) (hs : sorts.Spec better) (hv : search.Valid) (hw : 1 ≤ cfg.width)
    {P : Q → Prop} (hP : Upward better P) (hsucc : Succeeds ops cfg.toGrowConfig search P) {n : Nat} (hn : Bound ops cfg search P n) (fuel : Nat) : ∀ (d : Nat) (found : Bool)
    (order : List (Entry σ Cond H Q)), BeamOk ops cfg search P d order → n ≤ d + fuel →
    ∃ order', beamLoop ops better sorts cfg search (fuel + 2) d found order = Run.done order' := by
  have hrefine : ∀ (d : Nat) (found : Bool) (order : List (Entry σ Cond H Q)) (k : Nat), BeamOk ops cfg search P d order →
      (∀ order1 found1, BeamOk ops cfg search P (d + 1) order1 → (found1 = true → ∃ e ∈ order, e.refinement.outputs ≠ .null) →
        (cfg.maxConditions = 0 ∨ d < cfg.maxConditions) → ∃ order', beamLoop ops better sorts cfg search k (d + 1) found1 order1 = Run.done order') →
      ∃ order', beamLoop ops better sorts cfg search (k + 1) d found order = Run.done order' := by
    intro d found order k hok hnext
    simp only [beamLoop]
    by_cases hcond : found = true ∧ (cfg.maxConditions = 0 ∨ d < cfg.maxConditions)
    · rw [if_pos hcond]
      obtain ⟨order1, found1, worst, h1, h2, _, _, h4, _⟩ := refine_spec hb hs hv hw hsucc (d := d) (fun hne => by omega) hP hok
      rw [h1, Run.lift_ok, Run.done_bind]
      exact hnext order1 found1 h2 h4 hcond.2
    · rw [if_neg hcond]
      exact ⟨order, rfl⟩
  induction fuel with
  | zero =>
    intro d found order hok hd
    refine hrefine d found order 1 hok (fun order1 found1 hok1 hfound hlt => ?_)
    have hfalse : found1 = false := by
      cases found1 with
      | false => rfl
      | true =>
        obtain ⟨e, he, hact⟩ := hfound rfl
        rcases hn with ⟨hn1, hn2⟩ | hn
        · omega
        · obtain ⟨⟨chosen, s, outputs, hok'⟩, _⟩ := hok.entries e he
          have h1 := hn chosen s outputs hok'.path
          have h2 := (hok'.active hact).1
          omega
    subst hfalse
    exact ⟨order1, by simp only [beamLoop]; rw [if_neg (by simp)]⟩
  | succ fuel ih =>
    intro d found order hok hd
    exact hrefine d found order (fuel + 2) hok (fun order1 found1 hok1 _ _ => ih (d + 1) found1 order1 hok1 (by omega))

/-- If there is a bound on the number of conditions, growing a rule terminates without undefined behaviour. -/
theorem growRule_bound (hb : StrictWeak better) (hs : sorts.Spec better) (hv : search.Valid) (hw : 1 ≤ cfg.width) {minQuality : Q}
    (hsucc : Succeeds ops cfg.toGrowConfig search (fun q => better q minQuality = true)) {n : Nat}
    (hn : Bound ops cfg search (fun q => better q minQuality = true) n) : ∃ g, growRule ops better sorts cfg search minQuality (n + 2) = Run.done g := by
  have hP : Upward better (fun q => better q minQuality = true) := fun a b ha hba => hb.trans _ _ _ hba ha
  obtain ⟨candidates, c1, c2⟩ := hsucc [] ops.create none Path.start 0
  rw [List.length_nil] at c1
  obtain ⟨c, f, f1, f2, f3, f4, f5⟩ := fixed_find_partial hb hs.refinements hw minQuality candidates (search.schedule 0 0 candidates) (hv 0 0 candidates)
  have hff := find_found hw f1
  unfold growRule
  rw [c1, Run.lift_ok, Run.done_bind, f1, Run.lift_ok, Run.done_bind]
  simp only
  cases f with
  | false => exact ⟨_, rfl⟩
  | true =>
    obtain ⟨order, o1, o2⟩ := newBeam_ok (P := fun q => better q minQuality = true) hsucc c1 (hff.1 rfl) f3 f4
    simp only
    rw [o1, Run.lift_ok, Run.done_bind]
    obtain ⟨order', h1⟩ := beamLoop_terminates hb hs hv hw hP hsucc hn n 1 true order o2 (by omega)
    rw [h1, Run.done_bind]
    obtain ⟨d', b1, _, _⟩ := beamLoop_ok hb hs hv hw hsucc hP _ 1 true order order' o2 (by omega) (by simp) h1
    cases order' with
    | nil => exact absurd rfl b1.nonempty
    | cons e l => exact ⟨_, rfl⟩

/-- **C67**, termination if the number of conditions is limited. -/
theorem growRule_terminates_limited (hb : StrictWeak better) (hs : sorts.Spec better) (hv : search.Valid) (hw : 1 ≤ cfg.width)
    {minQuality : Q} (hsucc : Succeeds ops cfg.toGrowConfig search (fun q => better q minQuality = true)) (hm : cfg.maxConditions ≠ 0) :
    ∃ g, growRule ops better sorts cfg search minQuality (cfg.maxConditions + 2) = Run.done g :=
  growRule_bound hb hs hv hw hsucc (Or.inl ⟨hm, le_rfl⟩)

/-- **C67**, termination if each condition excludes at least one covered example. -/
theorem growRule_terminates (hb : StrictWeak better) (hs : sorts.Spec better) (hv : search.Valid) (hw : 1 ≤ cfg.width)
    {minQuality : Q} (hsucc : Succeeds ops cfg.toGrowConfig search (fun q => better q minQuality = true)) (numCovered : σ → Nat)
    (hdec : ∀ n p s o candidates x s0 s', search.candidates n p s o = .ok candidates → x ∈ candidates.flatten → better x.quality minQuality = true → OrCopy ops s s0 →
      ops.filter s0 x.refinement.condition = .ok s' → numCovered s' < numCovered s) :
    ∃ g, growRule ops better sorts cfg search minQuality (numCovered ops.create + 3) = Run.done g := by
  have hpath : ∀ chosen s outputs, Path ops cfg.toGrowConfig search (fun q => better q minQuality = true) chosen s outputs → numCovered s + chosen.length ≤ numCovered ops.create := by
    intro chosen s outputs h
    induction h with
    | start => simp
    | step _ _ _ hc hx hxP h0 hf ih =>
      have := hdec _ _ _ _ _ _ _ _ hc hx hxP h0 hf
      rw [List.length_append, List.length_singleton]
      omega
  exact growRule_bound hb hs hv hw hsucc (n := numCovered ops.create + 1) (Or.inr (fun chosen s outputs h => by have := hpath _ _ _ h; omega))

end

/-! ### Adding the rule to a model -/

/-- **C67**, in analogy to **C23**: if rules are grown via a beam search and are not pruned, the scores of the examples change by the prediction of the rule that
is added to the model, for exactly those examples that satisfy its conditions. Heads are not sorted, as opposed to the greedy search. -/
theorem induceRule_scores {σ Cond K Q R S : Type} [AddCommGroup K] {l : Learner σ Cond K Q R S} {sorts : Sorts σ Cond (Head K) Q} {cfg : BeamConfig}
    {search : List (Update.Cell R S) → BeamSearch σ Cond (Head K) Q} {numExamples numOutputs : Nat} {holds : Cond → Nat → Bool} {Valid : R → Prop}
    {value : R → Nat → K} {Consistent : Nat → R → S → Prop} (hl : l.Ok numExamples numOutputs holds Valid value Consistent)
    (hcopy : CopyLaw l.subspaces) {round : Round σ Cond K Q R S} (happlied : ∀ call, Interleaving (Update.Call.tasks l.updates call numExamples) (round.applySchedule call))
    (hs : sorts.Spec l.better) (hv : ∀ cells, (search cells).Valid) (hw : 1 ≤ cfg.width) (hsucc : ∀ cells, Succeeds l.subspaces cfg.toGrowConfig (search cells) (fun q => l.better q l.minQuality = true))
    (hheads : ∀ cells n p s o candidates, (search cells).candidates n p s o = .ok candidates →
      ∀ x ∈ candidates.flatten, l.better x.quality l.minQuality = true → Update.Fits numOutputs x.refinement.head)
    (hp : round.hasZeroWeights = false ∨ l.pruning = none) {fuel : Nat} {cells cells' : List (Update.Cell R S)} {rule : Rule Cond K}
    (hlen : cells.length = numExamples) (hcells : ∀ i c, cells[i]? = some c → Update.CellOk Valid Consistent i c)
    (h : induceRule l sorts cfg search round fuel cells = Run.done (some (cells', rule))) :
    Update.Fits numOutputs rule.head ∧ cells'.length = numExamples ∧
      ∀ i c', cells'[i]? = some c' → ∃ c, cells[i]? = some c ∧ Update.CellOk Valid Consistent i c' ∧
        ∀ j < numOutputs, value c'.scores j = value c.scores j + rule.contribution holds i j := by
  unfold induceRule at h
  obtain ⟨g, h1, h⟩ := run_bind_done h
  rcases growRule_path hl.better hs (hv cells) hw (hsucc cells) h1 with ⟨rfl, _⟩ | ⟨chosen, s, outputs, last, k1, k2, rfl, _⟩
  · cases Run.done_inj h
  · simp only at h
    obtain ⟨r, h2, h⟩ := lift_bind_done h
    cases Run.done_inj h
    have hne : chosen ≠ [] := by
      intro hn
      rw [hn] at k2
      cases k2
    obtain ⟨e1, e2, found, applied, _, _, e3, _, e4⟩ := finishRule_effect hl happlied hlen hcells (by simpa using hne)
      (path_covers hl.subspaces hcopy k1) (path_candidates k1 (fun x => Update.Fits numOutputs x.refinement.head) (hheads cells) last
        (List.mem_of_getLast? k2)) h2
    obtain ⟨h5, h6⟩ := e3 (hp.imp id Or.inl)
    refine ⟨e1, e2, fun i c' hi => ?_⟩
    have hlt : i < cells.length := by
      have := (List.getElem?_eq_some_iff.1 hi).1
      omega
    obtain ⟨c1, g1, g2, g3⟩ := e4 i _ (List.getElem?_eq_getElem hlt)
    rw [hi] at g1
    cases g1
    refine ⟨_, List.getElem?_eq_getElem hlt, g2, fun j hj => ?_⟩
    rw [g3 j hj, h6, ← h5]

/-! ### Examples and negations -/

/-- A subspace is the list of conditions it has been filtered by; condition `n` is satisfied by all examples except for the `n`-th one. -/
def exOps : SubspaceOps (List Nat) Nat where
  create := []
  covers s e := decide (e < 10) && s.all (fun c => c != e)
  reset _ := []
  filter s c := .ok (s ++ [c])

/-- The given candidates are available for a single feature, depending on the conditions. The head of a refinement is its condition. -/
def exSearch (f : List Nat → List (Nat × Rat)) : BeamSearch (List Nat) Nat Nat Rat where
  candidates _ _ s _ := .ok [(f s).map (fun p => ⟨⟨p.1, 5, p.1⟩, p.2⟩)]
  schedule _ _ candidates := (candidates.zipIdx.map (fun p => p.1.map (fun x => (p.2, x)))).flatten

def exSort {A : Type} (l : List (Scored A Rat)) : List (Scored A Rat) := l.insertionSort (fun a b => a.quality ≤ b.quality)

def exSorts : Sorts (List Nat) Nat Nat Rat := ⟨exSort, exSort⟩

theorem exSort_spec {A : Type} : SortSpec boosted (exSort (A := A)) where
  perm l := List.perm_insertionSort _ l
  sorted l := by
    have h : (exSort l).Pairwise (fun a b => a.quality ≤ b.quality) :=
      @List.pairwise_insertionSort _ (fun a b : Scored A Rat => a.quality ≤ b.quality) _
        ⟨fun a b => le_total a.quality b.quality⟩ ⟨fun _ _ _ => le_trans⟩ l
    exact h.imp (fun hab => by simpa [boosted] using hab)

def exBeam : BeamConfig := { minCoverage := 1, maxConditions := 0, maxHeadRefinements := 1, width := 2 }

theorem exSearch_valid (f : List Nat → List (Nat × Rat)) : (exSearch f).Valid := by
  intro n p candidates
  have main : ∀ (l : List (List (Scored (Found Nat Nat) Rat))) (k : Nat),
      (∀ q ∈ ((l.zipIdx k).map (fun p => p.1.map (fun x => (p.2, x)))).flatten, k ≤ q.1 ∧ q.1 < k + l.length) ∧
      ∀ (i : Nat) (m : List (Scored (Found Nat Nat) Rat)), l[i]? = some m →
        (((l.zipIdx k).map (fun p => p.1.map (fun x => (p.2, x)))).flatten.filter (fun p => p.1 == k + i)).map Prod.snd = m := by
    intro l
    induction l with
    | nil => exact fun k => ⟨by simp, by simp⟩
    | cons a l ih =>
      intro k
      obtain ⟨h1, h2⟩ := ih (k + 1)
      simp only [List.zipIdx_cons, List.map_cons, List.flatten_cons, List.length_cons]
      refine ⟨?_, ?_⟩
      · intro q hq
        rcases List.mem_append.1 hq with hq | hq
        · obtain ⟨x, _, rfl⟩ := List.mem_map.1 hq
          exact ⟨le_rfl, by simp⟩
        · have := h1 q hq
          omega
      · intro i m hi
        rw [List.filter_append, List.map_append]
        cases i with
        | zero =>
          simp only [List.getElem?_cons_zero, Option.some.injEq] at hi
          subst hi
          rw [List.filter_eq_self.2, List.filter_eq_nil_iff.2]
          · simp [Function.comp_def]
          · intro q hq
            have := h1 q hq
            simp only [beq_iff_eq]
            omega
          · intro q hq
            obtain ⟨x, _, rfl⟩ := List.mem_map.1 hq
            simp
        | succ i =>
          simp only [List.getElem?_cons_succ] at hi
          rw [List.filter_eq_nil_iff.2]
          · have := h2 i m hi
            rw [show k + (i + 1) = k + 1 + i by omega]
            simpa using this
          · intro q hq
            obtain ⟨x, _, rfl⟩ := List.mem_map.1 hq
            simp
  obtain ⟨h1, h2⟩ := main candidates 0
  refine ⟨fun q hq => ?_, fun i l hi => ?_⟩
  · have := h1 q hq
    omega
  · have := h2 i l hi
    rw [Nat.zero_add] at this
    exact this

theorem exSearch_succeeds (f : List Nat → List (Nat × Rat)) (P : Rat → Prop) : Succeeds exOps exBeam.toGrowConfig (exSearch f) P :=
  fun _ _ _ _ _ => ⟨_, rfl, fun _ _ _ _ _ => ⟨_, rfl⟩⟩

/-- The hypotheses of the theorems above are met. -/
example (f : List Nat → List (Nat × Rat)) : StrictWeak boosted ∧ exSorts.Spec boosted ∧ (exSearch f).Valid ∧ 1 ≤ exBeam.width ∧
    Succeeds exOps exBeam.toGrowConfig (exSearch f) (fun q => boosted q 0 = true) :=
  ⟨boosted_strictWeak, ⟨exSort_spec, exSort_spec⟩, exSearch_valid f, by decide, exSearch_succeeds f _⟩

/-- Two rules are refined; the best one is returned. -/
example : growRule exOps boosted exSorts exBeam
      (exSearch (fun s => if s = [] then [(2, -1), (1, -2)] else if s = [1] then [(3, -3), (4, -4)] else if s = [2] then [(5, -5)] else [])) 0 5 =
    Run.done ⟨[2, 5], [2, 5], some 5⟩ := by decide +kernel

/-- **C67 (negation).** A rule is returned, although the beam contains a better one: the second entry is refined, such that it becomes better than the first one,
but the entries are not sorted, because the number of entries has not been exceeded. -/
theorem beam_not_sorted :
    growRule exOps boosted exSorts exBeam (exSearch (fun s => if s = [] then [(2, -1), (1, -2)] else if s = [2] then [(5, -5)] else [])) 0 5 =
      Run.done ⟨[1], [1], some 1⟩ ∧
    refine exOps boosted exSorts exBeam (exSearch (fun s => if s = [] then [(2, -1), (1, -2)] else if s = [2] then [(5, -5)] else [])) 1 true
        [⟨⟨[1], 1, [1], .head⟩, -2⟩, ⟨⟨[2], 2, [2], .head⟩, -1⟩] =
      .ok ([⟨⟨[1], 1, [1], .null⟩, -2⟩, ⟨⟨[2, 5], 5, [2, 5], .head⟩, -5⟩], true) := by decide +kernel

/-- **C67 (negation).** The best entry is replaced by a worse one: the second entry can be refined in two ways. The best refinement is the last entry of the new
beam, to which the other one is written afterwards. -/
theorem beam_loses_best :
    growRule exOps boosted exSorts exBeam (exSearch (fun s => if s = [] then [(2, -1), (1, -2)] else if s = [2] then [(5, -4), (6, -5)] else [])) 0 5 =
      Run.done ⟨[2, 5], [2, 5], some 5⟩ ∧
    refine exOps boosted exSorts exBeam (exSearch (fun s => if s = [] then [(2, -1), (1, -2)] else if s = [2] then [(5, -4), (6, -5)] else [])) 1 true
        [⟨⟨[1], 1, [1], .head⟩, -2⟩, ⟨⟨[2], 2, [2], .head⟩, -1⟩] =
      .ok ([⟨⟨[2, 5], 5, [2, 5], .head⟩, -4⟩, ⟨⟨[1], 1, [1], .null⟩, -2⟩], true) := by decide +kernel

/-- **C67 (negation).** A refinement must be better than the last entry of the beam, but it may be worse than the entry it replaces. The rule that is returned is
worse than the best one that has been found before. -/
theorem beam_gets_worse :
    growRule exOps boosted exSorts exBeam (exSearch (fun s => if s = [] then [(2, -1), (1, -4)] else if s = [1] then [(5, -2)] else [])) 0 5 =
      Run.done ⟨[1, 5], [1, 5], some 5⟩ := by decide +kernel

/-- A beam that meets the hypotheses of `refine_spec`. -/
example : BeamOk exOps exBeam (exSearch (fun s => if s = [] then [(2, -1), (1, -2)] else [])) (fun q => boosted q 0 = true) 1
    [⟨⟨[1], 1, [1], .head⟩, -2⟩, ⟨⟨[2], 2, [2], .head⟩, -1⟩] := by
  obtain ⟨order, h1, h2⟩ := newBeam_ok (cfg := exBeam) (search := exSearch (fun s => if s = [] then [(2, -1), (1, -2)] else []))
    (P := fun q => boosted q 0 = true) (exSearch_succeeds _ _) (candidates := [[⟨⟨2, 5, 2⟩, -1⟩, ⟨⟨1, 5, 1⟩, -2⟩]]) rfl
    (xs := [⟨⟨1, 5, 1⟩, -2⟩, ⟨⟨2, 5, 2⟩, -1⟩]) (by simp) (by decide) (by decide +kernel)
  have : order = [⟨⟨[1], 1, [1], .head⟩, -2⟩, ⟨⟨[2], 2, [2], .head⟩, -1⟩] := by
    have h3 : newBeam exOps exOps.create (decide (exBeam.maxHeadRefinements = 1))
      ([⟨⟨1, 5, 1⟩, -2⟩, ⟨⟨2, 5, 2⟩, -1⟩] : List (Scored (Found Nat Nat) Rat)) = .ok [⟨⟨[1], 1, [1], .head⟩, -2⟩, ⟨⟨[2], 2, [2], .head⟩, -1⟩] := rfl
    rw [h3] at h1
    exact (Except.ok.inj h1).symm
  rw [← this]
  exact h2

end MLRL.Beam
