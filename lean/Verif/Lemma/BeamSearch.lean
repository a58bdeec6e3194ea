import Verif.Spec.BeamSearch
import Verif.Lemma.Induction
import Verif.Props.Refinement

/-! # Lemmas about beam searches -/

namespace MLRL.Beam

open Refinement Induction

section
variable {A Q : Type} {better : Q → Q → Bool}

theorem merge_found {k : Nat} (hk : 1 ≤ k) {s o s' : Fixed A Q} {f : Bool} (h : Fixed.merge better k s o = .ok (s', f)) :
    (s.order ≠ [] ∨ f = true) ↔ s'.order ≠ [] := by
  have h1 : s'.order = (mergeLoop better k s.order o.order).1 ∧ f = (mergeLoop better k s.order o.order).2 := by
    unfold Fixed.merge at h
    simp only at h
    split at h <;> (cases h; exact ⟨rfl, rfl⟩)
  obtain ⟨n, rfl⟩ : ∃ n, k = n + 1 := ⟨k - 1, by omega⟩
  rw [h1.1, h1.2]
  cases hs : s.order with
  | nil =>
    cases ho : o.order with
    | nil => simp [mergeLoop]
    | cons y l => simp [mergeLoop]
  | cons x l =>
    cases ho : o.order with
    | nil => simp [mergeLoop]
    | cons y l' =>
      simp only [mergeLoop]
      split <;> simp

theorem mergeAll_found {sort : List (Scored A Q) → List (Scored A Q)} {k : Nat} (hk : 1 ≤ k) (es : List (Fixed A Q)) : ∀ (s s' : Fixed A Q) (found f : Bool),
    mergeAll (fixedOps better sort k) es s found = .ok (s', f) → (found = true ↔ s.order ≠ []) → (f = true ↔ s'.order ≠ []) := by
  induction es with
  | nil =>
    intro s s' found f h hf
    cases h
    exact hf
  | cons e es ih =>
    intro s s' found f h hf
    simp only [mergeAll] at h
    cases hm : Fixed.merge better k s e with
    | error x =>
      have : (fixedOps better sort k).merge s e = .error x := hm
      rw [this] at h
      cases h
    | ok r =>
      obtain ⟨s1, f1⟩ := r
      have : (fixedOps better sort k).merge s e = .ok (s1, f1) := hm
      rw [this, ok_bind] at h
      refine ih s1 s' _ f h ?_
      rw [← merge_found hk hm, Bool.or_eq_true, hf]

theorem find_found {sort : List (Scored A Q) → List (Scored A Q)} {k : Nat} (hk : 1 ≤ k) {n : Nat} {trace : List (Nat × Scored A Q)} {q0 : Q}
    {s : Fixed A Q} {f : Bool} (h : findRefinement (fixedOps better sort k) n trace (Fixed.new q0) = .ok (s, f)) : f = true ↔ s.order ≠ [] := by
  unfold findRefinement at h
  cases he : execTrace (fixedOps better sort k) trace (List.replicate n ((fixedOps better sort k).copy (Fixed.new q0))) with
  | error x => rw [he] at h; cases h
  | ok es =>
    rw [he, ok_bind] at h
    exact mergeAll_found hk es _ _ _ _ h (by simp [Fixed.new])

end

section
variable {σ Cond H Q : Type} {ops : SubspaceOps σ Cond} {better : Q → Q → Bool} {cfg : BeamConfig} {search : BeamSearch σ Cond H Q}
  {sorts : Sorts σ Cond H Q}

theorem path_outputs {P : Q → Prop} {chosen : List (Scored (Found Cond H) Q)} {s : σ} {outputs : Option H} (h : Path ops cfg.toGrowConfig search P chosen s outputs) :
    outputs = if cfg.maxHeadRefinements ≠ 0 ∧ chosen.length ≥ cfg.maxHeadRefinements then chosen.getLast?.map (fun y => y.refinement.head) else none := by
  induction h with
  | start =>
    rw [if_neg]
    simp only [List.length_nil]
    omega
  | @step chosen s outputs position candidates x s0 s' h _ _ _ _ _ _ _ ih =>
    rw [List.length_append, List.length_singleton, List.getLast?_append]
    split
    · simp
    · rename_i hn
      rw [ih, if_neg]
      omega

theorem path_covers {numExamples : Nat} {holds : Cond → Nat → Bool} (laws : SubspaceLaws ops numExamples holds) (hcopy : CopyLaw ops)
    {P : Q → Prop} {chosen : List (Scored (Found Cond H) Q)} {s : σ} {outputs : Option H} (h : Path ops cfg.toGrowConfig search P chosen s outputs) :
    ops.covers s = coverage numExamples holds (chosen.map (fun x => x.refinement.condition)) := by
  induction h with
  | start =>
    funext e
    rw [laws.create]
    simp [coverage]
  | @step chosen s outputs position candidates x s0 s' _ _ _ _ _ _ h0 hf ih =>
    funext e
    have h1 : ops.covers s0 e = ops.covers s e := by
      rcases h0 with rfl | rfl
      · rfl
      · exact hcopy s e
    rw [laws.filter _ _ _ hf e, h1, ih]
    simp [coverage, Bool.and_assoc]

/-- An entry of a beam in which refined entries have `d` conditions. -/
structure EntryOk (ops : SubspaceOps σ Cond) (cfg : BeamConfig) (search : BeamSearch σ Cond H Q) (P : Q → Prop) (d : Nat) (e : Entry σ Cond H Q)
    (chosen : List (Scored (Found Cond H) Q)) (s : σ) (outputs : Option H) : Prop where
  path : Path ops cfg.toGrowConfig search P chosen s outputs
  represents : e.Represents chosen s
  length : chosen.length ≤ d
  active : e.refinement.outputs ≠ .null → chosen.length = d ∧ outputsOf e = .ok outputs ∧
    ∀ y, 2 ≤ chosen.length → chosen.getLast? = some y → cfg.minCoverage < y.refinement.numCovered

def EntryOk.Some (ops : SubspaceOps σ Cond) (cfg : BeamConfig) (search : BeamSearch σ Cond H Q) (P : Q → Prop) (d : Nat) (e : Entry σ Cond H Q) : Prop :=
  ∃ chosen s outputs, EntryOk ops cfg search P d e chosen s outputs

/-- Entries after adding a condition. -/
theorem refinedEntry_ok {P : Q → Prop} {d : Nat} {e : Entry σ Cond H Q} {chosen : List (Scored (Found Cond H) Q)} {s s' : σ} {outputs : Option H}
    (h : EntryOk ops cfg search P d e chosen s outputs) (ha : e.refinement.outputs ≠ .null) (hmax : cfg.maxConditions ≠ 0 → d < cfg.maxConditions)
    {position : Nat} {candidates : List (List (Scored (Found Cond H) Q))} (hc : search.candidates d position s outputs = .ok candidates)
    {x : Scored (Found Cond H) Q} (hx : x ∈ candidates.flatten) (hxP : P x.quality) {s0 : σ} (h0 : OrCopy ops s s0) (hf : ops.filter s0 x.refinement.condition = .ok s') :
    ∃ c, refinedEntry ops cfg.minCoverage (decide (0 < cfg.maxHeadRefinements ∧ cfg.maxHeadRefinements ≤ d + 1)) e s0 x = .ok c ∧ c.quality = x.quality ∧
      Child ops e c ∧ EntryOk.Some ops cfg search P (d + 1) c := by
  obtain ⟨hl, ho, hcov⟩ := h.active ha
  subst hl
  unfold refinedEntry
  rw [hf, ok_bind]
  refine ⟨_, rfl, rfl, ⟨x.refinement.condition, s0, rfl, by rw [h.represents.subspace]; exact h0, hf⟩, chosen ++ [x], s', _,
    Path.step h.path hmax (fun y => hcov y) hc hx hxP h0 hf, ⟨?_, rfl, ?_⟩, ?_, ?_⟩
  · simp only [List.map_append, List.map_cons, List.map_nil, h.represents.conditions]
  · exact ⟨x, by simp, rfl, rfl⟩
  · simp
  · intro hn
    simp only at hn
    split at hn
    · exact absurd rfl hn
    · rename_i hnc
      refine ⟨by simp, ?_, ?_⟩
      · unfold outputsOf
        simp only
        rw [if_neg hnc]
        by_cases hk : 0 < cfg.maxHeadRefinements ∧ cfg.maxHeadRefinements ≤ chosen.length + 1
        · rw [if_pos (by omega)]
          simp [nextOutputs, hk]
        · rw [if_neg (by omega)]
          have hp := path_outputs h.path
          rw [if_neg (by omega)] at hp
          subst hp
          unfold outputsOf at ho
          cases hh : e.refinement.outputs with
          | null => exact absurd hh ha
          | all => simp [nextOutputs, hk]
          | head => rw [hh] at ho; cases ho
          | dangling => rw [hh] at ho; cases ho
      · intro y _ hy
        simp only [List.getLast?_append, List.getLast?_singleton, Option.some_or, Option.some.injEq] at hy
        subst hy
        omega

theorem frozenEntry_ok {P : Q → Prop} {d : Nat} {e : Entry σ Cond H Q} (h : EntryOk.Some ops cfg search P d e) : EntryOk.Some ops cfg search P (d + 1) (frozenEntry e) := by
  obtain ⟨chosen, s, outputs, h⟩ := h
  exact ⟨chosen, s, outputs, h.path, ⟨h.represents.conditions, h.represents.subspace, h.represents.last⟩, by have := h.length; omega,
    fun hn => absurd rfl hn⟩

/-! ### Adding entries to a new beam -/

/-- What holds of the new beam at any time. -/
structure RefineInv (cfg : BeamConfig) (R : Entry σ Cond H Q → Prop) (P : Q → Prop) (s : RefineState σ Cond H Q) : Prop where
  length : s.order.length ≤ cfg.width
  entries : ∀ e ∈ s.order, R e ∧ P e.quality
  minQuality : P s.minQuality

theorem replaceLast_ok (hs : SortSpec better sorts.entries) (hw : 1 ≤ cfg.width) {R : Entry σ Cond H Q → Prop} {P : Q → Prop} {s : RefineState σ Cond H Q}
    (h : RefineInv cfg R P s) (hfull : ¬s.order.length < cfg.width) {e : Entry σ Cond H Q} (hR : R e) (hP : P e.quality) :
    ∃ s', replaceLast sorts e s = .ok s' ∧ RefineInv cfg R P s' ∧ s'.order.length = cfg.width ∧ Sorted better s'.order ∧ s'.result = s.result := by
  have hl := h.length
  have hne : s.order ≠ [] := by
    intro hn
    rw [hn] at hfull
    simp only [List.length_nil] at hfull
    omega
  have hperm := hs.perm (s.order.dropLast ++ [e])
  have hmem : ∀ c ∈ sorts.entries (s.order.dropLast ++ [e]), R c ∧ P c.quality := by
    intro c hc
    rcases List.mem_append.1 (hperm.subset hc) with hc | hc
    · exact h.entries c (List.dropLast_subset _ hc)
    · rw [List.mem_singleton] at hc
      subst hc
      exact ⟨hR, hP⟩
  have hlen : (sorts.entries (s.order.dropLast ++ [e])).length = cfg.width := by
    rw [hperm.length_eq, List.length_append, List.length_dropLast, List.length_singleton]
    omega
  unfold replaceLast
  split
  · rename_i ho
    exact absurd ho hne
  · cases hlast : (sorts.entries (s.order.dropLast ++ [e])).getLast? with
    | none =>
      rw [List.getLast?_eq_none_iff] at hlast
      rw [hlast] at hlen
      simp only [List.length_nil] at hlen
      omega
    | some w => exact ⟨_, rfl, ⟨le_of_eq hlen, hmem, (hmem w (List.mem_of_getLast? hlast)).2⟩, hlen, hs.sorted _, rfl⟩

theorem addRefinement_ok (hs : SortSpec better sorts.entries) (hw : 1 ≤ cfg.width) {R : Entry σ Cond H Q → Prop} {P : Q → Prop} {s : RefineState σ Cond H Q}
    (h : RefineInv cfg R P s) {keep : Bool} {old c : Entry σ Cond H Q} {s0 : σ} {x : Scored (Found Cond H) Q}
    (hc : refinedEntry ops cfg.minCoverage keep old s0 x = .ok c) (hR : R c) (hP : P c.quality) :
    ∃ s', addRefinement ops sorts cfg keep old s0 s x = .ok s' ∧ RefineInv cfg R P s' ∧ s'.result = s.result ∧
      ((s'.order = s.order ++ [c] ∧ s'.minQuality = s.minQuality) ∨ (s'.order.length = cfg.width ∧ Sorted better s'.order ∧ s.order.length = cfg.width)) := by
  unfold addRefinement
  rw [hc, ok_bind]
  by_cases hlt : s.order.length < cfg.width
  · rw [if_pos hlt]
    refine ⟨_, rfl, ⟨?_, ?_, h.minQuality⟩, rfl, Or.inl ⟨rfl, rfl⟩⟩
    · simp only [List.length_append, List.length_singleton]
      omega
    · intro e he
      rcases List.mem_append.1 he with he | he
      · exact h.entries e he
      · rw [List.mem_singleton] at he
        subst he
        exact ⟨hR, hP⟩
  · rw [if_neg hlt]
    obtain ⟨s', h1, h2, h3, h4, h5⟩ := replaceLast_ok hs hw h hlt hR hP
    have := h.length
    exact ⟨s', h1, h2, h5, Or.inr ⟨h3, h4, by omega⟩⟩

theorem fold_ok (hs : SortSpec better sorts.entries) (hw : 1 ≤ cfg.width) {R : Entry σ Cond H Q → Prop} {P : Q → Prop} {keep : Bool} {old : Entry σ Cond H Q} {s0 : σ}
    (xs : List (Scored (Found Cond H) Q)) : ∀ (s : RefineState σ Cond H Q), RefineInv cfg R P s →
    (∀ x ∈ xs, ∃ c, refinedEntry ops cfg.minCoverage keep old s0 x = .ok c ∧ R c ∧ P c.quality ∧ c.quality = x.quality ∧ Child ops old c) →
    ∃ s', xs.foldlM (addRefinement ops sorts cfg keep old s0) s = .ok s' ∧ RefineInv cfg R P s' ∧ s'.result = s.result ∧ s.order.length ≤ s'.order.length ∧
      ((∃ g, s'.order = s.order ++ g ∧ s'.minQuality = s.minQuality ∧ List.Forall₂ (fun x c => c.quality = x.quality ∧ Child ops old c) xs g) ∨
        (s'.order.length = cfg.width ∧ Sorted better s'.order ∧ xs ≠ [])) := by
  induction xs with
  | nil => exact fun s h _ => ⟨s, rfl, h, rfl, le_rfl, Or.inl ⟨[], by simp, rfl, List.Forall₂.nil⟩⟩
  | cons x xs ih =>
    intro s h hx
    obtain ⟨c, c1, c2, c3, c4, c5⟩ := hx x List.mem_cons_self
    obtain ⟨s1, a1, a2, a3, a4⟩ := addRefinement_ok hs hw h c1 c2 c3
    obtain ⟨s2, b1, b2, b3, b4, b5⟩ := ih s1 a2 (fun y hy => hx y (List.mem_cons_of_mem _ hy))
    refine ⟨s2, by rw [List.foldlM_cons, a1, ok_bind, b1], b2, by rw [b3, a3], ?_, ?_⟩
    · rcases a4 with ⟨a4, _⟩ | ⟨a4, _, _⟩
      · rw [a4, List.length_append] at b4
        omega
      · have := h.length
        omega
    · rcases b5 with ⟨g, g1, g2, g3⟩ | ⟨g1, g2, _⟩
      · rcases a4 with ⟨a4, a5⟩ | ⟨a4, a5, a6⟩
        · exact Or.inl ⟨c :: g, by rw [g1, a4]; simp, by rw [g2, a5], List.Forall₂.cons ⟨c4, c5⟩ g3⟩
        · right
          have hl := b2.length
          rw [g1, List.length_append] at hl
          have hg : g = [] := List.length_eq_zero_iff.1 (by omega)
          subst hg
          rw [List.append_nil] at g1
          rw [g1]
          exact ⟨a4, a5, by simp⟩
      · exact Or.inr ⟨g1, g2, by simp⟩

theorem addRefinements_ok (hs : SortSpec better sorts.entries) (hw : 1 ≤ cfg.width) {R : Entry σ Cond H Q → Prop} {P : Q → Prop} {keep : Bool}
    {old : Entry σ Cond H Q} {xs : List (Scored (Found Cond H) Q)} (hne : xs ≠ []) {s : RefineState σ Cond H Q} (h : RefineInv cfg R P s)
    (hx : ∀ x ∈ xs, ∀ s0, OrCopy ops old.refinement.subspace s0 →
      ∃ c, refinedEntry ops cfg.minCoverage keep old s0 x = .ok c ∧ R c ∧ P c.quality ∧ c.quality = x.quality ∧ Child ops old c) :
    ∃ s', addRefinements ops sorts cfg keep old xs s = .ok s' ∧ RefineInv cfg R P s' ∧ s'.result = true ∧ s.order.length ≤ s'.order.length ∧
      ((∃ g, s'.order = s.order ++ g ∧ s'.minQuality = s.minQuality ∧ List.Forall₂ (fun x c => c.quality = x.quality ∧ Child ops old c) xs g) ∨
        (s'.order.length = cfg.width ∧ Sorted better s'.order ∧ xs ≠ [])) := by
  obtain ⟨init, last, rfl⟩ : ∃ init last, xs = init ++ [last] := ⟨xs.dropLast, xs.getLast hne, (List.dropLast_append_getLast hne).symm⟩
  unfold addRefinements
  rw [List.getLast?_concat]
  simp only [List.dropLast_concat]
  obtain ⟨s1, a1, a2, a3, a4, a5⟩ := fold_ok (keep := keep) (old := old) (s0 := ops.copy old.refinement.subspace) hs hw init { s with result := true }
    ⟨h.length, h.entries, h.minQuality⟩ (fun x hxi => hx x (by simp [hxi]) _ (Or.inr rfl))
  obtain ⟨s2, b1, b2, b3, b4, b5⟩ := fold_ok (keep := keep) (old := old) (s0 := old.refinement.subspace) hs hw [last] s1 a2
    (fun x hxi => hx x (by simp only [List.mem_singleton] at hxi; simp [hxi]) _ (Or.inl rfl))
  have b1' : addRefinement ops sorts cfg keep old old.refinement.subspace s1 last = .ok s2 := by
    rw [List.foldlM_cons] at b1
    cases hr : addRefinement ops sorts cfg keep old old.refinement.subspace s1 last with
    | error e => rw [hr] at b1; cases b1
    | ok s3 => rw [hr, ok_bind] at b1; exact b1
  refine ⟨s2, by rw [a1, ok_bind, b1'], b2, by rw [b3, a3], le_trans a4 b4, ?_⟩
  simp only at a5
  rcases b5 with ⟨g2, c1, c2, c3⟩ | ⟨c1, c2, _⟩
  · rcases a5 with ⟨g1, d1, d2, d3⟩ | ⟨d1, d2, d3⟩
    · exact Or.inl ⟨g1 ++ g2, by rw [c1, d1, List.append_assoc], by rw [c2, d2], List.rel_append d3 c3⟩
    · have hl := b2.length
      rw [c1, List.length_append] at hl
      have : g2.length = 1 := by rw [← c3.length_eq]; rfl
      omega
  · exact Or.inr ⟨c1, c2, by simp⟩

theorem keepEntry_ok (hs : SortSpec better sorts.entries) (hw : 1 ≤ cfg.width) {R : Entry σ Cond H Q → Prop} {P : Q → Prop} {s : RefineState σ Cond H Q}
    (h : RefineInv cfg R P s) {old : Entry σ Cond H Q} (hR : R (frozenEntry old)) (hP : P old.quality) :
    ∃ s', keepEntry better sorts cfg old s = .ok s' ∧ RefineInv cfg R P s' ∧ s'.result = s.result ∧
      ((s'.order = s.order ++ [frozenEntry old] ∧ s'.minQuality = s.minQuality) ∨
        (s' = s ∧ s.order.length = cfg.width ∧ better s.minQuality old.quality = true) ∨
        (s'.order.length = cfg.width ∧ Sorted better s'.order ∧ s.order.length = cfg.width)) := by
  unfold keepEntry
  by_cases hlt : s.order.length < cfg.width
  · rw [if_pos hlt]
    refine ⟨_, rfl, ⟨?_, ?_, h.minQuality⟩, rfl, Or.inl ⟨rfl, rfl⟩⟩
    · simp only [List.length_append, List.length_singleton]
      omega
    · intro e he
      rcases List.mem_append.1 he with he | he
      · exact h.entries e he
      · rw [List.mem_singleton] at he
        subst he
        exact ⟨hR, hP⟩
  · have hl := h.length
    rw [if_neg hlt]
    by_cases hb : better s.minQuality old.quality = true
    · rw [if_pos hb]
      exact ⟨s, rfl, h, rfl, Or.inr (Or.inl ⟨rfl, by omega, hb⟩)⟩
    · rw [if_neg hb]
      obtain ⟨s', h1, h2, h3, h4, h5⟩ := replaceLast_ok hs hw h hlt hR (e := frozenEntry old) hP
      exact ⟨s', h1, h2, h5, Or.inr (Or.inr ⟨h3, h4, by omega⟩)⟩

/-! ### A single step -/

/-- There is no candidate that is better than the given quality. -/
def NoCandidate (better : Q → Q → Bool) (search : BeamSearch σ Cond H Q) (d : Nat) (q0 : Q) (position : Nat) (e : Entry σ Cond H Q) : Prop :=
  e.refinement.outputs ≠ .null → ∃ outputs candidates, outputsOf e = .ok outputs ∧
    search.candidates d position e.refinement.subspace outputs = .ok candidates ∧ ∀ x ∈ candidates.flatten, better x.quality q0 = false

/-- The entries that have been processed, `q0` is the initial value of `minQuality`. -/
structure StepInv (ops : SubspaceOps σ Cond) (better : Q → Q → Bool) (cfg : BeamConfig) (search : BeamSearch σ Cond H Q) (d : Nat)
    (R : Entry σ Cond H Q → Prop) (P : Q → Prop) (q0 : Q) (done : List (Entry σ Cond H Q)) (s : RefineState σ Cond H Q) : Prop where
  inv : RefineInv cfg R P s
  grows : done.length ≤ s.order.length
  order : (s.order.length = cfg.width ∧ Sorted better s.order) ∨
    ∃ groups, List.Forall₂ (Group ops better q0) done groups ∧ s.order = groups.flatten ∧ s.minQuality = q0
  found : s.result = true → ∃ e ∈ done, e.refinement.outputs ≠ .null
  notFound : s.result = false → s.order = done.map frozenEntry
  exhausted : s.result = false → s.minQuality = q0 ∧ ∀ (i : Nat) (e : Entry σ Cond H Q), done[i]? = some e → NoCandidate better search d q0 i e

theorem keepEntry_step (hs : SortSpec better sorts.entries) (hw : 1 ≤ cfg.width) {R : Entry σ Cond H Q → Prop} {P : Q → Prop} {q0 : Q} {d : Nat}
    {done : List (Entry σ Cond H Q)} {s : RefineState σ Cond H Q} (h : StepInv ops better cfg search d R P q0 done s) {old : Entry σ Cond H Q}
    (hlen : done.length + 1 ≤ cfg.width) (hR : R (frozenEntry old)) (hP : P old.quality)
    (hno : s.result = false → NoCandidate better search d q0 done.length old) :
    ∃ s', keepEntry better sorts cfg old s = .ok s' ∧ StepInv ops better cfg search d R P q0 (done ++ [old]) s' := by
  have hg := h.grows
  obtain ⟨s', k1, k2, k3, k4⟩ := keepEntry_ok hs hw h.inv hR hP
  have hfalse : s.result = false → s.order.length = done.length := fun hr => by rw [h.notFound hr, List.length_map]
  refine ⟨s', k1, k2, ?_, ?_, ?_, ?_, ?_⟩
  · rw [List.length_append, List.length_singleton]
    rcases k4 with ⟨k4, _⟩ | ⟨k4, k5, _⟩ | ⟨k4, _⟩
    · rw [k4, List.length_append, List.length_singleton]
      omega
    · rw [k4]
      omega
    · omega
  · rcases k4 with ⟨k4, k5⟩ | ⟨k4, k5, k6⟩ | ⟨k4, k5, _⟩
    · rcases h.order with ⟨h1, h2⟩ | ⟨groups, h1, h2, h3⟩
      · have := k2.length
        rw [k4, List.length_append, List.length_singleton] at this
        omega
      · right
        refine ⟨groups ++ [[frozenEntry old]], List.rel_append h1 (List.Forall₂.cons (Or.inr (Or.inl rfl)) List.Forall₂.nil), ?_, by rw [k5, h3]⟩
        rw [k4, h2]
        simp
    · rw [k4]
      rcases h.order with h1 | ⟨groups, h1, h2, h3⟩
      · exact Or.inl h1
      · right
        rw [h3] at k6
        refine ⟨groups ++ [[]], List.rel_append h1 (List.Forall₂.cons (Or.inr (Or.inr ⟨rfl, k6⟩)) List.Forall₂.nil), ?_, h3⟩
        rw [h2]
        simp
    · exact Or.inl ⟨k4, k5⟩
  · intro hr
    rw [k3] at hr
    obtain ⟨e, e1, e2⟩ := h.found hr
    exact ⟨e, by simp [e1], e2⟩
  · intro hr
    rw [k3] at hr
    have := hfalse hr
    rcases k4 with ⟨k4, _⟩ | ⟨_, k5, _⟩ | ⟨_, _, k5⟩
    · rw [k4, h.notFound hr, List.map_append]
      rfl
    · omega
    · omega
  · intro hr
    rw [k3] at hr
    have := hfalse hr
    obtain ⟨e1, e2⟩ := h.exhausted hr
    refine ⟨?_, ?_⟩
    · rcases k4 with ⟨_, k5⟩ | ⟨_, k5, _⟩ | ⟨_, _, k5⟩
      · rw [k5, e1]
      · omega
      · omega
    · intro i e hi
      rcases Nat.lt_or_ge i done.length with hlt | hge
      · rw [List.getElem?_append_left hlt] at hi
        exact e2 i e hi
      · rw [List.getElem?_append_right hge] at hi
        have hi0 : i - done.length = 0 := by
          have := (List.getElem?_eq_some_iff.1 hi).1
          simp only [List.length_singleton] at this
          omega
        rw [hi0] at hi
        simp only [List.getElem?_cons_zero, Option.some.injEq] at hi
        subst hi
        have : i = done.length := by omega
        rw [this]
        exact hno hr

theorem refineEntry_step (hb : StrictWeak better) (hs : sorts.Spec better) (hv : search.Valid) (hw : 1 ≤ cfg.width) {P : Q → Prop}
    (hsucc : Succeeds ops cfg.toGrowConfig search P) {d : Nat} (hmax : cfg.maxConditions ≠ 0 → d < cfg.maxConditions) (hP : Upward better P) {q0 : Q}
    {done : List (Entry σ Cond H Q)} {s : RefineState σ Cond H Q} (h : StepInv ops better cfg search d (EntryOk.Some ops cfg search P (d + 1)) P q0 done s)
    {old : Entry σ Cond H Q} (hlen : done.length + 1 ≤ cfg.width) (hR : EntryOk.Some ops cfg search P d old) (hPo : P old.quality) :
    ∃ s', refineEntry ops better sorts cfg search d (decide (0 < cfg.maxHeadRefinements ∧ cfg.maxHeadRefinements ≤ d + 1)) s (old, done.length) = .ok s' ∧
      StepInv ops better cfg search d (EntryOk.Some ops cfg search P (d + 1)) P q0 (done ++ [old]) s' := by
  have hkeep := keepEntry_step hs.entries hw h hlen (frozenEntry_ok hR) hPo
  generalize hposition : done.length = position at hkeep ⊢
  by_cases hn : old.refinement.outputs = .null
  · unfold refineEntry
    simp only [hn]
    exact hkeep (fun _ ha => absurd hn ha)
  · obtain ⟨chosen, s0, outputs, hok⟩ := hR
    obtain ⟨hl, ho, _⟩ := hok.active hn
    obtain ⟨candidates, hc1, hc2⟩ := hsucc chosen s0 outputs hok.path position
    rw [hl] at hc1
    obtain ⟨c, f, f1, f2, f3, f4, f5⟩ := fixed_find_partial hb hs.refinements hw s.minQuality candidates (search.schedule d position candidates)
      (hv d position candidates)
    have hff := find_found hw f1
    have hfind : findBeamRefinements better sorts cfg search d position old s.minQuality = .ok (c, f) := by
      unfold findBeamRefinements
      rw [ho, ok_bind, hok.represents.subspace, hc1, ok_bind]
      exact f1
    have hunf : refineEntry ops better sorts cfg search d (decide (0 < cfg.maxHeadRefinements ∧ cfg.maxHeadRefinements ≤ d + 1)) s (old, position) =
        if f = true then addRefinements ops sorts cfg (decide (0 < cfg.maxHeadRefinements ∧ cfg.maxHeadRefinements ≤ d + 1)) old c.order s
        else keepEntry better sorts cfg old s := by
      unfold refineEntry
      simp only
      cases hh : old.refinement.outputs with
      | null => exact absurd hh hn
      | all => simp only [hfind, ok_bind]; cases f <;> rfl
      | head => simp only [hfind, ok_bind]; cases f <;> rfl
      | dangling => simp only [hfind, ok_bind]; cases f <;> rfl
    rw [hunf]
    cases hf : f with
    | false =>
      rw [if_neg (by simp)]
      refine hkeep (fun hr _ => ⟨outputs, candidates, ho, by rw [hok.represents.subspace]; exact hc1, ?_⟩)
      intro x hx
      cases hbx : better x.quality q0 with
      | false => rfl
      | true =>
        obtain ⟨y, hy, _⟩ := f5 x hx (by rw [(h.exhausted hr).1]; exact hbx)
        have hne : c.order ≠ [] := by
          intro hn
          rw [hn] at hy
          cases hy
        rw [hff.2 hne] at hf
        cases hf
    | true =>
      rw [if_pos rfl]
      have hne := hff.1 hf
      obtain ⟨s', k1, k2, k3, k4, k5⟩ := addRefinements_ok (ops := ops) (keep := decide (0 < cfg.maxHeadRefinements ∧ cfg.maxHeadRefinements ≤ d + 1))
        (old := old) hs.entries hw hne h.inv (by
          intro x hx s0 h0
          obtain ⟨x1, x2⟩ := f4 x hx
          rw [hok.represents.subspace] at h0
          have hxP : P x.quality := hP _ _ h.inv.minQuality x2
          obtain ⟨s1, hs1⟩ := hc2 x x1 hxP s0 h0
          obtain ⟨e, e1, e2, e3, e4⟩ := refinedEntry_ok hok hn hmax hc1 x1 hxP h0 hs1
          exact ⟨e, e1, e4, by rw [e2]; exact hxP, e2, e3⟩)
      have hg := h.grows
      have hlo := h.inv.length
      have hgroup : ∀ g, List.Forall₂ (fun (x : Scored (Found Cond H) Q) (c : Entry σ Cond H Q) => c.quality = x.quality ∧ Child ops old c) c.order g →
          g ≠ [] ∧ Sorted better g ∧ ∀ e ∈ g, Child ops old e := by
        intro g hg
        refine ⟨?_, ?_, ?_⟩
        · intro hgn
          rw [hgn] at hg
          cases hco : c.order with
          | nil => exact hne hco
          | cons x l => rw [hco] at hg; cases hg
        · have : ∀ (l : List (Scored (Found Cond H) Q)) (g : List (Entry σ Cond H Q)),
              List.Forall₂ (fun (x : Scored (Found Cond H) Q) (c : Entry σ Cond H Q) => c.quality = x.quality ∧ Child ops old c) l g → Sorted better l →
              Sorted better g := by
            intro l g hlg
            induction hlg with
            | nil => intro _; exact List.Pairwise.nil
            | @cons x c l g hxc hlg ih =>
              intro hsl
              obtain ⟨p1, p2⟩ := List.pairwise_cons.1 hsl
              refine List.pairwise_cons.2 ⟨?_, ih p2⟩
              intro e he
              obtain ⟨i, hi, rfl⟩ := List.mem_iff_getElem.1 he
              have hil : i < l.length := by rw [hlg.length_eq]; exact hi
              have := hlg.get hil hi
              simp only [List.get_eq_getElem] at this
              rw [this.1, hxc.1]
              exact p1 _ (List.getElem_mem hil)
          exact this _ _ hg f2
        · intro e he
          obtain ⟨i, hi, rfl⟩ := List.mem_iff_getElem.1 he
          have := hg.get (by rw [hg.length_eq]; exact hi) hi
          exact this.2
      refine ⟨s', k1, k2, ?_, ?_, ?_, ?_, ?_⟩
      · rw [List.length_append, List.length_singleton]
        rcases k5 with ⟨g, g1, _, g3⟩ | ⟨g1, _, _⟩
        · have := List.length_pos_of_ne_nil (hgroup g g3).1
          rw [g1, List.length_append]
          omega
        · omega
      · rcases k5 with ⟨g, g1, g2, g3⟩ | ⟨g1, g2, _⟩
        · rcases h.order with ⟨h1, h2⟩ | ⟨groups, h1, h2, h3⟩
          · have hl' := k2.length
            have := List.length_pos_of_ne_nil (hgroup g g3).1
            rw [g1, List.length_append] at hl'
            omega
          · right
            refine ⟨groups ++ [g], List.rel_append h1 (List.Forall₂.cons (Or.inl (hgroup g g3)) List.Forall₂.nil), ?_, by rw [g2, h3]⟩
            rw [g1, h2]
            simp
        · exact Or.inl ⟨g1, g2⟩
      · exact fun _ => ⟨old, by simp, hn⟩
      · intro hr
        rw [k3] at hr
        cases hr
      · intro hr
        rw [k3] at hr
        cases hr

/-- The properties of a beam. -/
structure BeamOk (ops : SubspaceOps σ Cond) (cfg : BeamConfig) (search : BeamSearch σ Cond H Q) (P : Q → Prop) (d : Nat) (order : List (Entry σ Cond H Q)) : Prop where
  nonempty : order ≠ []
  length : order.length ≤ cfg.width
  entries : ∀ e ∈ order, EntryOk.Some ops cfg search P d e ∧ P e.quality

theorem refine_ok (hb : StrictWeak better) (hs : sorts.Spec better) (hv : search.Valid) (hw : 1 ≤ cfg.width) {P : Q → Prop}
    (hsucc : Succeeds ops cfg.toGrowConfig search P) {d : Nat} (hmax : cfg.maxConditions ≠ 0 → d < cfg.maxConditions) (hP : Upward better P) {order : List (Entry σ Cond H Q)}
    (h : BeamOk ops cfg search P d order) {worst : Entry σ Cond H Q} (hworst : order.getLast? = some worst) :
    ∃ s, refine ops better sorts cfg search d (decide (0 < cfg.maxHeadRefinements ∧ cfg.maxHeadRefinements ≤ d + 1)) order = .ok (s.order, s.result) ∧
      StepInv ops better cfg search d (EntryOk.Some ops cfg search P (d + 1)) P worst.quality order s := by
  have main : ∀ (todo done : List (Entry σ Cond H Q)) (s : RefineState σ Cond H Q), order = done ++ todo →
      StepInv ops better cfg search d (EntryOk.Some ops cfg search P (d + 1)) P worst.quality done s →
      ∃ s', (todo.zipIdx done.length).foldlM
          (refineEntry ops better sorts cfg search d (decide (0 < cfg.maxHeadRefinements ∧ cfg.maxHeadRefinements ≤ d + 1))) s = .ok s' ∧
        StepInv ops better cfg search d (EntryOk.Some ops cfg search P (d + 1)) P worst.quality order s' := by
    intro todo
    induction todo with
    | nil =>
      intro done s ho hi
      rw [List.append_nil] at ho
      exact ⟨s, rfl, by rw [ho]; exact hi⟩
    | cons e todo ih =>
      intro done s ho hi
      have hl := h.length
      rw [ho, List.length_append, List.length_cons] at hl
      obtain ⟨he1, he2⟩ := h.entries e (by rw [ho]; simp)
      obtain ⟨s1, a1, a2⟩ := refineEntry_step hb hs hv hw hsucc hmax hP hi (old := e) (by omega) he1 he2
      obtain ⟨s2, b1, b2⟩ := ih (done ++ [e]) s1 (by rw [ho]; simp) a2
      refine ⟨s2, ?_, b2⟩
      rw [List.zipIdx_cons, List.foldlM_cons, a1, ok_bind]
      rw [List.length_append, List.length_singleton] at b1
      exact b1
  obtain ⟨s, h1, h2⟩ := main order [] ⟨[], worst.quality, false⟩ (by simp) ⟨⟨by simp, by simp, (h.entries worst (List.mem_of_getLast? hworst)).2⟩, by simp,
    Or.inr ⟨[], List.Forall₂.nil, rfl, rfl⟩, by simp, by simp, by simp⟩
  refine ⟨s, ?_, h2⟩
  unfold refine
  rw [hworst]
  simp only
  rw [List.length_nil] at h1
  rw [h1, ok_bind]
  rfl

end

end MLRL.Beam
