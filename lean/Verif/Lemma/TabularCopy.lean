import Verif.Props.Tabular

/-!
# Copies of the subspaces of a tabular feature space

A copy of a subspace does not contain the vectors that have been filtered before. Each refinement that is found in the original can also be
found in the copy.
-/

namespace MLRL.Tabular

open FeatureSpace Search

/-- What is required of the comparison of floats: it is symmetric, and numbers between two equal ones are equal, too. -/
structure EqualityOk (isEqual : Rat → Rat → Bool) : Prop where
  symm : ∀ a b, isEqual a b = isEqual b a
  convex : ∀ a b c d, a ≤ b → b ≤ c → c ≤ d → isEqual a d = true → isEqual b c = true

section
variable {M : Type} [AddCommGroup M]

theorem scanForward_none {cfg : Search.Config M} {sv : Rat} {V : Rat → Prop} (hV : ∀ a b, V a → V b → cfg.isEqual a b = true) :
    ∀ (l : List (Nat × Rat)) (i : Nat) (s : NumState M), (∀ x ∈ l, V x.2) → V s.previousValue →
      (scanForward cfg sv i l s).2.candidates = s.candidates := by
  intro l
  induction l with
  | nil => intro i s _ _; rfl
  | cons x l ih =>
    obtain ⟨e, x⟩ := x
    intro i s hl hs
    have hx : V x := hl (e, x) (by simp)
    have hl' : ∀ y ∈ l, V y.2 := fun y hy => hl y (List.mem_cons_of_mem _ hy)
    rw [scanForward]
    split
    · split
      · simp only [hV _ _ hs hx, if_true, List.append_nil]
        rw [ih _ _ hl' (by exact hx)]
      · rw [ih _ _ hl' (by exact hx)]
    · rfl

theorem scanBackward_none {cfg : Search.Config M} {first num : Nat} {V : Rat → Prop} (hV : ∀ a b, V a → V b → cfg.isEqual a b = true) :
    ∀ (l : List (Nat × Rat)) (k : Nat) (s : NumState M), (∀ x ∈ l, V x.2) → V s.previousValue →
      (scanBackward cfg first num k l s).candidates = s.candidates := by
  intro l
  induction l with
  | nil => intro k s _ _; rfl
  | cons x l ih =>
    obtain ⟨e, x⟩ := x
    intro k s hl hs
    have hx : V x := hl (e, x) (by simp)
    have hl' : ∀ y ∈ l, V y.2 := fun y hy => hl y (List.mem_cons_of_mem _ hy)
    rw [scanBackward]
    split
    · split
      · simp only [hV _ _ hs hx, if_true, List.append_nil]
        rw [ih _ _ hl' (by exact hx)]
      · rw [ih _ _ hl' (by exact hx)]
    · rfl

theorem findFirst_none {cfg : Search.Config M} {sv : Rat} {V : Rat → Prop} :
    ∀ (l : List (Nat × Rat)) (i : Nat) (s : NumState M), (∀ x ∈ l, V x.2) →
      (findFirst cfg sv i l s).2.2.candidates = s.candidates ∧ (∀ x ∈ (findFirst cfg sv i l s).2.1, V x.2) ∧
        ((findFirst cfg sv i l s).2.2 = s ∨ V (findFirst cfg sv i l s).2.2.previousValue) := by
  intro l
  induction l with
  | nil => intro i s h; exact ⟨rfl, h, Or.inl rfl⟩
  | cons x l ih =>
    obtain ⟨e, x⟩ := x
    intro i s hl
    have hl' : ∀ y ∈ l, V y.2 := fun y hy => hl y (List.mem_cons_of_mem _ hy)
    rw [findFirst]
    split
    · split
      · exact ⟨rfl, hl', Or.inr (hl (e, x) (by simp))⟩
      · exact ih _ _ hl'
    · exact ⟨rfl, hl, Or.inl rfl⟩

theorem findLast_none {cfg : Search.Config M} {V : Rat → Prop} :
    ∀ (l : List (Nat × Rat)) (k : Nat) (s : NumState M), (∀ x ∈ l, V x.2) →
      (findLast cfg k l s).2.2.candidates = s.candidates ∧ (∀ x ∈ (findLast cfg k l s).2.1, V x.2) ∧
        ((findLast cfg k l s).2.2 = s ∨ V (findLast cfg k l s).2.2.previousValue) := by
  intro l
  induction l with
  | nil => intro i s h; exact ⟨rfl, h, Or.inl rfl⟩
  | cons x l ih =>
    obtain ⟨e, x⟩ := x
    intro i s hl
    have hl' : ∀ y ∈ l, V y.2 := fun y hy => hl y (List.mem_cons_of_mem _ hy)
    rw [findLast]
    split
    · exact ⟨rfl, hl', Or.inr (hl (e, x) (by simp))⟩
    · exact ih _ _ hl'

theorem forwardPhase_none {cfg : Search.Config M} {E : List (Nat × Rat)} {sv : Rat} {subset : Subset M} {V : Rat → Prop}
    (hV : ∀ a b, V a → V b → cfg.isEqual a b = true) (hE : ∀ x ∈ E, V x.2) : (forwardPhase cfg E sv subset).2.candidates = [] := by
  obtain ⟨h1, h2, h3⟩ := findFirst_none (cfg := cfg) (sv := sv) E 0 { subset := subset, numCovered := 0, previousValue := sv, candidates := [] } hE
  unfold forwardPhase
  simp only
  split
  · rename_i hn
    simp only
    rw [scanForward_none hV _ _ _ h2 ?_, h1]
    refine h3.resolve_left (fun h => ?_)
    rw [h] at hn
    simp at hn
  · exact h1

theorem backwardPhase_none {cfg : Search.Config M} {E : List (Nat × Rat)} {first : Nat} {s : NumState M} {V : Rat → Prop}
    (hV : ∀ a b, V a → V b → cfg.isEqual a b = true) (hE : ∀ x ∈ E, V x.2) : (backwardPhase cfg E first s).candidates = [] := by
  obtain ⟨h1, h2, h3⟩ := findLast_none (cfg := cfg) (V := V) (E.drop first).reverse E.length { s with numCovered := 0, candidates := [] }
    (fun x hx => hE x (List.mem_of_mem_drop (List.mem_reverse.1 hx)))
  unfold backwardPhase
  simp only
  split
  · rename_i hn
    rw [scanBackward_none hV _ _ _ h2 ?_, h1]
    refine h3.resolve_left (fun h => ?_)
    rw [h] at hn
    simp at hn
  · exact h1

/-- If all values are equal, no refinements are found. -/
theorem searchNumerical_none {cfg : Search.Config M} {E : List (Nat × Rat)} {sv : Rat} {subset : Subset M} {r : NumResult M}
    (hsort : SortedEntries E) (hEq : ∀ x, cfg.isEqual x x = true) (hU : Start cfg (numericalExamples E sv []) subset)
    (sign : (∀ p ∈ E, p.2 < sv) ∨ (∀ p ∈ E, sv ≤ p.2)) (hall : ∀ x ∈ E, ∀ y ∈ E, cfg.isEqual x.2 y.2 = true)
    (hr : searchNumerical cfg E sv false subset = .ok r) : r.all = [] := by
  have hne : E ≠ [] := (numerical_succeeds_iff (sparse := false) hU hsort hEq).1 ⟨r, hr⟩
  unfold searchNumerical at hr
  rw [if_neg hne] at hr
  simp only at hr
  obtain ⟨A, B, _, h2⟩ := forwardPhase_spec hU hsort hEq
  have hnone : ¬ ((forwardPhase cfg E sv subset).2.numCovered > 0 ∧ (forwardPhase cfg E sv subset).2.numCovered < cfg.numExamples) := by
    rw [h2.numCovered]
    rcases sign with hs | hs
    · have hB : B = [] := by
        rw [List.eq_nil_iff_forall_not_mem]
        intro p hp
        have h3 := h2.geq p hp
        have h4 := hs p (by rw [h2.split]; exact List.mem_append_right _ hp)
        exact absurd h3 (not_le.2 h4)
      have h5 := hU.numExamples
      rw [show numericalExamples E sv [] = E by simp [numericalExamples], h2.split, hB, List.append_nil] at h5
      omega
    · have hA : A = [] := by
        rw [List.eq_nil_iff_forall_not_mem]
        intro p hp
        have h3 := h2.less p hp
        have h4 := hs p (by rw [h2.split]; exact List.mem_append_left _ hp)
        exact absurd h4 (not_le.2 h3)
      rw [hA]
      simp [weighted]
  unfold accumulatedPhase at hr
  rw [if_neg hnone] at hr
  cases hr
  have hV : ∀ a b, (∃ x ∈ E, x.2 = a) → (∃ x ∈ E, x.2 = b) → cfg.isEqual a b = true := by
    rintro a b ⟨x, hx, rfl⟩ ⟨y, hy, rfl⟩
    exact hall x hx y hy
  have hE : ∀ x ∈ E, ∃ y ∈ E, y.2 = x.2 := fun x hx => ⟨x, hx, rfl⟩
  simp only [NumResult.all]
  rw [forwardPhase_none hV hE, backwardPhase_none hV hE]
  simp

end

/-- All values in a sorted list are equal if the first and the last one are. -/
theorem all_equal {isEqual : Rat → Rat → Bool} (heq : EqualityOk isEqual) {x : Nat × Rat} {xs : List (Nat × Rat)} (hsort : SortedEntries (x :: xs))
    (h : isEqual x.2 ((x :: xs).getLast (by simp)).2 = true) : ∀ a ∈ x :: xs, ∀ b ∈ x :: xs, isEqual a.2 b.2 = true := by
  have hfirst : ∀ a ∈ x :: xs, x.2 ≤ a.2 := by
    intro a ha
    rcases List.mem_cons.1 ha with rfl | ha
    · exact le_refl _
    · exact (List.pairwise_cons.1 hsort).1 a ha
  have hlast : ∀ a ∈ x :: xs, a.2 ≤ ((x :: xs).getLast (by simp)).2 := by
    intro a ha
    have h1 := List.dropLast_append_getLast (l := x :: xs) (by simp)
    rw [← h1] at ha
    rcases List.mem_append.1 ha with ha | ha
    · have h2 : SortedEntries ((x :: xs).dropLast ++ [(x :: xs).getLast (by simp)]) := by rw [h1]; exact hsort
      exact (List.pairwise_append.1 h2).2.2 a ha _ (by simp)
    · rw [List.mem_singleton.1 ha]
  intro a ha b hb
  rcases le_total a.2 b.2 with hab | hab
  · exact heq.convex _ _ _ _ (hfirst a ha) hab (hlast b hb) h
  · rw [heq.symm]
    exact heq.convex _ _ _ _ (hfirst b hb) hab (hlast a ha) h

variable {env : Env} {n : Nat} {values : Nat → Nat → Option Rat}

theorem copy_represents {s : Subspace Unit} {conds : List (Nat → Bool)} (hs : Represents env n s conds) : Represents env n s.copy conds := by
  obtain ⟨fresh, hist⟩ := hs.history
  exact ⟨⟨fresh, hist.copy⟩, hs.numCovered⟩

theorem copy_covers (s : Subspace Unit) (e : Nat) : covers s.copy e = covers s e := rfl

theorem invoke_copy_filtered {s : Subspace Unit} (hmod : s.numModifications > 0) (f : Nat) :
    s.copy.invoke env.space f = (do
      let v ← (env.space.column f).filterMask env.space.isEqual s.mask
      return (v, { s.copy with
        cache := upd s.copy.cache f (some { vector := some v, numConditions := s.numModifications })
        loaded := upd s.loaded f true })) := by
  unfold Subspace.invoke
  exact if_pos hmod

theorem invoke_copy_unfiltered {s : Subspace Unit} (hmod : ¬ s.numModifications > 0) (f : Nat) :
    s.copy.invoke env.space f = .ok (env.space.column f, { s.copy with
        cache := upd s.copy.cache f (some { vector := none, numConditions := 0 })
        loaded := upd s.loaded f true }) := by
  unfold Subspace.invoke
  exact if_neg hmod

/-- Each refinement that is found in a subspace is also found in a copy of this subspace. -/
theorem searchFeature_copy {M : Type} [AddCommGroup M] (hok : env.Ok n values) (heq : EqualityOk env.space.isEqual) {s : Subspace Unit}
    {conds : List (Nat → Bool)} (hs : Represents env n s conds) {f : Nat} {stat : Nat → M} (hz : ∀ e, env.nonZero e = false → stat e = 0)
    {r : List (Search.Candidate M)} (hr : searchFeature env f s stat = .ok r) {c : Search.Candidate M} (hc : c ∈ r) :
    searchFeature env f s.copy stat = .ok r := by
  obtain ⟨fresh, hist⟩ := hs.history
  obtain ⟨v, s1, h1, _, _⟩ := filter_succeeds hok.wellFormed hist f
  obtain ⟨v', s1', h1', _, _⟩ := filter_succeeds hok.wellFormed hist.copy f
  unfold searchFeature at hr ⊢
  rw [h1, ok_bind] at hr
  rw [h1', ok_bind]
  simp only at hr ⊢
  have hv : v ≠ .equal := by
    rintro rfl
    cases hr
    cases hc
  have hsame := (invoke_sameEntries hok.wellFormed hist h1).resolve_left hv
  have hm : ∀ {v : FeatureVector}, (∀ e ∈ v.missing, e ∈ (env.space.column f).missing) → v.missing = [] := by
    intro v h4
    rw [(hok.column f).missing] at h4
    exact List.eq_nil_iff_forall_not_mem.2 (fun e he => by cases h4 e he)
  have hmv := hm (invoke_missing hok.wellFormed hist h1 hv).2.1
  have hfilled := (invoke_filled (history_filled (fun f => (hok.column f).filled) hist) (hok.column f).filled h1).1
  have hsize : 0 < v.size := hfilled.resolve_left hv
  suffices hvv : v' = v by rw [hvv]; exact hr
  by_cases hv' : v' = .equal
  · exfalso
    subst hv'
    have hmarks := (hist.inv hok.wellFormed).marks
    rw [hok.numExamples] at hmarks
    have hcol := hok.column f
    by_cases hmod : s.numModifications > 0
    · rw [invoke_copy_filtered hmod] at h1'
      cases hcase : env.space.column f with
      | equal => rw [hcase] at hsame; cases v <;> exact hsame.elim
      | numerical E sv sp m =>
        rw [hcase] at h1' hsame hcol
        cases hcol with
        | numerical _ sorted nodup covered vals sign =>
          cases v with
          | equal => exact hv rfl
          | nominal => exact hsame.elim
          | numerical E' sv' sp' m' =>
            obtain ⟨h2, rfl, rfl⟩ := hsame
            simp only [FeatureVector.missing] at hmv
            subst hmv
            have h3 := filterCovered_spec hmarks Prod.fst E (fun x hx => (covered x.1).1 (List.mem_map_of_mem hx))
            rw [← h2] at h3
            have hsort : SortedEntries E' := by rw [h2]; exact List.Pairwise.sublist List.filter_sublist sorted
            cases E' with
            | nil => simp [FeatureVector.size] at hsize
            | cons x xs =>
              simp only [FeatureVector.filterMask, filterCovered, h3, ok_bind, pure_eq_ok] at h1'
              by_cases heq' : env.space.isEqual x.2 ((x :: xs).getLast (by simp)).2 = true
              · have hall := all_equal heq hsort heq'
                have hstart := start_of (M := M) hok hs
                  (numerical_searchable (nonZero := env.nonZero) sorted nodup covered vals sign h2 (by simp)) hz
                simp only [searchVector] at hr
                cases hn : searchNumerical (searchConfig env s stat) (x :: xs) sv' false
                    ⟨0, none, searchTotal env s (.numerical (x :: xs) sv' false []) stat⟩ with
                | error e => rw [hn] at hr; cases hr
                | ok r' =>
                  rw [hn] at hr
                  cases hr
                  have hsub : ∀ p ∈ x :: xs, p ∈ E := fun p hp => by rw [h2] at hp; exact (List.mem_filter.1 hp).1
                  have hnil := searchNumerical_none hsort hok.isEqual hstart
                    (sign.imp (fun h p hp => h p (hsub p hp)) (fun h p hp => h p (hsub p hp))) hall hn
                  rw [hnil] at hc
                  cases hc
              · simp only [Bool.false_eq_true, if_false, heq', ok_bind] at h1'
                cases h1'
      | nominal k B mv m =>
        rw [hcase] at h1' hsame hcol
        cases hcol with
        | nominal _ bin _ _ vals _ _ _ =>
          cases v with
          | equal => exact hv rfl
          | numerical => exact hsame.elim
          | nominal k' B' mv' m' =>
            obtain ⟨rfl, h2, rfl⟩ := hsame
            have h3 := filterBins_spec hmarks B (fun b hb e he => (vals b hb e he).1)
            rw [← h2] at h3
            simp only [FeatureVector.filterMask, filterCovered, h3, ok_bind, pure_eq_ok] at h1'
            have hpos : (B'.flatMap Prod.snd).length > 0 := by
              cases hB : B' with
              | nil => rw [hB] at hsize; simp [FeatureVector.size] at hsize
              | cons b bs =>
                have hb : b ∈ restrictBins (satisfiesAll conds) B := by rw [← h2, hB]; simp
                have hb2 := (List.mem_filter.1 hb).2
                rw [List.flatMap_cons, List.length_append]
                have : b.2.length ≠ 0 := by
                  intro h0
                  rw [List.length_eq_zero_iff.1 h0] at hb2
                  simp at hb2
                omega
            rw [if_pos hpos] at h1'
            cases h1'
    · rw [invoke_copy_unfiltered hmod] at h1'
      injection h1' with h1'
      injection h1' with h1' _
      rw [h1'] at hsame
      cases v <;> exact hsame.elim
  · have hsame' := (invoke_sameEntries hok.wellFormed hist.copy h1').resolve_left hv'
    have hmv' := hm (invoke_missing hok.wellFormed hist.copy h1' hv').2.1
    cases hcase : env.space.column f with
    | equal => rw [hcase] at hsame; cases v <;> exact hsame.elim
    | numerical E sv sp m =>
      rw [hcase] at hsame hsame'
      cases v with
      | equal => exact hsame.elim
      | nominal => exact hsame.elim
      | numerical =>
        cases v' with
        | equal => exact hsame'.elim
        | nominal => exact hsame'.elim
        | numerical =>
          obtain ⟨a1, a2, a3⟩ := hsame
          obtain ⟨b1, b2, b3⟩ := hsame'
          simp only [FeatureVector.missing] at hmv hmv'
          rw [a1, a2, a3, b1, b2, b3, hmv, hmv']
    | nominal k B mv m =>
      rw [hcase] at hsame hsame'
      cases v with
      | equal => exact hsame.elim
      | numerical => exact hsame.elim
      | nominal =>
        cases v' with
        | equal => exact hsame'.elim
        | numerical => exact hsame'.elim
        | nominal =>
          obtain ⟨a1, a2, a3⟩ := hsame
          obtain ⟨b1, b2, b3⟩ := hsame'
          simp only [FeatureVector.missing] at hmv hmv'
          rw [a1, a2, a3, b1, b2, b3, hmv, hmv']

/-- A condition that has been found in a subspace can be added to a copy of this subspace. -/
theorem candidate_adds_copy {M : Type} [AddCommGroup M] (hok : env.Ok n values) (heq : EqualityOk env.space.isEqual) {s : Subspace Unit}
    (hs : Reachable env n s) {f : Nat} {stat : Nat → M} (hz : ∀ e, env.nonZero e = false → stat e = 0) {r : List (Search.Candidate M)}
    (hr : searchFeature env f s stat = .ok r) {c : Search.Candidate M} (hc : c ∈ r) :
    ∃ s', Adds env n values s.copy (Boosting.conditionOf f c) s' := by
  obtain ⟨conds, hs⟩ := hs
  exact candidate_adds hok ⟨conds, copy_represents hs⟩ hz (searchFeature_copy hok heq hs hz hr hc) hc

end MLRL.Tabular
