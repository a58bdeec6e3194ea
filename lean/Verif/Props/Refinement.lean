import Verif.Lemma.Refinement
import Mathlib.Data.List.Sort
import Mathlib.Data.Rat.Defs
import Mathlib.Algebra.Order.Ring.Unbundled.Rat

/-!
# C24, C25: selection of refinements by comparators and by several threads
-/

namespace MLRL.Refinement

set_option linter.unusedSectionVars false

section
variable {C X : Type} {ops : ComparatorOps C X}

/-- **C24**: for any kind of comparator and any schedule of the threads, the result is the same as if the features were searched one
after the other. -/
theorem findRefinement_schedule_independent (candidates : List (List X)) (trace : List (Nat × X)) (ht : Interleaving candidates trace)
    (c : C) (r : C × Bool) (hr : findRefinementSequentially ops candidates c = .ok r) :
    findRefinement ops candidates.length trace c = .ok r := by
  unfold findRefinementSequentially at hr
  unfold findRefinement
  cases he : candidates.mapM (fun l => l.foldlM ops.consider (ops.copy c)) with
  | error e => rw [he] at hr; cases hr
  | ok entries =>
    rw [he, ok_bind] at hr
    obtain ⟨h1, h2⟩ := mapM_ok he
    have : execTrace ops trace (List.replicate candidates.length (ops.copy c)) = .ok entries := by
      apply execTrace_spec
      · simp [h1]
      · simpa using ht.1
      · intro i c1 c2 hi hi'
        have hlt : i < candidates.length := by
          have := (List.getElem?_eq_some_iff.1 hi).1
          simpa using this
        obtain ⟨b, hb1, hb2⟩ := h2 i _ (List.getElem?_eq_getElem hlt)
        rw [hb1, Option.some.injEq] at hi'
        subst hi'
        rw [List.getElem?_replicate, if_pos hlt, Option.some.injEq] at hi
        subst hi
        rw [ht.2 i _ (List.getElem?_eq_getElem hlt)]
        exact hb2
    rw [this, ok_bind, hr]

end

section
variable {A Q : Type} {better : Q → Q → Bool}

theorem mapM_single (candidates : List (List (Scored A Q))) (s : Single A Q) :
    candidates.mapM (fun l => l.foldlM (singleOps better).consider ((singleOps better).copy s)) =
      .ok (candidates.map (fun l => l.foldl (Single.consider better) s.copy)) := by
  have hfold : ∀ (l : List (Scored A Q)) (s : Single A Q),
      l.foldlM (singleOps better).consider s = .ok (l.foldl (Single.consider better) s) := by
    intro l
    induction l with
    | nil => intro s; rfl
    | cons x l ih =>
      intro s
      rw [List.foldlM_cons, List.foldl_cons]
      simp only [singleOps, ok_bind]
      exact ih _
  induction candidates with
  | nil => rfl
  | cons l ls ih =>
    rw [List.mapM_cons, hfold, ok_bind, ih, ok_bind]
    rfl

/-- **C24**: whatever the schedule, the search for the best refinement selects the first one of best quality (in the order of features,
and in the order in which the candidates of a feature are considered), provided it is better than the best one so far; otherwise
nothing changes and it is reported that there is none. No null pointer is dereferenced. -/
theorem findRefinement_first_best (h : StrictWeak better) (candidates : List (List (Scored A Q))) (trace : List (Nat × Scored A Q))
    (ht : Interleaving candidates trace) (s : Single A Q) :
    ((∀ x ∈ candidates.flatten, better x.quality s.quality = false) ∧
      findRefinement (singleOps better) candidates.length trace s = .ok (s, false)) ∨
    ∃ x, FirstBest better candidates.flatten x ∧ better x.quality s.quality = true ∧
      findRefinement (singleOps better) candidates.length trace s = .ok (⟨some x, x.quality⟩, true) := by
  obtain ⟨c, f, h1, h2⟩ := single_mergeAll h (s := s) (c := s) candidates (D := []) (found := false) (Or.inl ⟨by simp, rfl, rfl⟩)
  have hseq : findRefinementSequentially (singleOps better) candidates s = .ok (c, f) := by
    unfold findRefinementSequentially
    rw [mapM_single, ok_bind, h1]
  have hpar := findRefinement_schedule_independent candidates trace ht s (c, f) hseq
  rw [List.nil_append] at h2
  rcases h2 with ⟨g1, rfl, rfl⟩ | ⟨x, rfl, rfl, g3, g4⟩
  · exact Or.inl ⟨g1, hpar⟩
  · exact Or.inr ⟨x, g4, g3, hpar⟩

/-- **C25**, what holds of it: whatever candidates are considered by a comparator for `k` refinements, the refinements it holds are
sorted from best to worst, they are at most `k`, they are the best ones among all candidates (i.e., none of the others is better than any
of them), and there is at least one of them if any candidate is better than the minimum quality. Missing is that `k` refinements are held
if there are that many, see `fixed_holds_too_few`. -/
theorem fixed_holds_best_partial (h : StrictWeak better) {sort : List (Scored A Q) → List (Scored A Q)} (hsort : SortSpec better sort)
    {k : Nat} (hk : 1 ≤ k) (q0 : Q) (candidates : List (Scored A Q)) :
    ∃ s, candidates.foldlM (Fixed.consider better sort k) (Fixed.new q0) = .ok s ∧ Sorted better s.order ∧ s.order.length ≤ k ∧
      Best better candidates s.order ∧ (∀ x ∈ s.order, better x.quality q0 = true) ∧
      (s.order = [] ↔ ∀ x ∈ candidates, better x.quality q0 = false) := by
  obtain ⟨s, h1, h2, ⟨d, d1, d2, d3⟩, _, h5⟩ := fixed_fold h hsort hk candidates (new_ok k q0) (bestInv_self _)
  have d1' : (s.order ++ d).Perm candidates := by simpa [Fixed.new] using d1
  refine ⟨s, h1, h2.sorted, h2.length, ⟨d, d1', d2⟩, h2.improve, fun he => (h5 he).2, fun hall => ?_⟩
  cases ho : s.order with
  | nil => rfl
  | cons x l =>
    have hx : x ∈ s.order := by rw [ho]; exact List.mem_cons_self
    have := h2.improve x hx
    rw [hall x (d1'.subset (List.mem_append_left _ hx))] at this
    cases this

/-- **C25** in the case in which the comparator already holds `k` refinements: afterwards, it holds the `k` best ones among these and
all candidates. -/
theorem fixed_full_holds_k_best (h : StrictWeak better) {sort : List (Scored A Q) → List (Scored A Q)} (hsort : SortSpec better sort)
    {k : Nat} (hk : 1 ≤ k) {q0 : Q} {s : Fixed A Q} (hs : s.Ok better k q0) (hfull : s.order.length = k)
    (candidates : List (Scored A Q)) :
    ∃ s', candidates.foldlM (Fixed.consider better sort k) s = .ok s' ∧ Sorted better s'.order ∧ s'.order.length = k ∧
      Best better (s.order ++ candidates) s'.order := by
  obtain ⟨s', h1, h2, ⟨d, d1, d2, d3⟩, h4, _⟩ := fixed_fold h hsort hk candidates hs (bestInv_self s)
  exact ⟨s', h1, h2.sorted, Nat.le_antisymm h2.length (by omega), d, d1, d2⟩

/-- Part of **C25**: merging two comparators, the best refinements that are held by any of them are kept, as many as possible. -/
theorem fixed_merge_best (h : StrictWeak better) (k : Nat) (s o : Fixed A Q) (hs : Sorted better s.order) (ho : Sorted better o.order) :
    ∃ s' f, Fixed.merge better k s o = .ok (s', f) ∧ Sorted better s'.order ∧ Best better (s.order ++ o.order) s'.order ∧
      s'.order.length = min k (s.order.length + o.order.length) := by
  obtain ⟨h1, h2, h3⟩ := mergeLoop_spec h k s.order o.order hs ho
  cases hw : (mergeLoop better k s.order o.order).1.getLast? with
  | none => exact ⟨_, _, by simp only [Fixed.merge, hw, pure_eq_ok]; rfl, h1, h2, h3⟩
  | some w => exact ⟨_, _, by simp only [Fixed.merge, hw, pure_eq_ok]; rfl, h1, h2, h3⟩

/-- The comparator holds some of the candidates, among them one of best quality in the first place. -/
structure HeadBest (better : Q → Q → Bool) (k : Nat) (q0 : Q) (all : List (Scored A Q)) (s : Fixed A Q) : Prop where
  ok : s.Ok better k q0
  mem : ∀ x ∈ s.order, x ∈ all
  head : ∀ y ∈ all, better y.quality q0 = true → ∃ x, s.order.head? = some x ∧ better y.quality x.quality = false

theorem sorted_head (h : StrictWeak better) {x : Scored A Q} {l : List (Scored A Q)} (hs : Sorted better l) (hx : l.head? = some x) :
    ∀ y ∈ l, better y.quality x.quality = false := by
  cases l with
  | nil => cases hx
  | cons z l =>
    simp only [List.head?_cons, Option.some.injEq] at hx
    subst hx
    intro y hy
    rcases List.mem_cons.1 hy with rfl | hy
    · exact h.irrefl _
    · exact (List.pairwise_cons.1 hs).1 y hy

theorem headBest_merge (h : StrictWeak better) {k : Nat} (hk : 1 ≤ k) {q0 : Q} {D l : List (Scored A Q)} {s e : Fixed A Q}
    (hs : HeadBest better k q0 D s) (he : HeadBest better k q0 l e) :
    ∃ s' f, Fixed.merge better k s e = .ok (s', f) ∧ HeadBest better k q0 (D ++ l) s' := by
  obtain ⟨h1, ⟨d, d1, d2⟩, h3⟩ := mergeLoop_spec h k s.order e.order hs.ok.sorted he.ok.sorted
  have hmem : ∀ x ∈ (mergeLoop better k s.order e.order).1, x ∈ s.order ∨ x ∈ e.order := fun x hx =>
    List.mem_append.1 (d1.subset (List.mem_append_left _ hx))
  obtain ⟨s', f, hm, ho, hq⟩ : ∃ s' f, Fixed.merge better k s e = .ok (s', f) ∧
      s'.order = (mergeLoop better k s.order e.order).1 ∧ s'.minQuality = match s'.order.getLast? with
        | some w => w.quality
        | none => q0 := by
    cases hw : (mergeLoop better k s.order e.order).1.getLast? with
    | none =>
      refine ⟨_, _, by simp only [Fixed.merge, hw, pure_eq_ok]; rfl, rfl, ?_⟩
      simp only [hw]
      have hnil := List.getLast?_eq_none_iff.1 hw
      rw [hnil] at h3
      have hsn : s.order = [] := by
        rw [← List.length_eq_zero_iff]
        simp only [List.length_nil] at h3
        omega
      have := hs.ok.minQuality
      rw [hsn] at this
      exact this
    | some w => exact ⟨_, _, by simp only [Fixed.merge, hw, pure_eq_ok]; rfl, rfl, by simp only [hw]⟩
  have hhead : ∀ z, z ∈ s.order ∨ z ∈ e.order → ∃ x, s'.order.head? = some x ∧ better z.quality x.quality = false := by
    intro z hz
    have hz' : z ∈ s.order ++ e.order := List.mem_append.2 hz
    cases hx : s'.order.head? with
    | none =>
      rw [List.head?_eq_none_iff] at hx
      rw [← ho, hx] at h3
      have : 1 ≤ (s.order ++ e.order).length := List.length_pos_of_mem hz'
      simp only [List.length_append, List.length_nil] at this h3
      omega
    | some x =>
      refine ⟨x, rfl, ?_⟩
      rw [ho] at hx
      rcases List.mem_append.1 (d1.symm.subset hz') with hz2 | hz2
      · exact sorted_head h h1 hx z hz2
      · exact d2 x (List.mem_of_head? hx) z hz2
  refine ⟨s', f, hm, ⟨by rw [ho]; exact h1, by rw [ho, h3]; omega, ?_, hq⟩, ?_, ?_⟩
  · intro x hx
    rw [ho] at hx
    rcases hmem x hx with hx | hx
    · exact hs.ok.improve x hx
    · exact he.ok.improve x hx
  · intro x hx
    rw [ho] at hx
    rcases hmem x hx with hx | hx
    · exact List.mem_append_left _ (hs.mem x hx)
    · exact List.mem_append_right _ (he.mem x hx)
  · intro y hy hyq
    rcases List.mem_append.1 hy with hy | hy
    · obtain ⟨x, hx1, hx2⟩ := hs.head y hy hyq
      obtain ⟨z, hz1, hz2⟩ := hhead x (Or.inl (List.mem_of_head? hx1))
      exact ⟨z, hz1, h.not_trans hx2 hz2⟩
    · obtain ⟨x, hx1, hx2⟩ := he.head y hy hyq
      obtain ⟨z, hz1, hz2⟩ := hhead x (Or.inr (List.mem_of_head? hx1))
      exact ⟨z, hz1, h.not_trans hx2 hz2⟩

theorem headBest_fold (h : StrictWeak better) {sort : List (Scored A Q) → List (Scored A Q)} (hsort : SortSpec better sort)
    {k : Nat} (hk : 1 ≤ k) (q0 : Q) (l : List (Scored A Q)) :
    ∃ e, l.foldlM (Fixed.consider better sort k) (Fixed.new q0) = .ok e ∧ HeadBest better k q0 l e := by
  obtain ⟨s, h1, h2, ⟨d, d1, d2, d3⟩, _, h5⟩ := fixed_fold h hsort hk l (new_ok k q0) (bestInv_self _)
  have d1' : (s.order ++ d).Perm l := by simpa [Fixed.new] using d1
  refine ⟨s, h1, h2, fun x hx => d1'.subset (List.mem_append_left _ hx), fun y hy hyq => ?_⟩
  cases hx : s.order.head? with
  | none =>
    rw [List.head?_eq_none_iff] at hx
    rw [(h5 hx).2 y hy] at hyq
    cases hyq
  | some x =>
    refine ⟨x, rfl, ?_⟩
    rcases List.mem_append.1 (d1'.symm.subset hy) with hy2 | hy2
    · exact sorted_head h h2.sorted hx y hy2
    · exact d2 x (List.mem_of_head? hx) y hy2

/-- **C25**, what holds of it if several features are searched, by any schedule: the refinements are candidates better than the minimum
quality, sorted from best to worst, at most `k`, and no candidate is better than the first one. Missing is that they are the best ones,
see `fixed_merge_drops_better`. -/
theorem fixed_find_partial (h : StrictWeak better) {sort : List (Scored A Q) → List (Scored A Q)} (hsort : SortSpec better sort)
    {k : Nat} (hk : 1 ≤ k) (q0 : Q) (candidates : List (List (Scored A Q))) (trace : List (Nat × Scored A Q))
    (ht : Interleaving candidates trace) :
    ∃ s f, findRefinement (fixedOps better sort k) candidates.length trace (Fixed.new q0) = .ok (s, f) ∧
      Sorted better s.order ∧ s.order.length ≤ k ∧ (∀ x ∈ s.order, x ∈ candidates.flatten ∧ better x.quality q0 = true) ∧
      ∀ y ∈ candidates.flatten, better y.quality q0 = true → ∃ x, s.order.head? = some x ∧ better y.quality x.quality = false := by
  have hmap : ∃ entries : List (Fixed A Q), candidates.mapM (fun l => l.foldlM (Fixed.consider better sort k) (Fixed.new q0)) =
      .ok entries ∧ List.Forall₂ (HeadBest better k q0) candidates entries := by
    clear ht
    induction candidates with
    | nil => exact ⟨[], rfl, List.Forall₂.nil⟩
    | cons l ls ih =>
      obtain ⟨es, h1, h2⟩ := ih
      obtain ⟨e, g1, g2⟩ := headBest_fold h hsort hk q0 l
      refine ⟨e :: es, ?_, List.Forall₂.cons g2 h2⟩
      rw [List.mapM_cons, g1, ok_bind, h1, ok_bind]
      rfl
  obtain ⟨entries, h1, h2⟩ := hmap
  have hall : ∀ (ls : List (List (Scored A Q))) (es : List (Fixed A Q)), List.Forall₂ (HeadBest better k q0) ls es →
      ∀ (D : List (Scored A Q)) (s : Fixed A Q) (found : Bool), HeadBest better k q0 D s →
      ∃ s' f, mergeAll (fixedOps better sort k) es s found = .ok (s', f) ∧ HeadBest better k q0 (D ++ ls.flatten) s' := by
    intro ls es hf
    induction hf with
    | nil => intro D s found hs; exact ⟨s, found, rfl, by simpa using hs⟩
    | cons hle _ ih =>
      intro D s found hs
      obtain ⟨s1, f1, m1, m2⟩ := headBest_merge h hk hs hle
      obtain ⟨s2, f2, m3, m4⟩ := ih _ s1 (found || f1) m2
      refine ⟨s2, f2, ?_, by simpa [List.append_assoc] using m4⟩
      simp only [mergeAll]
      have : (fixedOps better sort k).merge s _ = .ok (s1, f1) := m1
      rw [this, ok_bind]
      exact m3
  obtain ⟨s, f, m1, m2⟩ := hall candidates entries h2 [] (Fixed.new q0) false
    ⟨new_ok k q0, by simp [Fixed.new], by simp⟩
  have hseq : findRefinementSequentially (fixedOps better sort k) candidates (Fixed.new q0) = .ok (s, f) := by
    unfold findRefinementSequentially
    have : candidates.mapM (fun l => l.foldlM (fixedOps better sort k).consider ((fixedOps better sort k).copy (Fixed.new q0))) =
        .ok entries := h1
    rw [this, ok_bind, m1]
  rw [List.nil_append] at m2
  exact ⟨s, f, findRefinement_schedule_independent candidates trace ht _ _ hseq, m2.ok.sorted, m2.ok.length,
    fun x hx => ⟨m2.mem x hx, m2.ok.improve x hx⟩, m2.head⟩

end

/-! ### Examples and negations -/

/-- `compareBoostedRuleQuality`, rule_compare_function.hpp:18-20 of the boosting library. -/
def boosted (a b : Rat) : Bool := decide (a < b)

theorem boosted_strictWeak : StrictWeak boosted where
  irrefl a := by simp [boosted]
  trans a b c := by
    simp only [boosted, decide_eq_true_eq]
    exact lt_trans
  comparable a b c := by
    simp only [boosted, decide_eq_true_eq]
    intro h
    rcases lt_or_ge a b with h1 | h1
    · exact Or.inl h1
    · exact Or.inr (lt_of_le_of_lt h1 h)

/-- A stable sort, as an instance of what is required of `std::sort`. -/
def stableSort (l : List (Scored Nat Rat)) : List (Scored Nat Rat) :=
  l.insertionSort (fun a b => a.quality ≤ b.quality)

theorem stableSort_spec : SortSpec boosted stableSort where
  perm l := List.perm_insertionSort _ l
  sorted l := by
    have h : (stableSort l).Pairwise (fun a b => a.quality ≤ b.quality) :=
      @List.pairwise_insertionSort _ (fun a b : Scored Nat Rat => a.quality ≤ b.quality) _
        ⟨fun a b => le_total a.quality b.quality⟩ ⟨fun _ _ _ => le_trans⟩ l
    exact h.imp (fun hab => by simpa [boosted] using hab)

/-- Two features, whose steps are interleaved: the first one of the two best refinements is selected. -/
example : Interleaving [[⟨0, -1⟩, ⟨1, -3⟩], [⟨2, -2⟩, ⟨3, -3⟩]]
      [(1, (⟨2, -2⟩ : Scored Nat Rat)), (0, ⟨0, -1⟩), (1, ⟨3, -3⟩), (0, ⟨1, -3⟩)] ∧
    findRefinement (singleOps boosted) 2 [(1, (⟨2, -2⟩ : Scored Nat Rat)), (0, ⟨0, -1⟩), (1, ⟨3, -3⟩), (0, ⟨1, -3⟩)]
      (Single.new 0) = .ok (⟨some ⟨1, -3⟩, -3⟩, true) := by
  refine ⟨⟨by decide, ?_⟩, by decide +kernel⟩
  intro i l hi
  rcases i with _ | _ | i
  · cases hi; decide
  · cases hi; decide
  · cases hi

/-- Negation of **C25**: a comparator for two refinements holds only one of two candidates, although both are better than the minimum
quality, because the first one replaces the minimum quality. -/
theorem fixed_holds_too_few :
    [⟨0, -2⟩, ⟨1, -1⟩].foldlM (Fixed.consider boosted stableSort 2) (Fixed.new (0 : Rat)) =
      .ok ⟨[⟨0, -2⟩], -2⟩ := by decide +kernel

/-- If the candidates are considered in the opposite order, both of them are held. -/
example : [⟨1, -1⟩, ⟨0, -2⟩].foldlM (Fixed.consider boosted stableSort 2) (Fixed.new (0 : Rat)) =
    .ok ⟨[⟨0, -2⟩, ⟨1, -1⟩], -1⟩ := by decide +kernel

/-- Negation of **C25**: if two features are searched, a refinement with quality -1 is held, but none with quality -2, although one has
been considered. -/
theorem fixed_merge_drops_better :
    findRefinementSequentially (fixedOps boosted stableSort 2) [[⟨0, -1⟩], [⟨1, -3⟩, ⟨2, -2⟩]] (Fixed.new (0 : Rat)) =
      .ok (⟨[⟨1, -3⟩, ⟨0, -1⟩], -1⟩, true) := by decide +kernel

/-- Among refinements of the same quality the comparator for several refinements prefers later features, unlike the one for a single
refinement. -/
theorem fixed_merge_prefers_later :
    findRefinementSequentially (fixedOps boosted stableSort 1) [[⟨0, -1⟩], [⟨1, -1⟩]] (Fixed.new (0 : Rat)) =
      .ok (⟨[⟨1, -1⟩], -1⟩, true) ∧
    findRefinementSequentially (singleOps boosted) [[⟨0, -1⟩], [⟨1, -1⟩]] (Single.new (0 : Rat)) =
      .ok (⟨some ⟨0, -1⟩, -1⟩, true) := by decide +kernel

/-- A comparator for zero refinements accesses the last element of an empty vector. -/
theorem fixed_zero_faults :
    [⟨0, -1⟩].foldlM (Fixed.consider boosted stableSort 0) (Fixed.new (0 : Rat)) = .error .outOfBounds := by decide +kernel

/-- A comparator that meets the hypotheses of `fixed_full_holds_k_best`. -/
example : Fixed.Ok boosted 2 0 (⟨[⟨0, -2⟩, ⟨1, -1⟩], -1⟩ : Fixed Nat Rat) :=
  ⟨by simp only [Sorted]; decide +kernel, by decide, by decide +kernel, rfl⟩

end MLRL.Refinement
