import Verif.Spec.Search
import Verif.Lemma.RuleList
import Mathlib.Data.List.Nodup
import Mathlib.Data.List.Perm.Basic
import Mathlib.Algebra.BigOperators.Group.List.Lemmas
import Mathlib.Tactic.Abel
import Mathlib.Tactic.Linarith
import Mathlib.Algebra.Order.Field.Rat

/-! # Lemmas about the search for refinements -/

namespace MLRL.Search
open FeatureSpace
open RuleList (sub32_of_le)

set_option linter.unusedSectionVars false

variable {M : Type} [AddCommGroup M]

theorem weighted_append (w : Nat → Bool) (a b : List (Nat × Rat)) : weighted w (a ++ b) = weighted w a ++ weighted w b := by
  simp [weighted]

theorem weightedSum_append (w : Nat → Bool) (st : Nat → M) (a b : List (Nat × Rat)) :
    weightedSum w st (a ++ b) = weightedSum w st a + weightedSum w st b := by
  simp [weightedSum, weighted_append]

theorem weighted_perm {w : Nat → Bool} {a b : List (Nat × Rat)} (h : a.Perm b) : (weighted w a).Perm (weighted w b) :=
  (h.map _).filter _

theorem weightedSum_perm {w : Nat → Bool} {st : Nat → M} {a b : List (Nat × Rat)} (h : a.Perm b) :
    weightedSum w st a = weightedSum w st b := ((weighted_perm h).map _).sum_eq

theorem filter_split {U S C : List (Nat × Rat)} {p : Rat → Bool} (h : U.Perm (S ++ C)) (hS : ∀ x ∈ S, p x.2 = true)
    (hC : ∀ x ∈ C, p x.2 = false) : (U.filter (fun x => p x.2)).Perm S := by
  have h1 := h.filter (fun x => p x.2)
  rw [List.filter_append] at h1
  have h2 : S.filter (fun x => p x.2) = S := List.filter_eq_self.2 hS
  have h3 : C.filter (fun x => p x.2) = [] := List.filter_eq_nil_iff.2 (fun x hx => by simp [hC x hx])
  rw [h2, h3, List.append_nil] at h1
  exact h1

theorem mem_of_split {U S C : List (Nat × Rat)} (h : U.Perm (S ++ C)) (hn : (U.map Prod.fst).Nodup) :
    (∀ x ∈ S, x.1 ∈ S.map Prod.fst) ∧ ∀ x ∈ C, x.1 ∉ S.map Prod.fst := by
  refine ⟨fun x hx => List.mem_map_of_mem hx, fun x hx hm => ?_⟩
  have h1 := (h.map Prod.fst).nodup_iff.1 hn
  rw [List.map_append, List.nodup_append] at h1
  exact h1.2.2 _ hm _ (List.mem_map_of_mem hx) rfl

/-- A pair of candidates is sound if the examples are split into a part that satisfies the first condition only and a part that
satisfies the second condition only. -/
theorem proposeBoth_sound {cfg : Config M} {U S C : List (Nat × Rat)} {slice : Nat → Nat → List Nat} {subset : Subset M}
    (hU : Start cfg U subset) (h : U.Perm (S ++ C)) {start stop n : Nat} {c c' : Comparator} {t : Rat} {m total : M}
    (hslice : slice start stop = S.map Prod.fst) (hS : ∀ x ∈ S, c.holds t x.2 = true) (hC : ∀ x ∈ C, c.holds t x.2 = false)
    (hS' : ∀ x ∈ S, c'.holds t x.2 = false) (hC' : ∀ x ∈ C, c'.holds t x.2 = true)
    (hn : n = (weighted cfg.nonZero S).length) (hm : m = weightedSum cfg.nonZero cfg.stat S) (ht : total = subset.total) :
    ∀ x ∈ proposeBoth cfg start stop n c c' t m total, Sound cfg U slice x := by
  have hmem := mem_of_split h hU.nodup
  have hN : cfg.numExamples = (weighted cfg.nonZero S).length + (weighted cfg.nonZero C).length := by
    rw [hU.numExamples, (weighted_perm h).length_eq, weighted_append, List.length_append]
  intro x hx
  unfold proposeBoth at hx
  rcases List.mem_append.1 hx with hx | hx
  · unfold propose at hx
    split at hx
    · rename_i hge
      rw [List.mem_singleton] at hx
      subst hx
      have hp := filter_split (p := c.holds t) h hS hC
      refine ⟨hge, ?_, ?_, ?_⟩
      · rw [hn]; exact ((weighted_perm hp).length_eq).symm
      · rw [hm]; exact (weightedSum_perm hp).symm
      · intro y hy
        simp only [hslice]
        rcases List.mem_append.1 (h.mem_iff.1 hy) with hy | hy
        · simp only [hS y hy, true_iff]
          simpa using hmem.1 y hy
        · simp only [hC y hy]
          simpa using hmem.2 y hy
    · simp at hx
  · unfold propose at hx
    split at hx
    · rename_i hge
      rw [List.mem_singleton] at hx
      subst hx
      have h' : U.Perm (C ++ S) := h.trans List.perm_append_comm
      have hp := filter_split (p := c'.holds t) h' hC' hS'
      have hsub : sub32 cfg.numExamples n = (weighted cfg.nonZero C).length := by
        rw [sub32_of_le (by omega) hU.size]; omega
      refine ⟨hge, ?_, ?_, ?_⟩
      · simp only [hsub]
        exact ((weighted_perm hp).length_eq).symm
      · simp only
        rw [ht, hU.total, weightedSum_perm h, weightedSum_append, hm, add_sub_cancel_left]
        exact (weightedSum_perm hp).symm
      · intro y hy
        simp only [hslice]
        rcases List.mem_append.1 (h.mem_iff.1 hy) with hy | hy
        · simp only [hS' y hy]
          simpa using hmem.1 y hy
        · simp only [hC' y hy, true_iff]
          simpa using hmem.2 y hy
    · simp at hx

/-! ### Numerical features -/

theorem mean_lt {a b : Rat} (h : a < b) : a ≤ mean a b ∧ mean a b < b := by
  unfold mean; constructor <;> linarith

/-- The state of the search after the elements `P` have been added. -/
structure Scanned (cfg : Config M) (P : List (Nat × Rat)) (s : NumState M) : Prop where
  numCovered : s.numCovered = (weighted cfg.nonZero P).length
  sum : s.subset.sum = weightedSum cfg.nonZero cfg.stat P

theorem Scanned.add {cfg : Config M} {P : List (Nat × Rat)} {s : NumState M} (h : Scanned cfg P s) {e : Nat} {x : Rat}
    (hw : cfg.nonZero e = true) {Q : List (Nat × Rat)} (hQ : Q.Perm (P ++ [(e, x)])) (pv : Rat) (cs : List (Candidate M)) :
    Scanned cfg Q
      { subset := s.subset.add cfg.stat e, numCovered := s.numCovered + 1, previousValue := pv, candidates := cs } := by
  constructor
  · rw [(weighted_perm hQ).length_eq, weighted_append, h.numCovered]
    simp [weighted, hw]
  · rw [weightedSum_perm hQ, weightedSum_append]
    simp [Subset.add, h.sum, weightedSum, weighted, hw]

theorem Scanned.skip {cfg : Config M} {P : List (Nat × Rat)} {s : NumState M} (h : Scanned cfg P s) {e : Nat} {x : Rat}
    (hw : cfg.nonZero e = false) {Q : List (Nat × Rat)} (hQ : Q.Perm (P ++ [(e, x)])) (pv : Rat) :
    Scanned cfg Q { s with previousValue := pv } := by
  constructor
  · rw [(weighted_perm hQ).length_eq, weighted_append, h.numCovered]
    simp [weighted, hw]
  · rw [weightedSum_perm hQ, weightedSum_append]
    simp [h.sum, weightedSum, weighted, hw]

/-- All values are less than the sparse value. -/
def AllLess (sv : Rat) (P : List (Nat × Rat)) : Prop := ∀ x ∈ P, x.2 < sv

/-- Either nothing has been found and the list has been traversed as long as the values are less than the sparse value, or an example
has been found. -/
theorem findFirst_spec {cfg : Config M} {sv : Rat} (l : List (Nat × Rat)) :
    ∀ (P : List (Nat × Rat)) (s : NumState M), Scanned cfg P s → s.numCovered = 0 → AllLess sv P →
      let r := findFirst cfg sv P.length l s
      r.2.2.subset.total = s.subset.total ∧ r.2.2.subset.acc = s.subset.acc ∧ r.2.2.candidates = s.candidates ∧
      ((r.2.2 = s ∧ ∃ Q, P ++ l = Q ++ r.2.1 ∧ r.1 = Q.length ∧ AllLess sv Q ∧ (∀ x, r.2.1.head? = some x → sv ≤ x.2) ∧
          Scanned cfg Q s) ∨
        (∃ Q e x, P ++ l = Q ++ (e, x) :: r.2.1 ∧ r.1 = Q.length ∧ AllLess sv (Q ++ [(e, x)]) ∧
          Scanned cfg (Q ++ [(e, x)]) r.2.2 ∧ r.2.2.previousValue = x ∧ 0 < r.2.2.numCovered)) := by
  induction l with
  | nil =>
    intro P s hP h0 hless
    simp only [findFirst]
    exact ⟨trivial, trivial, trivial, Or.inl ⟨trivial, P, rfl, rfl, hless, by simp, hP⟩⟩
  | cons a l ih =>
    obtain ⟨e, x⟩ := a
    intro P s hP h0 hless
    simp only [findFirst]
    by_cases hx : x < sv
    · rw [if_pos hx]
      have hless' : AllLess sv (P ++ [(e, x)]) := by
        intro y hy
        rcases List.mem_append.1 hy with hy | hy
        · exact hless y hy
        · rw [List.mem_singleton] at hy; subst hy; exact hx
      by_cases hw : cfg.nonZero e = true
      · rw [if_pos hw]
        refine ⟨rfl, rfl, rfl, Or.inr ⟨P, e, x, rfl, rfl, hless', hP.add hw (List.Perm.refl _) _ _, rfl, ?_⟩⟩
        exact Nat.succ_pos _
      · rw [if_neg hw]
        have h1 : Scanned cfg (P ++ [(e, x)]) s := by
          have := hP.skip (x := x) (by simpa using hw) (List.Perm.refl _) s.previousValue
          exact this
        have := ih (P ++ [(e, x)]) s h1 h0 hless'
        simpa using this
    · rw [if_neg hx]
      exact ⟨rfl, rfl, rfl, Or.inl ⟨rfl, P, rfl, rfl, hless, by intro y hy; simp at hy; subst hy; exact not_lt.1 hx, hP⟩⟩

theorem entrySlice_prefix (P l : List (Nat × Rat)) : entrySlice (P ++ l) 0 P.length = P.map Prod.fst := by
  simp [entrySlice]

theorem entrySlice_suffix (A l : List (Nat × Rat)) : entrySlice (A ++ l) A.length (A ++ l).length = l.map Prod.fst := by
  simp [entrySlice]

theorem sorted_split {P l : List (Nat × Rat)} (h : SortedEntries (P ++ l)) : ∀ x ∈ P, ∀ y ∈ l, x.2 ≤ y.2 :=
  (List.pairwise_append.1 h).2.2

/-- Soundness of the forward scan. -/
theorem scanForward_spec {cfg : Config M} {sv : Rat} {remaining : List Nat} {entries : List (Nat × Rat)} {subset : Subset M}
    (hU : Start cfg (numericalExamples entries sv remaining) subset) (hsort : SortedEntries entries)
    (hEq : ∀ a, cfg.isEqual a a = true) (l : List (Nat × Rat)) :
    ∀ (P : List (Nat × Rat)) (e : Nat) (s : NumState M), entries = P ++ (e, s.previousValue) :: l →
      Scanned cfg (P ++ [(e, s.previousValue)]) s → AllLess sv (P ++ [(e, s.previousValue)]) → s.subset.total = subset.total →
      (∀ c ∈ s.candidates, Sound cfg (numericalExamples entries sv remaining) (entrySlice entries) c) →
      let r := scanForward cfg sv (P.length + 1) l s
      r.2.subset.total = subset.total ∧ r.2.subset.acc = s.subset.acc ∧
      (∀ c ∈ r.2.candidates, Sound cfg (numericalExamples entries sv remaining) (entrySlice entries) c) ∧
      ∃ Q e' l', entries = Q ++ (e', r.2.previousValue) :: l' ∧ r.1 = Q.length + 1 ∧ AllLess sv (Q ++ [(e', r.2.previousValue)]) ∧
        Scanned cfg (Q ++ [(e', r.2.previousValue)]) r.2 ∧ (∀ x ∈ l', sv ≤ x.2) ∧ s.numCovered ≤ r.2.numCovered := by
  induction l with
  | nil =>
    intro P e s hent hP hless htot hsound
    simp only [scanForward]
    exact ⟨htot, trivial, hsound, P, e, [], hent, rfl, hless, hP, by simp, le_refl _⟩
  | cons a l ih =>
    obtain ⟨e', x⟩ := a
    intro P e s hent hP hless htot hsound
    simp only [scanForward]
    have hent' : entries = (P ++ [(e, s.previousValue)]) ++ (e', x) :: l := by rw [hent]; simp
    have hlen : (P ++ [(e, s.previousValue)]).length = P.length + 1 := by simp
    by_cases hx : x < sv
    · rw [if_pos hx]
      have hless' : AllLess sv ((P ++ [(e, s.previousValue)]) ++ [(e', x)]) := by
        intro y hy
        rcases List.mem_append.1 hy with hy | hy
        · exact hless y hy
        · rw [List.mem_singleton] at hy; subst hy; exact hx
      by_cases hw : cfg.nonZero e' = true
      · rw [if_pos hw]
        have hnew : ∀ c ∈ (if cfg.isEqual s.previousValue x then [] else
            proposeBoth cfg 0 (P.length + 1) s.numCovered .numericalLeq .numericalGr (mean s.previousValue x) s.subset.sum
              s.subset.total), Sound cfg (numericalExamples entries sv remaining) (entrySlice entries) c := by
          intro c hc
          split at hc
          · simp at hc
          · rename_i hne
            have hle : s.previousValue ≤ x := by
              rw [hent'] at hsort
              exact sorted_split hsort (e, s.previousValue) (by simp) (e', x) (by simp)
            have hlt : s.previousValue < x := lt_of_le_of_ne hle (fun h => hne (by rw [← h]; exact hEq _))
            obtain ⟨hm1, hm2⟩ := mean_lt hlt
            have hPle : ∀ y ∈ P ++ [(e, s.previousValue)], y.2 ≤ s.previousValue := by
              intro y hy
              rcases List.mem_append.1 hy with hy | hy
              · rw [hent] at hsort
                exact sorted_split hsort y hy (e, s.previousValue) (by simp)
              · rw [List.mem_singleton] at hy; subst hy; exact le_refl _
            have hCge : ∀ y ∈ (e', x) :: l ++ remaining.map (fun e => (e, sv)), x ≤ y.2 := by
              intro y hy
              rcases List.mem_append.1 hy with hy | hy
              · rcases List.mem_cons.1 hy with hy | hy
                · subst hy; exact le_refl _
                · rw [hent'] at hsort
                  have := (List.pairwise_append.1 hsort).2.1
                  exact (List.pairwise_cons.1 this).1 y hy
              · obtain ⟨z, _, hz⟩ := List.mem_map.1 hy
                subst hz
                exact le_of_lt hx
            refine proposeBoth_sound (subset := subset) hU (S := P ++ [(e, s.previousValue)])
              (C := (e', x) :: l ++ remaining.map (fun e => (e, sv))) ?_ ?_ ?_ ?_ ?_ ?_ hP.numCovered hP.sum htot c hc
            · unfold numericalExamples
              nth_rewrite 1 [hent']
              rw [List.append_assoc]
            · rw [hent', ← hlen]; exact entrySlice_prefix _ _
            · intro y hy
              simp only [Comparator.holds, decide_eq_true_eq]
              exact le_trans (hPle y hy) hm1
            · intro y hy
              simp only [Comparator.holds, decide_eq_false_iff_not, not_le]
              exact lt_of_lt_of_le hm2 (hCge y hy)
            · intro y hy
              simp only [Comparator.holds, decide_eq_false_iff_not, not_lt]
              exact le_trans (hPle y hy) hm1
            · intro y hy
              simp only [Comparator.holds, decide_eq_true_eq]
              exact lt_of_lt_of_le hm2 (hCge y hy)
        have := ih (P ++ [(e, s.previousValue)]) e'
          { subset := s.subset.add cfg.stat e', numCovered := s.numCovered + 1, previousValue := x,
            candidates := s.candidates ++ (if cfg.isEqual s.previousValue x then [] else
              proposeBoth cfg 0 (P.length + 1) s.numCovered .numericalLeq .numericalGr (mean s.previousValue x) s.subset.sum
                s.subset.total) }
          (by simpa using hent') (hP.add hw (List.Perm.refl _) _ _) hless' htot
          (by intro c hc; rcases List.mem_append.1 hc with hc | hc; exacts [hsound c hc, hnew c hc])
        rw [hlen] at this
        obtain ⟨h1, h2, h3, Q, e2, l', h4, h5, h6, h7, h8, h9⟩ := this
        exact ⟨h1, h2, h3, Q, e2, l', h4, h5, h6, h7, h8, le_trans (Nat.le_succ _) h9⟩
      · rw [if_neg hw]
        have := ih (P ++ [(e, s.previousValue)]) e' { s with previousValue := x }
          (by simpa using hent') (hP.skip (by simpa using hw) (List.Perm.refl _) _) hless' htot hsound
        rw [hlen] at this
        exact this
    · rw [if_neg hx]
      refine ⟨htot, rfl, hsound, P, e, (e', x) :: l, hent, rfl, hless, hP, ?_, le_refl _⟩
      intro y hy
      rcases List.mem_cons.1 hy with hy | hy
      · subst hy; exact not_lt.1 hx
      · rw [hent'] at hsort
        have := (List.pairwise_append.1 hsort).2.1
        exact le_trans (not_lt.1 hx) ((List.pairwise_cons.1 this).1 y hy)

/-- The state after the first two loops. -/
structure ForwardDone (cfg : Config M) (U entries : List (Nat × Rat)) (sv : Rat) (subset : Subset M) (A B : List (Nat × Rat))
    (s : NumState M) : Prop where
  split : entries = A ++ B
  less : AllLess sv A
  geq : ∀ x ∈ B, sv ≤ x.2
  numCovered : s.numCovered = (weighted cfg.nonZero A).length
  sum : s.subset.sum = 0
  total : s.subset.total = subset.total
  candidates : ∀ c ∈ s.candidates, Sound cfg U (entrySlice entries) c
  none : s.numCovered = 0 → s.subset.acc = none ∧ s.previousValue = sv
  some : 0 < s.numCovered → s.subset.acc = some (weightedSum cfg.nonZero cfg.stat A) ∧
    ∃ A' e, A = A' ++ [(e, s.previousValue)]

theorem forwardPhase_spec {cfg : Config M} {sv : Rat} {remaining : List Nat} {entries : List (Nat × Rat)} {subset : Subset M}
    (hU : Start cfg (numericalExamples entries sv remaining) subset) (hsort : SortedEntries entries)
    (hEq : ∀ a, cfg.isEqual a a = true) :
    ∃ A B, (forwardPhase cfg entries sv subset).1 = A.length ∧
      ForwardDone cfg (numericalExamples entries sv remaining) entries sv subset A B (forwardPhase cfg entries sv subset).2 := by
  unfold forwardPhase
  simp only
  have h0 : Scanned cfg ([] : List (Nat × Rat))
      { subset := subset, numCovered := 0, previousValue := sv, candidates := [] } :=
    ⟨by simp [weighted], by simp [weightedSum, weighted, hU.sum]⟩
  have h := findFirst_spec (cfg := cfg) (sv := sv) entries [] _ h0 rfl (by intro x hx; simp at hx)
  simp only [List.length_nil, List.nil_append] at h
  obtain ⟨h1, h2, h3, h4⟩ := h
  rcases h4 with ⟨h4, Q, h5, h6, h7, h8, h9⟩ | ⟨Q, e, x, h5, h6, h7, h8, h9, h10⟩
  · have hz : (findFirst cfg sv 0 entries
        { subset := subset, numCovered := 0, previousValue := sv, candidates := [] }).2.2.numCovered = 0 := by rw [h4]
    rw [if_neg (by omega)]
    refine ⟨Q, _, h6, h5, h7, ?_, ?_, ?_, h1, ?_, ?_, ?_⟩
    · intro x hx
      cases hl : (findFirst cfg sv 0 entries
        { subset := subset, numCovered := 0, previousValue := sv, candidates := [] }).2.1 with
      | nil => rw [hl] at hx; simp at hx
      | cons y ys =>
        rw [hl] at hx h8
        have hy := h8 y rfl
        rcases List.mem_cons.1 hx with hx | hx
        · subst hx; exact hy
        · rw [h5, hl] at hsort
          exact le_trans hy ((List.pairwise_cons.1 (List.pairwise_append.1 hsort).2.1).1 x hx)
    · rw [h4]; exact h9.numCovered
    · rw [h4]; exact hU.sum
    · rw [h3]; simp
    · intro _; rw [h4]; exact ⟨hU.acc, rfl⟩
    · intro hp; simp only at hp; omega
  · rw [if_pos h10]
    have hx : (findFirst cfg sv 0 entries
        { subset := subset, numCovered := 0, previousValue := sv, candidates := [] }).2.2.previousValue = x := h9
    generalize hr : findFirst cfg sv 0 entries
        { subset := subset, numCovered := 0, previousValue := sv, candidates := [] } = r at *
    subst hx
    have := scanForward_spec hU hsort hEq r.2.1 Q e r.2.2 h5 h8 h7 h1 (by rw [h3]; simp)
    rw [← h6] at this
    obtain ⟨g1, g2, g3, Q', e', l', g4, g5, g6, g7, g8, g9⟩ := this
    refine ⟨Q' ++ [(e', (scanForward cfg sv (r.1 + 1) r.2.1 r.2.2).2.previousValue)], l', ?_, ?_, g6, g8, g7.numCovered, rfl, g1, g3,
      ?_, ?_⟩
    · rw [g5]; simp
    · nth_rewrite 1 [g4]; simp
    · intro hz; simp only at hz; omega
    · intro _
      refine ⟨?_, Q', e', rfl⟩
      simp only [Subset.reset, g2, h2, hU.acc]
      rw [g7.sum]

/-- The backward search for an example with non-zero weight. -/
theorem findLast_spec {cfg : Config M} {A : List (Nat × Rat)} (L : List (Nat × Rat)) :
    ∀ (R : List (Nat × Rat)) (s : NumState M), Scanned cfg R s → s.numCovered = 0 →
      let r := findLast cfg (A.length + L.length) L s
      r.2.2.subset.total = s.subset.total ∧ r.2.2.subset.acc = s.subset.acc ∧ r.2.2.candidates = s.candidates ∧
      ((r.2.2 = s ∧ Scanned cfg (L.reverse ++ R) s) ∨
        (∃ L' e x R', L.reverse ++ R = L'.reverse ++ (e, x) :: R' ∧ r.1 = A.length + L'.length + 1 ∧ r.2.1 = L' ∧
          Scanned cfg ((e, x) :: R') r.2.2 ∧ r.2.2.previousValue = x ∧ 0 < r.2.2.numCovered ∧ cfg.nonZero e = true ∧
          weighted cfg.nonZero R' = [])) := by
  induction L with
  | nil =>
    intro R s hR h0
    simp only [findLast]
    exact ⟨trivial, trivial, trivial, Or.inl ⟨trivial, hR⟩⟩
  | cons a L ih =>
    obtain ⟨e, x⟩ := a
    intro R s hR h0
    simp only [findLast]
    have hperm : ((e, x) :: R).Perm (R ++ [(e, x)]) := (List.perm_append_singleton (e, x) R).symm
    by_cases hw : cfg.nonZero e = true
    · rw [if_pos hw]
      refine ⟨rfl, rfl, rfl, Or.inr ⟨L, e, x, R, by simp, by simp; omega, rfl, hR.add hw hperm _ _, rfl, Nat.succ_pos _, hw, ?_⟩⟩
      have := hR.numCovered
      rw [h0] at this
      exact List.length_eq_zero_iff.1 this.symm
    · rw [if_neg hw]
      have h1 : Scanned cfg ((e, x) :: R) s := hR.skip (by simpa using hw) hperm s.previousValue
      have := ih ((e, x) :: R) s h1 h0
      simpa using this

/-- Soundness of the backward scan. -/
theorem scanBackward_spec {cfg : Config M} {sv : Rat} {remaining : List Nat} {entries A : List (Nat × Rat)} {subset : Subset M}
    (hU : Start cfg (numericalExamples entries sv remaining) subset) (hsort : SortedEntries entries)
    (hEq : ∀ a, cfg.isEqual a a = true) (hless : AllLess sv A) (L : List (Nat × Rat)) :
    ∀ (e : Nat) (R : List (Nat × Rat)) (s : NumState M), entries = A ++ L.reverse ++ (e, s.previousValue) :: R →
      Scanned cfg ((e, s.previousValue) :: R) s → (∀ x ∈ L, sv ≤ x.2) → s.subset.total = subset.total →
      (∀ c ∈ s.candidates, Sound cfg (numericalExamples entries sv remaining) (entrySlice entries) c) →
      let r := scanBackward cfg A.length entries.length (A.length + L.length) L s
      r.subset.total = subset.total ∧ r.subset.acc = s.subset.acc ∧
      (∀ c ∈ r.candidates, Sound cfg (numericalExamples entries sv remaining) (entrySlice entries) c) ∧
      ∃ (L' : List (Nat × Rat)) (e' : Nat) (R' : List (Nat × Rat)), L.reverse ++ (e, s.previousValue) :: R = L'.reverse ++ (e', r.previousValue) :: R' ∧ L'.length = min L.length 1 ∧
        Scanned cfg ((e', r.previousValue) :: R') r ∧ (L = [] → r = s ∧ e' = e ∧ R' = R) := by
  induction L with
  | nil =>
    intro e R s hent hR hge htot hsound
    simp only [scanBackward]
    exact ⟨htot, trivial, hsound, [], e, R, rfl, by simp, hR, by simp⟩
  | cons a L ih =>
    obtain ⟨e', x⟩ := a
    intro e R s hent hR hge htot hsound
    simp only [scanBackward]
    have hk : A.length + ((e', x) :: L).length - 1 = A.length + L.length := by simp only [List.length_cons]; omega
    rw [hk]
    have hent' : entries = A ++ L.reverse ++ (e', x) :: (e, s.previousValue) :: R := by rw [hent]; simp
    have hge' : ∀ y ∈ L, sv ≤ y.2 := fun y hy => hge y (List.mem_cons_of_mem _ hy)
    have hperm : ((e', x) :: (e, s.previousValue) :: R).Perm ((e, s.previousValue) :: R ++ [(e', x)]) :=
      (List.perm_append_singleton _ _).symm
    by_cases hL : A.length + L.length > A.length
    · rw [if_pos hL]
      have hLlen : 0 < L.length := by omega
      by_cases hw : cfg.nonZero e' = true
      · rw [if_pos hw]
        have hnew : ∀ c ∈ (if cfg.isEqual s.previousValue x then [] else
            proposeBoth cfg (A.length + ((e', x) :: L).length) entries.length s.numCovered .numericalGr .numericalLeq
              (mean x s.previousValue) s.subset.sum s.subset.total),
            Sound cfg (numericalExamples entries sv remaining) (entrySlice entries) c := by
          intro c hc
          split at hc
          · simp at hc
          · rename_i hne
            have hle : x ≤ s.previousValue := by
              rw [hent'] at hsort
              exact (List.pairwise_cons.1 (List.pairwise_append.1 hsort).2.1).1 (e, s.previousValue) (by simp)
            have hlt : x < s.previousValue := lt_of_le_of_ne hle (fun h => hne (by rw [← h]; exact hEq _))
            obtain ⟨hm1, hm2⟩ := mean_lt hlt
            have hxge : sv ≤ x := hge (e', x) (by simp)
            have hSge : ∀ y ∈ (e, s.previousValue) :: R, s.previousValue ≤ y.2 := by
              intro y hy
              rcases List.mem_cons.1 hy with hy | hy
              · subst hy; exact le_refl _
              · rw [hent] at hsort
                exact (List.pairwise_cons.1 (List.pairwise_append.1 hsort).2.1).1 y hy
            have hCle : ∀ y ∈ A ++ (((e', x) :: L).reverse ++ remaining.map (fun e => (e, sv))), y.2 ≤ x := by
              intro y hy
              rcases List.mem_append.1 hy with hy | hy
              · exact le_trans (le_of_lt (hless y hy)) hxge
              · rcases List.mem_append.1 hy with hy | hy
                · rw [List.reverse_cons] at hy
                  rcases List.mem_append.1 hy with hy | hy
                  · rw [hent'] at hsort
                    exact sorted_split hsort y (List.mem_append_right _ hy) (e', x) (by simp)
                  · rw [List.mem_singleton] at hy; subst hy; exact le_refl _
                · obtain ⟨z, _, hz⟩ := List.mem_map.1 hy
                  subst hz
                  exact hxge
            refine proposeBoth_sound (subset := subset) hU (S := (e, s.previousValue) :: R)
              (C := A ++ (((e', x) :: L).reverse ++ remaining.map (fun e => (e, sv)))) ?_ ?_ ?_ ?_ ?_ ?_ hR.numCovered hR.sum htot
              c hc
            · unfold numericalExamples
              nth_rewrite 1 [hent]
              generalize ((e', x) :: L).reverse = L0
              generalize (e, s.previousValue) :: R = R0
              generalize remaining.map (fun e => (e, sv)) = R1
              rw [List.append_assoc, List.append_assoc]
              refine (List.Perm.append_left A ?_).trans (?_ : (A ++ (R0 ++ (L0 ++ R1))).Perm _)
              · rw [← List.append_assoc, ← List.append_assoc]
                exact List.perm_append_comm.append_right R1
              · rw [← List.append_assoc, ← List.append_assoc R0]
                exact List.perm_append_comm.append_right _
            · have : A.length + ((e', x) :: L).length = (A ++ ((e', x) :: L).reverse).length := by simp
              rw [this]
              nth_rewrite 2 [hent]
              nth_rewrite 1 [hent]
              exact entrySlice_suffix _ _
            · intro y hy
              simp only [Comparator.holds, decide_eq_true_eq]
              exact lt_of_lt_of_le hm2 (hSge y hy)
            · intro y hy
              simp only [Comparator.holds, decide_eq_false_iff_not, not_lt]
              exact le_trans (hCle y hy) hm1
            · intro y hy
              simp only [Comparator.holds, decide_eq_false_iff_not, not_le]
              exact lt_of_lt_of_le hm2 (hSge y hy)
            · intro y hy
              simp only [Comparator.holds, decide_eq_true_eq]
              exact le_trans (hCle y hy) hm1
        have := ih e' ((e, s.previousValue) :: R)
          { subset := s.subset.add cfg.stat e', numCovered := s.numCovered + 1, previousValue := x,
            candidates := s.candidates ++ (if cfg.isEqual s.previousValue x then [] else
              proposeBoth cfg (A.length + ((e', x) :: L).length) entries.length s.numCovered .numericalGr .numericalLeq
                (mean x s.previousValue) s.subset.sum s.subset.total) }
          hent' (hR.add hw hperm _ _) hge' htot
          (by intro c hc; rcases List.mem_append.1 hc with hc | hc; exacts [hsound c hc, hnew c hc])
        obtain ⟨h1, h2, h3, L', e2, R', h4, h5, h6, _⟩ := this
        refine ⟨h1, h2, h3, L', e2, R', ?_, ?_, h6, by simp⟩
        · rw [← h4]; simp
        · rw [h5]; simp; omega
      · rw [if_neg hw]
        have := ih e' ((e, s.previousValue) :: R) { s with previousValue := x }
          hent' (hR.skip (by simpa using hw) hperm _) hge' htot hsound
        obtain ⟨h1, h2, h3, L', e2, R', h4, h5, h6, _⟩ := this
        refine ⟨h1, h2, h3, L', e2, R', ?_, ?_, h6, by simp⟩
        · rw [← h4]; simp
        · rw [h5]; simp; omega
    · rw [if_neg hL]
      have : L = [] := List.length_eq_zero_iff.1 (by omega)
      subst this
      exact ⟨htot, rfl, hsound, [(e', x)], e, R, rfl, by simp, hR, by simp⟩

/-- The state after the fourth loop: the examples in `B2` have been added, at most one has been left out. -/
structure BackwardDone (cfg : Config M) (U entries : List (Nat × Rat)) (subset : Subset M) (B : List (Nat × Rat))
    (s0 s : NumState M) : Prop where
  total : s.subset.total = subset.total
  acc : s.subset.acc = s0.subset.acc
  candidates : ∀ c ∈ s.candidates, Sound cfg U (entrySlice entries) c
  added : (weighted cfg.nonZero B = [] ∧ Scanned cfg B s ∧ s.previousValue = s0.previousValue) ∨
    ∃ B1 e B2, B = B1 ++ (e, s.previousValue) :: B2 ∧ B1.length ≤ 1 ∧ Scanned cfg ((e, s.previousValue) :: B2) s ∧
      ((cfg.nonZero e = true ∧ weighted cfg.nonZero B2 = [] ∧ B1 = []) ∨ weighted cfg.nonZero (B.drop 1) ≠ [] ∧ B1.length = 1)

theorem backwardPhase_spec {cfg : Config M} {sv : Rat} {remaining : List Nat} {entries A B : List (Nat × Rat)} {subset : Subset M}
    {s : NumState M} (hU : Start cfg (numericalExamples entries sv remaining) subset) (hsort : SortedEntries entries)
    (hEq : ∀ a, cfg.isEqual a a = true)
    (hF : ForwardDone cfg (numericalExamples entries sv remaining) entries sv subset A B s) :
    BackwardDone cfg (numericalExamples entries sv remaining) entries subset B s (backwardPhase cfg entries A.length s) := by
  unfold backwardPhase
  simp only
  have hdrop : entries.drop A.length = B := by rw [hF.split]; simp
  rw [hdrop]
  have h0 : Scanned cfg ([] : List (Nat × Rat)) { s with numCovered := 0, candidates := [] } :=
    ⟨by simp [weighted], by simp [weightedSum, weighted, hF.sum]⟩
  have hlen : entries.length = A.length + B.reverse.length := by rw [hF.split]; simp
  have h := findLast_spec (cfg := cfg) (A := A) B.reverse [] _ h0 rfl
  rw [← hlen] at h
  simp only [List.reverse_reverse, List.append_nil] at h
  generalize hr : findLast cfg entries.length B.reverse { s with numCovered := 0, candidates := [] } = r at *
  obtain ⟨h1, h2, h3, h4⟩ := h
  rcases h4 with ⟨h4, h5⟩ | ⟨L', e, x, R', h4, h5, h6, h7, h8, h9, h10, h11⟩
  · have hz : r.2.2.numCovered = 0 := by rw [h4]
    rw [if_neg (by omega)]
    refine ⟨h1.trans hF.total, h2, by rw [h3]; simp, Or.inl ⟨?_, by rw [h4]; exact h5, by rw [h4]⟩⟩
    have := h5.numCovered
    exact List.length_eq_zero_iff.1 this.symm
  · subst h8
    have hL : ∀ y ∈ L', sv ≤ y.2 := fun y hy => hF.geq y (by rw [h4]; simp [hy])
    have hent : entries = A ++ L'.reverse ++ (e, r.2.2.previousValue) :: R' := by
      rw [hF.split, h4, List.append_assoc]
    have hsb := scanBackward_spec hU hsort hEq hF.less L' e R' r.2.2 hent h7 hL (h1.trans hF.total) (by rw [h3]; simp)
    by_cases hp : r.1 - 1 > 0
    · rw [if_pos ⟨h9, hp⟩, h6]
      have hk : r.1 - 1 = A.length + L'.length := by omega
      rw [hk]
      obtain ⟨g1, g2, g3, L2, e2, R2, g4, g5, g6, g7⟩ := hsb
      refine ⟨g1, g2.trans h2, g3, Or.inr ⟨L2.reverse, e2, R2, h4.trans g4, by simp; omega, g6, ?_⟩⟩
      by_cases hnil : L' = []
      · left
        obtain ⟨k1, k2, k3⟩ := g7 hnil
        subst hnil
        rw [k2, k3]
        exact ⟨h10, h11, by have := List.length_eq_zero_iff.1 (show L2.length = 0 by simpa using g5); rw [this]; rfl⟩
      · right
        have hpos : 0 < L'.length := List.length_pos_iff.2 hnil
        refine ⟨fun hz => ?_, by simp; omega⟩
        rw [h4] at hz
        have hd : (L'.reverse ++ (e, r.2.2.previousValue) :: R').drop 1
            = L'.reverse.drop 1 ++ (e, r.2.2.previousValue) :: R' := by
          rw [List.drop_append_of_le_length (by simp; omega)]
        rw [hd, weighted_append] at hz
        have := (List.append_eq_nil_iff.1 hz).2
        simp [weighted, h10] at this
    · rw [if_neg (fun h => hp h.2)]
      have : L' = [] := List.length_eq_zero_iff.1 (by omega)
      subst this
      exact ⟨h1.trans hF.total, h2, by rw [h3]; simp, Or.inr ⟨[], e, R', h4, by simp, h7, Or.inl ⟨h10, h11, rfl⟩⟩⟩

/-! ### Nominal features -/

theorem addAll_eq (cfg : Config M) (l : List Nat) (s : Subset M) :
    addAll cfg l s = ((l.filter cfg.nonZero).length, { s with sum := s.sum + ((l.filter cfg.nonZero).map cfg.stat).sum }) := by
  induction l generalizing s with
  | nil => simp [addAll]
  | cons e l ih =>
    simp only [addAll]
    by_cases h : cfg.nonZero e = true
    · rw [if_pos h, ih]
      simp [List.filter_cons, h, Subset.add, add_assoc]
    · rw [if_neg h, ih]
      simp [List.filter_cons, h]

/-- The examples in bins together with their values. -/
def pairs (bins : List (Int × List Nat)) : List (Nat × Rat) := bins.flatMap (fun b => b.2.map (fun e => (e, (b.1 : Rat))))

theorem pairs_append (a b : List (Int × List Nat)) : pairs (a ++ b) = pairs a ++ pairs b := by simp [pairs]

theorem pairs_cons (a : Int × List Nat) (b : List (Int × List Nat)) :
    pairs (a :: b) = a.2.map (fun e => (e, (a.1 : Rat))) ++ pairs b := by simp [pairs]

theorem pairs_nil : pairs [] = [] := rfl

theorem pairs_reverse_perm (l : List (Int × List Nat)) : (pairs l.reverse).Perm (pairs l) :=
  (List.reverse_perm l).flatMap_right _

theorem mem_pairs {x : Nat × Rat} {bins : List (Int × List Nat)} :
    x ∈ pairs bins ↔ ∃ b ∈ bins, x.1 ∈ b.2 ∧ x.2 = (b.1 : Rat) := by
  unfold pairs
  rw [List.mem_flatMap]
  constructor
  · rintro ⟨b, hb, hx⟩
    obtain ⟨e, he, rfl⟩ := List.mem_map.1 hx
    exact ⟨b, hb, he, rfl⟩
  · rintro ⟨b, hb, h1, h2⟩
    exact ⟨b, hb, List.mem_map.2 ⟨x.1, h1, by rw [← h2]⟩⟩

theorem map_fst_pairs (bins : List (Int × List Nat)) : (pairs bins).map Prod.fst = bins.flatMap Prod.snd := by
  induction bins with
  | nil => rfl
  | cons a b ih => rw [pairs_cons, List.map_append, ih]; simp [Function.comp_def]

theorem weighted_bin (w : Nat → Bool) (b : Int × List Nat) :
    weighted w (b.2.map (fun e => (e, (b.1 : Rat)))) = b.2.filter w := by
  simp [weighted, Function.comp_def]

theorem weightedSum_bin (w : Nat → Bool) (st : Nat → M) (b : Int × List Nat) :
    weightedSum w st (b.2.map (fun e => (e, (b.1 : Rat)))) = ((b.2.filter w).map st).sum := by
  rw [weightedSum, weighted_bin]

theorem binSlice_prefix (P l : List (Int × List Nat)) : binSlice (P ++ l) 0 P.length = (pairs P).map Prod.fst := by
  rw [map_fst_pairs]; simp [binSlice]

theorem binSlice_suffix (A l : List (Int × List Nat)) : binSlice (A ++ l) A.length (A ++ l).length = (pairs l).map Prod.fst := by
  rw [map_fst_pairs]; simp [binSlice]

theorem binSlice_single (A : List (Int × List Nat)) (b : Int × List Nat) (l : List (Int × List Nat)) :
    binSlice (A ++ b :: l) A.length (A.length + 1) = (b.2.map (fun e => (e, (b.1 : Rat)))).map Prod.fst := by
  simp [binSlice, Function.comp_def]

theorem nominalExamples_eq (bins : List (Int × List Nat)) (mv : Int) (remaining : List Nat) :
    nominalExamples bins mv remaining = pairs bins ++ remaining.map (fun e => (e, (mv : Rat))) := rfl

/-- The accumulated sum after the bins `P` have been processed. -/
def AccState (cfg : Config M) (P : List (Int × List Nat)) (acc : Option M) : Prop :=
  (P = [] ∧ acc = none) ∨ (P ≠ [] ∧ acc = some (weightedSum cfg.nonZero cfg.stat (pairs P)))

theorem nominalLoop_spec {cfg : Config M} {mv : Int} {remaining : List Nat} {bins : List (Int × List Nat)} {subset : Subset M}
    (hU : Start cfg (nominalExamples bins mv remaining) subset) (hvals : (mv :: bins.map Prod.fst).Nodup)
    (l : List (Int × List Nat)) :
    ∀ (P : List (Int × List Nat)) (s : Subset M), bins = P ++ l → s.sum = 0 → s.total = subset.total → AccState cfg P s.acc →
      let r := nominalLoop cfg P.length l s
      r.1 = (weighted cfg.nonZero (pairs l)).length ∧ r.2.1.total = subset.total ∧ AccState cfg bins r.2.1.acc ∧
        ∀ c ∈ r.2.2, Sound cfg (nominalExamples bins mv remaining) (binSlice bins) c := by
  induction l with
  | nil =>
    intro P s hb hs ht ha
    simp only [nominalLoop]
    rw [List.append_nil] at hb
    subst hb
    exact ⟨by simp [pairs, weighted], ht, ha, by simp⟩
  | cons b l ih =>
    obtain ⟨v, indices⟩ := b
    intro P s hb hs ht ha
    simp only [nominalLoop, addAll_eq]
    have hb' : bins = (P ++ [(v, indices)]) ++ l := by rw [hb]; simp
    have hsum : s.sum + ((indices.filter cfg.nonZero).map cfg.stat).sum
        = weightedSum cfg.nonZero cfg.stat ((indices.map (fun e => (e, (v : Rat))))) := by
      rw [hs, zero_add]; exact (weightedSum_bin cfg.nonZero cfg.stat (v, indices)).symm
    have hne : ∀ b ∈ P ++ l, b.1 ≠ v := by
      rw [hb, List.map_append, List.map_cons] at hvals
      have h1 := (List.nodup_cons.1 hvals).2
      rw [List.nodup_append] at h1
      intro b hbm heq
      rcases List.mem_append.1 hbm with h | h
      · exact h1.2.2 b.1 (List.mem_map_of_mem h) v (by simp) heq
      · exact (List.nodup_cons.1 h1.2.1).1 (List.mem_map.2 ⟨b, h, heq⟩)
    have hmv : mv ≠ v := by
      intro heq
      rw [hb] at hvals
      exact (List.nodup_cons.1 hvals).1 (by rw [heq]; simp)
    have hCne : ∀ y ∈ pairs (P ++ l) ++ remaining.map (fun e => (e, (mv : Rat))), y.2 ≠ (v : Rat) := by
      intro y hy
      rcases List.mem_append.1 hy with hy | hy
      · obtain ⟨b, hbm, _, h2⟩ := mem_pairs.1 hy
        rw [h2]
        exact_mod_cast hne b hbm
      · obtain ⟨z, _, hz⟩ := List.mem_map.1 hy
        subst hz
        simp only
        exact_mod_cast hmv
    have hSeq : ∀ y ∈ indices.map (fun e => (e, (v : Rat))), y.2 = (v : Rat) := by
      intro y hy
      obtain ⟨z, _, hz⟩ := List.mem_map.1 hy
      subst hz; rfl
    have hih := ih (P ++ [(v, indices)])
      (Subset.reset { s with sum := s.sum + ((indices.filter cfg.nonZero).map cfg.stat).sum }) hb' rfl ht (by
        right
        refine ⟨by simp, ?_⟩
        simp only [Subset.reset, hsum]
        rw [pairs_append, weightedSum_append]
        rcases ha with ⟨h1, h2⟩ | ⟨h1, h2⟩
        · subst h1; rw [h2]; simp [pairs, weightedSum, weighted]
        · rw [h2]; simp [pairs])
    rw [List.length_append, List.length_singleton] at hih
    obtain ⟨h1, h2, h3, h4⟩ := hih
    refine ⟨?_, h2, h3, ?_⟩
    · rw [h1, pairs_cons, weighted_append, List.length_append, weighted_bin]
    · intro c hc
      rcases List.mem_append.1 hc with hc | hc
      · refine proposeBoth_sound (subset := subset) hU (S := indices.map (fun e => (e, (v : Rat))))
          (C := pairs (P ++ l) ++ remaining.map (fun e => (e, (mv : Rat)))) ?_ ?_ ?_ ?_ ?_ ?_ ?_ hsum ht c hc
        · rw [nominalExamples_eq, ← List.append_assoc]
          refine List.Perm.append_right _ ?_
          rw [hb, pairs_append, pairs_cons, pairs_append]
          simp only
          rw [← List.append_assoc, ← List.append_assoc]
          exact List.perm_append_comm.append_right _
        · rw [hb]; exact binSlice_single P (v, indices) l
        · intro y hy; simp [Comparator.holds, hSeq y hy]
        · intro y hy; simp [Comparator.holds, hCne y hy]
        · intro y hy; simp [Comparator.holds, hSeq y hy]
        · intro y hy; simp [Comparator.holds, hCne y hy]
        · exact congrArg List.length (weighted_bin cfg.nonZero (v, indices)).symm
      · exact h4 c hc

/-! ### Ordinal features -/

/-- The bins are sorted by their values, and the majority value is none of them. -/
def SortedBins (bins : List (Int × List Nat)) (mv : Int) : Prop :=
  bins.Pairwise (fun a b => a.1 < b.1) ∧ ∀ b ∈ bins, b.1 ≠ mv

/-- The state of the search after the bins `P` have been added. -/
structure OrdScanned (cfg : Config M) (P : List (Int × List Nat)) (s : OrdState M) : Prop where
  numCovered : s.numCovered = (weighted cfg.nonZero (pairs P)).length
  sum : s.subset.sum = weightedSum cfg.nonZero cfg.stat (pairs P)

theorem OrdScanned.add {cfg : Config M} {P Q : List (Int × List Nat)} {s : OrdState M} (h : OrdScanned cfg P s) {b : Int × List Nat}
    (hQ : Q.Perm (P ++ [b])) (pv : Int) (cs : List (Candidate M)) :
    OrdScanned cfg Q { subset := (addAll cfg b.2 s.subset).2, numCovered := s.numCovered + (addAll cfg b.2 s.subset).1,
                       previousValue := pv, candidates := cs } := by
  have hp : (pairs Q).Perm (pairs P ++ pairs [b]) := by
    rw [← pairs_append]; exact hQ.flatMap_right _
  have hb : pairs [b] = b.2.map (fun e => (e, (b.1 : Rat))) := by simp [pairs]
  rw [hb] at hp
  constructor
  · rw [(weighted_perm hp).length_eq, weighted_append, List.length_append, weighted_bin, addAll_eq, h.numCovered]
  · rw [weightedSum_perm hp, weightedSum_append, weightedSum_bin, addAll_eq]
    simp only
    rw [h.sum]

theorem ordForward_spec {cfg : Config M} {mv : Int} {remaining : List Nat} {bins : List (Int × List Nat)} {subset : Subset M}
    (hU : Start cfg (nominalExamples bins mv remaining) subset) (hsort : SortedBins bins mv) (l : List (Int × List Nat)) :
    ∀ (P : List (Int × List Nat)) (is : List Nat) (s : OrdState M), bins = P ++ (s.previousValue, is) :: l →
      OrdScanned cfg (P ++ [(s.previousValue, is)]) s → s.previousValue < mv → s.subset.total = subset.total →
      (∀ c ∈ s.candidates, Sound cfg (nominalExamples bins mv remaining) (binSlice bins) c) →
      let r := ordForward cfg mv (P.length + 1) l s
      r.2.subset.total = subset.total ∧ r.2.subset.acc = s.subset.acc ∧
      (∀ c ∈ r.2.candidates, Sound cfg (nominalExamples bins mv remaining) (binSlice bins) c) ∧
      ∃ Q is' l', bins = Q ++ (r.2.previousValue, is') :: l' ∧ r.1 = Q.length + 1 ∧ r.2.previousValue < mv ∧
        OrdScanned cfg (Q ++ [(r.2.previousValue, is')]) r.2 ∧ (∀ b ∈ l', mv < b.1) ∧ s.numCovered ≤ r.2.numCovered := by
  induction l with
  | nil =>
    intro P is s hb hP hlt ht hs
    simp only [ordForward]
    exact ⟨ht, trivial, hs, P, is, [], hb, rfl, hlt, hP, by simp, le_refl _⟩
  | cons b l ih =>
    obtain ⟨x, indices⟩ := b
    intro P is s hb hP hlt ht hs
    simp only [ordForward]
    have hb' : bins = (P ++ [(s.previousValue, is)]) ++ (x, indices) :: l := by rw [hb]; simp
    have hlen : (P ++ [(s.previousValue, is)]).length = P.length + 1 := by simp
    have hpw := hsort.1
    rw [hb'] at hpw
    obtain ⟨hp1, hp2, hp3⟩ := List.pairwise_append.1 hpw
    by_cases hx : x ≥ mv
    · rw [if_pos hx]
      refine ⟨ht, rfl, hs, P, is, (x, indices) :: l, hb, rfl, hlt, hP, ?_, le_refl _⟩
      have hxne : x ≠ mv := hsort.2 (x, indices) (by rw [hb']; simp)
      intro b hbm
      rcases List.mem_cons.1 hbm with h | h
      · subst h; simp only; omega
      · have := (List.pairwise_cons.1 hp2).1 b h
        simp only at this; omega
    · rw [if_neg hx]
      have hnew : ∀ c ∈ proposeBoth cfg 0 (P.length + 1) s.numCovered .ordinalLeq .ordinalGr s.previousValue s.subset.sum
          s.subset.total, Sound cfg (nominalExamples bins mv remaining) (binSlice bins) c := by
        intro c hc
        have hSle : ∀ y ∈ pairs (P ++ [(s.previousValue, is)]), y.2 ≤ (s.previousValue : Rat) := by
          intro y hy
          obtain ⟨b, hbm, _, h2⟩ := mem_pairs.1 hy
          rw [h2]
          rcases List.mem_append.1 hbm with h | h
          · have := (List.pairwise_append.1 hp1).2.2 b h _ (List.mem_singleton.2 rfl)
            exact_mod_cast le_of_lt this
          · rw [List.mem_singleton] at h; subst h; exact le_refl _
        have hCgt : ∀ y ∈ pairs ((x, indices) :: l) ++ remaining.map (fun e => (e, (mv : Rat))), (s.previousValue : Rat) < y.2 := by
          intro y hy
          rcases List.mem_append.1 hy with hy | hy
          · obtain ⟨b, hbm, _, h2⟩ := mem_pairs.1 hy
            rw [h2]
            have := hp3 (s.previousValue, is) (by simp) b hbm
            exact_mod_cast this
          · obtain ⟨z, _, hz⟩ := List.mem_map.1 hy
            subst hz
            simp only
            exact_mod_cast hlt
        refine proposeBoth_sound (subset := subset) hU (S := pairs (P ++ [(s.previousValue, is)]))
          (C := pairs ((x, indices) :: l) ++ remaining.map (fun e => (e, (mv : Rat)))) ?_ ?_ ?_ ?_ ?_ ?_ hP.numCovered hP.sum ht c hc
        · rw [nominalExamples_eq]
          nth_rewrite 1 [hb']
          rw [pairs_append, List.append_assoc]
        · rw [hb', ← hlen]; exact binSlice_prefix _ _
        · intro y hy
          simp only [Comparator.holds, decide_eq_true_eq]; exact hSle y hy
        · intro y hy
          simp only [Comparator.holds, decide_eq_false_iff_not, not_le]; exact hCgt y hy
        · intro y hy
          simp only [Comparator.holds, decide_eq_false_iff_not, not_lt]; exact hSle y hy
        · intro y hy
          simp only [Comparator.holds, decide_eq_true_eq]; exact hCgt y hy
      have := ih (P ++ [(s.previousValue, is)]) indices
        { subset := (addAll cfg indices s.subset).2, numCovered := s.numCovered + (addAll cfg indices s.subset).1,
          previousValue := x,
          candidates := s.candidates ++ proposeBoth cfg 0 (P.length + 1) s.numCovered .ordinalLeq .ordinalGr s.previousValue
            s.subset.sum s.subset.total }
        (by simpa using hb') (hP.add (b := (x, indices)) (List.Perm.refl _) x _) (by simp only; omega)
        (by rw [← ht]; simp [addAll_eq])
        (by intro c hc; rcases List.mem_append.1 hc with hc | hc; exacts [hs c hc, hnew c hc])
      rw [hlen] at this
      obtain ⟨h1, h2, h3, Q, is', l', h4, h5, h6, h7, h8, h9⟩ := this
      refine ⟨h1, ?_, h3, Q, is', l', h4, h5, h6, h7, h8, le_trans ?_ h9⟩
      · rw [h2]; simp [addAll_eq]
      · simp

theorem ordBackward_spec {cfg : Config M} {mv : Int} {remaining : List Nat} {bins A : List (Int × List Nat)} {subset : Subset M}
    (hU : Start cfg (nominalExamples bins mv remaining) subset) (hsort : SortedBins bins mv) (hless : ∀ b ∈ A, b.1 < mv)
    (L : List (Int × List Nat)) :
    ∀ (R : List (Int × List Nat)) (s : OrdState M), bins = A ++ L.reverse ++ R → OrdScanned cfg R s → (∀ b ∈ L, mv < b.1) →
      s.subset.total = subset.total →
      (∀ c ∈ s.candidates, Sound cfg (nominalExamples bins mv remaining) (binSlice bins) c) →
      let r := ordBackward cfg bins.length (A.length + L.length) L s
      r.subset.total = subset.total ∧ r.subset.acc = s.subset.acc ∧
      (∀ c ∈ r.candidates, Sound cfg (nominalExamples bins mv remaining) (binSlice bins) c) ∧ OrdScanned cfg (L.reverse ++ R) r := by
  induction L with
  | nil =>
    intro R s hb hR hge ht hs
    simp only [ordBackward]
    exact ⟨ht, trivial, hs, hR⟩
  | cons b L ih =>
    obtain ⟨x, indices⟩ := b
    intro R s hb hR hge ht hs
    simp only [ordBackward]
    have hk : A.length + ((x, indices) :: L).length - 1 = A.length + L.length := by simp only [List.length_cons]; omega
    rw [hk]
    have hb' : bins = A ++ L.reverse ++ (x, indices) :: R := by rw [hb]; simp
    have hpw := hsort.1
    rw [hb'] at hpw
    obtain ⟨hp1, hp2, hp3⟩ := List.pairwise_append.1 hpw
    have hxgt : mv < x := hge (x, indices) (by simp)
    have hnew : ∀ c ∈ proposeBoth cfg (A.length + ((x, indices) :: L).length) bins.length s.numCovered .ordinalGr .ordinalLeq x
        s.subset.sum s.subset.total, Sound cfg (nominalExamples bins mv remaining) (binSlice bins) c := by
      intro c hc
      have hSgt : ∀ y ∈ pairs R, (x : Rat) < y.2 := by
        intro y hy
        obtain ⟨b, hbm, _, h2⟩ := mem_pairs.1 hy
        rw [h2]
        exact_mod_cast (List.pairwise_cons.1 hp2).1 b hbm
      have hCle : ∀ y ∈ pairs (A ++ ((x, indices) :: L).reverse) ++ remaining.map (fun e => (e, (mv : Rat))), y.2 ≤ (x : Rat) := by
        intro y hy
        rcases List.mem_append.1 hy with hy | hy
        · obtain ⟨b, hbm, _, h2⟩ := mem_pairs.1 hy
          rw [h2]
          rw [List.reverse_cons, ← List.append_assoc] at hbm
          rcases List.mem_append.1 hbm with h | h
          · exact_mod_cast le_of_lt (hp3 b h (x, indices) (by simp))
          · rw [List.mem_singleton] at h; subst h; exact le_refl _
        · obtain ⟨z, _, hz⟩ := List.mem_map.1 hy
          subst hz
          simp only
          exact_mod_cast le_of_lt hxgt
      refine proposeBoth_sound (subset := subset) hU (S := pairs R)
        (C := pairs (A ++ ((x, indices) :: L).reverse) ++ remaining.map (fun e => (e, (mv : Rat)))) ?_ ?_ ?_ ?_ ?_ ?_ hR.numCovered
        hR.sum ht c hc
      · rw [nominalExamples_eq]
        nth_rewrite 1 [hb]
        rw [pairs_append, ← List.append_assoc]
        exact List.perm_append_comm.append_right _
      · have : A.length + ((x, indices) :: L).length = (A ++ ((x, indices) :: L).reverse).length := by simp
        rw [this]
        nth_rewrite 2 [hb]
        nth_rewrite 1 [hb]
        exact binSlice_suffix _ _
      · intro y hy
        simp only [Comparator.holds, decide_eq_true_eq]; exact hSgt y hy
      · intro y hy
        simp only [Comparator.holds, decide_eq_false_iff_not, not_lt]; exact hCle y hy
      · intro y hy
        simp only [Comparator.holds, decide_eq_false_iff_not, not_le]; exact hSgt y hy
      · intro y hy
        simp only [Comparator.holds, decide_eq_true_eq]; exact hCle y hy
    have := ih ((x, indices) :: R)
      { subset := (addAll cfg indices s.subset).2, numCovered := s.numCovered + (addAll cfg indices s.subset).1,
        previousValue := x,
        candidates := s.candidates ++ proposeBoth cfg (A.length + ((x, indices) :: L).length) bins.length s.numCovered .ordinalGr
          .ordinalLeq x s.subset.sum s.subset.total }
      hb' (hR.add (b := (x, indices)) (List.perm_append_singleton _ _).symm x _) (fun b hbm => hge b (List.mem_cons_of_mem _ hbm))
      (by rw [← ht]; simp [addAll_eq])
      (by intro c hc; rcases List.mem_append.1 hc with hc | hc; exacts [hs c hc, hnew c hc])
    obtain ⟨h1, h2, h3, h4⟩ := this
    refine ⟨h1, ?_, h3, ?_⟩
    · rw [h2]; simp [addAll_eq]
    · simpa using h4

/-! ### The last parts of the numerical search -/

theorem accumulated_sound {cfg : Config M} {sv : Rat} {sparse : Bool} {remaining : List Nat} {entries A B : List (Nat × Rat)}
    {subset : Subset M} {s s' : NumState M} (hU : Start cfg (numericalExamples entries sv remaining) subset)
    (hsort : SortedEntries entries) (hF : ForwardDone cfg (numericalExamples entries sv remaining) entries sv subset A B s)
    (hB : BackwardDone cfg (numericalExamples entries sv remaining) entries subset B s s')
    (hth : s.previousValue < sv → (∀ x ∈ B ++ remaining.map (fun e => (e, sv)), (if sparse then mean s.previousValue sv
      else mean s.previousValue s'.previousValue) < x.2) ∧
      s.previousValue ≤ (if sparse then mean s.previousValue sv else mean s.previousValue s'.previousValue)) :
    ∃ l, accumulatedPhase cfg sparse sv A.length s.numCovered s.previousValue s' = .ok l ∧
      ∀ c ∈ l, Sound cfg (numericalExamples entries sv remaining) (entrySlice entries) c := by
  unfold accumulatedPhase
  by_cases h : s.numCovered > 0 ∧ s.numCovered < cfg.numExamples
  · rw [if_pos h]
    obtain ⟨hacc, A', e, hA⟩ := hF.some h.1
    rw [hB.acc, hacc]
    refine ⟨_, rfl, ?_⟩
    have hlt : s.previousValue < sv := hF.less (e, s.previousValue) (by rw [hA]; simp)
    obtain ⟨ht1, ht2⟩ := hth hlt
    have hAle : ∀ y ∈ A, y.2 ≤ s.previousValue := by
      intro y hy
      rw [hF.split, hA] at hsort
      rw [hA] at hy
      rcases List.mem_append.1 hy with hy | hy
      · exact sorted_split (List.pairwise_append.1 hsort).1 y hy (e, s.previousValue) (by simp)
      · rw [List.mem_singleton] at hy; subst hy; exact le_refl _
    refine proposeBoth_sound (subset := subset) hU (S := A) (C := B ++ remaining.map (fun e => (e, sv))) ?_ ?_ ?_ ?_ ?_ ?_
      hF.numCovered rfl hB.total
    · unfold numericalExamples
      nth_rewrite 1 [hF.split]
      rw [List.append_assoc]
    · rw [hF.split]; exact entrySlice_prefix _ _
    · intro y hy
      simp only [Comparator.holds, decide_eq_true_eq]
      exact le_trans (hAle y hy) ht2
    · intro y hy
      simp only [Comparator.holds, decide_eq_false_iff_not, not_le]
      exact ht1 y hy
    · intro y hy
      simp only [Comparator.holds, decide_eq_false_iff_not, not_lt]
      exact le_trans (hAle y hy) ht2
    · intro y hy
      simp only [Comparator.holds, decide_eq_true_eq]
      exact ht1 y hy
  · rw [if_neg h]
    exact ⟨[], rfl, by simp⟩

/-- Without any conditions, the last part does at least not fail. -/
theorem accumulated_ok {cfg : Config M} {U : List (Nat × Rat)} {sv : Rat} {sparse : Bool} {entries A B : List (Nat × Rat)}
    {subset : Subset M} {s s' : NumState M} (hF : ForwardDone cfg U entries sv subset A B s)
    (hB : BackwardDone cfg U entries subset B s s') :
    ∃ l, accumulatedPhase cfg sparse sv A.length s.numCovered s.previousValue s' = .ok l := by
  unfold accumulatedPhase
  by_cases h : s.numCovered > 0 ∧ s.numCovered < cfg.numExamples
  · rw [if_pos h, hB.acc, (hF.some h.1).1]
    exact ⟨_, rfl⟩
  · rw [if_neg h]
    exact ⟨[], rfl⟩

theorem filter_geq_eq {sv : Rat} {entries A B : List (Nat × Rat)} (h : entries = A ++ B) (hA : AllLess sv A)
    (hB : ∀ x ∈ B, sv ≤ x.2) : entries.filter (fun x => decide (sv ≤ x.2)) = B := by
  rw [h, List.filter_append]
  have h1 : A.filter (fun x => decide (sv ≤ x.2)) = [] := List.filter_eq_nil_iff.2 (fun x hx => by
    simp only [decide_eq_true_eq, not_le]; exact hA x hx)
  have h2 : B.filter (fun x => decide (sv ≤ x.2)) = B := List.filter_eq_self.2 (fun x hx => by
    simp only [decide_eq_true_eq]; exact hB x hx)
  rw [h1, h2, List.nil_append]

end MLRL.Search
