import Verif.Lemma.IsotonicExtract
import Mathlib.Data.List.Sort
import Mathlib.Algebra.Order.Ring.Rat
import Mathlib.Tactic.NormNum

/-!
# Properties of the isotonic calibration of probabilities (C40, C54, C63)
-/

namespace MLRL.Isotonic

open Loss

variable {K : Type}

/-! ### Helper lemmas for the theorems below -/

theorem list_eq_row {A : Type} (l : List A) (h : l ≠ []) : ∃ f : Nat → A, l = row l.length f := by
  obtain ⟨a, ha⟩ := List.exists_mem_of_ne_nil l h
  refine ⟨fun k => (l[k]?).getD a, ?_⟩
  refine List.ext_getElem? (fun c => ?_)
  simp only [row, List.getElem?_map]
  by_cases hc : c < l.length
  · simp [hc]
  · simp [hc]

theorem row_mem {A : Type} {n : Nat} {f : Nat → A} {k : Nat} (h : k < n) : f k ∈ row n f := by
  simp only [row, List.mem_map, List.mem_range]
  exact ⟨k, h, rfl⟩

theorem row_pairwise {A : Type} {R : A → A → Prop} {n : Nat} {f : Nat → A} (h : (row n f).Pairwise R) {a c : Nat} (hac : a < c) (hc : c < n) :
    R (f a) (f c) :=
  getElem_pairwise h hac (by simp [row, show a < n by omega]) (by simp [row, hc])

theorem groupMean_bounds [Field K] [LinearOrder K] [IsStrictOrderedRing K] {orig : Nat → K × K} {p : Nat × Nat} (hp : p.1 ≤ p.2) {lo hi : K}
    (h : ∀ k, p.1 ≤ k → k ≤ p.2 → lo ≤ (orig k).2 ∧ (orig k).2 ≤ hi) : lo ≤ groupMean orig p ∧ groupMean orig p ≤ hi := by
  obtain ⟨d, hd⟩ : ∃ d, p.2 = p.1 + d := ⟨p.2 - p.1, by omega⟩
  have : ∀ d, (∀ k, p.1 ≤ k → k ≤ p.1 + d → lo ≤ (orig k).2 ∧ (orig k).2 ≤ hi) →
      lo ≤ groupMean orig (p.1, p.1 + d) ∧ groupMean orig (p.1, p.1 + d) ≤ hi := by
    intro d
    induction d with
    | zero =>
      intro h
      rw [Nat.add_zero, groupMean_single]
      exact h _ (le_refl _) (le_refl _)
    | succ d ih =>
      intro h
      have ih := ih (fun k h1 h2 => h k h1 (by omega))
      have hx := h (p.1 + (d + 1)) (by omega) (le_refl _)
      have := groupMean_succ orig (a := p.1) (j := p.1 + (d + 1)) (by omega)
      rw [show p.1 + (d + 1) - 1 = p.1 + d by omega] at this
      rw [← this]
      exact mean_bounds (by omega) hx.1 hx.2 ih.1 ih.2
  have := this d (fun k h1 h2 => h k h1 (by omega))
  rw [← hd] at this
  exact this

/-! ### C40: fitting -/

/-- **C40.** Eliminating duplicates of a non-empty list of bins results in strictly increasing thresholds; probabilities stay within any bounds of the
original ones. -/
theorem eliminate_thresholds [Field K] [LinearOrder K] [IsStrictOrderedRing K] {sort : List (K × K) → List (K × K)} (hsort : SortByThreshold sort)
    {isEqual : K → K → Bool} (hrefl : ∀ x, isEqual x x = true) {bins : List (K × K)} (hne : bins ≠ []) {lo hi : K}
    (hb : ∀ b ∈ bins, lo ≤ b.2 ∧ b.2 ≤ hi) :
    ∃ r, sortAndEliminate sort isEqual bins = .ok r ∧ r ≠ [] ∧ r.length ≤ bins.length ∧ r.Pairwise (fun a b => a.1 < b.1) ∧
      (∀ b ∈ r, lo ≤ b.2 ∧ b.2 ≤ hi) ∧ (∀ b ∈ r, b.1 ∈ bins.map Prod.fst) := by
  have hperm := hsort.perm bins
  have hne' : sort bins ≠ [] := fun h => hne (List.nil_perm.1 (h ▸ hperm))
  have hlen : (sort bins).length = bins.length := hperm.length_eq
  have hpos : 0 < bins.length := List.length_pos_of_ne_nil hne
  obtain ⟨orig, ho⟩ := list_eq_row _ hne'
  rw [hlen] at ho
  have hsorted := hsort.sorted bins
  rw [ho] at hsorted
  have hmem : ∀ k, k < bins.length → orig k ∈ bins := fun k hk => hperm.mem_iff.1 (ho ▸ row_mem hk)
  obtain ⟨groups, a, g1, g2, g3, g4, g5⟩ := eliminate_ok hrefl (orig := orig) (n := bins.length) (fun x y hxy hy => by
    by_cases e : x = y
    · rw [e]
    · exact row_pairwise hsorted (by omega) hy) hpos sort bins ho
  have hlast : (orig a).1 ≤ (orig (bins.length - 1)).1 := by
    have := g2.mem (p := (a, bins.length - 1)) (by simp)
    by_cases e : a = bins.length - 1
    · rw [e]
    · exact row_pairwise hsorted (by have := this.2.1; simp only at this; omega) (by omega)
  rw [List.pairwise_append] at g4
  refine ⟨_, g1, by simp, ?_, ?_, ?_, ?_⟩
  · have := g2.le
    simpa using this
  · rw [List.pairwise_append, List.pairwise_map]
    refine ⟨g4.1, by simp, ?_⟩
    intro x hx y hy
    obtain ⟨p, hp, rfl⟩ := List.mem_map.1 hx
    simp only [List.mem_singleton] at hy
    subst hy
    exact lt_of_lt_of_le (g4.2.2 p hp (a, bins.length - 1) (by simp)) hlast
  · intro b hbm
    rcases List.mem_append.1 hbm with hbm | hbm
    · obtain ⟨p, hp, rfl⟩ := List.mem_map.1 hbm
      have hpm := g2.mem (List.mem_append_left _ hp)
      exact groupMean_bounds hpm.2.1 (fun k h1 h2 => hb _ (hmem k (by omega)))
    · simp only [List.mem_singleton] at hbm
      subst hbm
      exact hb _ (hmem _ (by omega))
  · intro b hbm
    rcases List.mem_append.1 hbm with hbm | hbm
    · obtain ⟨p, hp, rfl⟩ := List.mem_map.1 hbm
      have hpm := g2.mem (List.mem_append_left _ hp)
      exact List.mem_map.2 ⟨orig p.1, hmem _ (by omega), rfl⟩
    · simp only [List.mem_singleton] at hbm
      subst hbm
      exact List.mem_map.2 ⟨_, hmem _ (by omega), rfl⟩

/-- **C40.** If thresholds are compared exactly, the bins that result from eliminating duplicates have, except for the one with the greatest
threshold, the mean of the probabilities of all bins with the same threshold. -/
theorem eliminate_means_partial [Field K] [LinearOrder K] [IsStrictOrderedRing K] {sort : List (K × K) → List (K × K)} (hsort : SortByThreshold sort)
    {bins : List (K × K)} (hne : bins ≠ []) :
    ∃ r last, sortAndEliminate sort (fun x y => decide (x = y)) bins = .ok (r ++ [last]) ∧ last ∈ bins ∧ (∀ b ∈ bins, b.1 ≤ last.1) ∧
      (∀ b ∈ r, b.2 = meanAt bins b.1) ∧ (∀ t, t ∈ (r ++ [last]).map Prod.fst ↔ t ∈ bins.map Prod.fst) := by
  have hperm := hsort.perm bins
  have hne' : sort bins ≠ [] := fun h => hne (List.nil_perm.1 (h ▸ hperm))
  have hlen : (sort bins).length = bins.length := hperm.length_eq
  have hpos : 0 < bins.length := List.length_pos_of_ne_nil hne
  obtain ⟨orig, ho⟩ := list_eq_row _ hne'
  rw [hlen] at ho
  have hsorted := hsort.sorted bins
  rw [ho] at hsorted
  have hmono : ∀ x y, x ≤ y → y < bins.length → (orig x).1 ≤ (orig y).1 := fun x y hxy hy => by
    by_cases e : x = y
    · rw [e]
    · exact row_pairwise hsorted (by omega) hy
  have hmem : ∀ k, k < bins.length → orig k ∈ bins := fun k hk => hperm.mem_iff.1 (ho ▸ row_mem hk)
  have hmem' : ∀ b ∈ bins, ∃ k, k < bins.length ∧ b = orig k := by
    intro b hb
    have := hperm.mem_iff.2 hb
    rw [ho] at this
    simp only [row, List.mem_map, List.mem_range] at this
    obtain ⟨k, h1, h2⟩ := this
    exact ⟨k, h1, h2.symm⟩
  obtain ⟨groups, a, g1, g2, g3, g4, g5⟩ := eliminate_ok (isEqual := fun x y => decide (x = y)) (by simp) (orig := orig) (n := bins.length)
    hmono hpos sort bins ho
  simp only [decide_eq_true_eq] at g3
  refine ⟨_, _, g1, hmem _ (by omega), ?_, ?_, ?_⟩
  · intro b hb
    obtain ⟨k, h1, rfl⟩ := hmem' b hb
    exact hmono _ _ (by omega) (by omega)
  · intro b hb
    obtain ⟨p, hp, rfl⟩ := List.mem_map.1 hb
    simp only
    rw [groupMean_eq g2 g3 g4 (List.mem_append_left _ hp)]
    unfold meanAt
    rw [← ho]
    have hf := hperm.filter (fun b => decide (b.1 = (orig p.1).1))
    rw [hf.length_eq, (hf.map Prod.snd).sum_eq]
  · intro t
    constructor
    · intro ht
      obtain ⟨b, hb, rfl⟩ := List.mem_map.1 ht
      rcases List.mem_append.1 hb with hb | hb
      · obtain ⟨p, hp, rfl⟩ := List.mem_map.1 hb
        have hpm := g2.mem (List.mem_append_left _ hp)
        exact List.mem_map.2 ⟨orig p.1, hmem _ (by omega), rfl⟩
      · simp only [List.mem_singleton] at hb
        subst hb
        exact List.mem_map.2 ⟨_, hmem _ (by omega), rfl⟩
    · intro ht
      obtain ⟨b, hb, rfl⟩ := List.mem_map.1 ht
      obtain ⟨k, hk, rfl⟩ := hmem' b hb
      have hcover : ∀ (l : List (Nat × Nat)) (lo hi k : Nat), Seg l lo hi → lo ≤ k → k < hi → ∃ q ∈ l, q.1 ≤ k ∧ k ≤ q.2 := by
        intro l
        induction l with
        | nil => intro lo hi k h h1 h2; simp only [Seg] at h; omega
        | cons q l ih =>
          intro lo hi k h h1 h2
          obtain ⟨s1, s2, s3⟩ := h
          by_cases e : k ≤ q.2
          · exact ⟨q, List.mem_cons_self .., by omega, e⟩
          · obtain ⟨q', h3, h4⟩ := ih _ _ k s3 (by omega) h2
            exact ⟨q', List.mem_cons_of_mem _ h3, h4⟩
      obtain ⟨q, hq, q1, q2⟩ := hcover _ _ _ k g2 (by omega) hk
      have hqk : (orig k).1 = (orig q.1).1 := by
        by_cases e' : k = q.1
        · rw [e']
        · exact g3 q hq k (by omega) q2
      rcases List.mem_append.1 hq with hq' | hq'
      · refine List.mem_map.2 ⟨((orig q.1).1, groupMean orig q), List.mem_append_left _ (List.mem_map.2 ⟨q, hq', rfl⟩), hqk.symm⟩
      · refine List.mem_map.2 ⟨orig (bins.length - 1), List.mem_append_right _ (by simp), ?_⟩
        simp only [List.mem_singleton] at hq'
        subst hq'
        simp only at q1 q2 hqk
        by_cases e' : bins.length - 1 = a
        · rw [e', hqk]
        · have := g3 (a, bins.length - 1) hq (bins.length - 1) (by simp only; omega) (le_refl _)
          rw [this, hqk]

/-- **C40.** The aggregation terminates on every non-empty list of bins with strictly increasing thresholds. Each resulting bin stands for a pool of
consecutive bins: it has the threshold of the first one and a probability within any bounds of theirs. Probabilities are strictly increasing. -/
theorem aggregate_increasing [Field K] [LinearOrder K] [IsStrictOrderedRing K] {bins : List (K × K)} (hne : bins ≠ [])
    (ht : bins.Pairwise (fun a b => a.1 < b.1)) {lo hi : K} (hb : ∀ b ∈ bins, lo ≤ b.2 ∧ b.2 ≤ hi) (fuel : Nat) (hf : 2 * bins.length < fuel) :
    ∃ r, aggregateNonIncreasing fuel bins = Run.done r ∧ r ≠ [] ∧ r.Pairwise (fun a b => a.1 < b.1) ∧ r.Pairwise (fun a b => a.2 < b.2) ∧
      (∀ b ∈ r, lo ≤ b.2 ∧ b.2 ≤ hi) ∧ (∀ b ∈ r, b.1 ∈ bins.map Prod.fst) ∧ r.head?.map Prod.fst = bins.head?.map Prod.fst := by
  obtain ⟨orig, ho⟩ := list_eq_row _ hne
  have hpos : 0 < bins.length := List.length_pos_of_ne_nil hne
  obtain ⟨pools, b, h1, h2, h3, h4⟩ := aggregateNonIncreasing_ok (orig := orig) (n := bins.length) hpos fuel hf
  rw [← ho] at h1
  have hmem : ∀ k, k < bins.length → orig k ∈ bins := fun k hk => by
    rw [ho]
    exact row_mem hk
  have hlt : ∀ x y, x < y → y < bins.length → (orig x).1 < (orig y).1 := fun x y hxy hy => by
    rw [ho] at ht
    exact row_pairwise ht hxy hy
  refine ⟨_, h1, ?_, ?_, ?_, ?_, ?_, ?_⟩
  · intro e
    have : pools = [] := List.map_eq_nil_iff.1 e
    subst this
    simp only [Seg] at h2
    omega
  · rw [List.pairwise_map]
    refine h2.pairwise.imp_of_mem ?_
    intro p p' hp hp' hpp
    rw [(h3 p hp).1, (h3 p' hp').1]
    have m1 := h2.mem hp
    have m2 := h2.mem hp'
    exact hlt _ _ (by omega) (by omega)
  · rw [List.pairwise_map]
    exact h4
  · intro x hx
    obtain ⟨p, hp, rfl⟩ := List.mem_map.1 hx
    have m1 := h2.mem hp
    exact (h3 p hp).2.1 lo hi (fun k k1 k2 => hb _ (hmem k (by omega)))
  · intro x hx
    obtain ⟨p, hp, rfl⟩ := List.mem_map.1 hx
    have m1 := h2.mem hp
    rw [(h3 p hp).1]
    exact List.mem_map.2 ⟨_, hmem _ (by omega), rfl⟩
  · cases pools with
    | nil =>
      simp only [Seg] at h2
      omega
    | cons p pools =>
      simp only [List.map_cons, List.head?_cons, Option.map_some]
      rw [(h3 p (List.mem_cons_self ..)).1, h2.1]
      have : bins.head? = some (orig 0) := by
        rw [List.head?_eq_getElem?, ho]
        simp [row, hpos]
      rw [this]
      rfl

/-- **C40.** Bins with strictly increasing probabilities are not changed by the aggregation. -/
theorem aggregate_increasing_id [Field K] [LinearOrder K] [IsStrictOrderedRing K] {bins : List (K × K)} (hne : bins ≠ [])
    (hv : bins.Pairwise (fun a b => a.2 < b.2)) (fuel : Nat) (hf : 2 * bins.length < fuel) : aggregateNonIncreasing fuel bins = Run.done bins := by
  obtain ⟨orig, ho⟩ := list_eq_row _ hne
  have hpos : 0 < bins.length := List.length_pos_of_ne_nil hne
  obtain ⟨pools, b, h1, h2, h3, h4⟩ := aggregateNonIncreasing_ok (orig := orig) (n := bins.length) hpos fuel hf
  rw [← ho] at h1
  rw [h1]
  congr 1
  have hlt : ∀ x y, x < y → y < bins.length → (orig x).2 < (orig y).2 := fun x y hxy hy => by
    rw [ho] at hv
    exact row_pairwise hv hxy hy
  have hsingle : ∀ p ∈ pools, p.1 = p.2 := by
    intro p hp
    by_contra hne
    have m := h2.mem hp
    obtain ⟨k, k1, k2, k3⟩ := (h3 p hp).2.2 (by omega)
    exact absurd k3 (not_le.2 (hlt k (k + 1) (by omega) (by omega)))
  have hb : ∀ p ∈ pools, b p.1 = orig p.1 := by
    intro p hp
    have e := hsingle p hp
    have := (h3 p hp).2.1 (orig p.1).2 (orig p.1).2 (fun k k1 k2 => by
      have : k = p.1 := by omega
      rw [this]
      exact ⟨le_refl _, le_refl _⟩)
    exact Prod.ext (h3 p hp).1 (le_antisymm this.2 this.1)
  have hpools : ∀ (l : List (Nat × Nat)) (lo hi : Nat), Seg l lo hi → (∀ p ∈ l, p.1 = p.2) → l.map Prod.fst = List.range' lo (hi - lo) := by
    intro l
    induction l with
    | nil =>
      intro lo hi h _
      simp only [Seg] at h
      simp [h]
    | cons p l ih =>
      intro lo hi h hs
      obtain ⟨s1, s2, s3⟩ := h
      have e := hs p (List.mem_cons_self ..)
      have hle := s3.le
      rw [List.map_cons, ih _ _ s3 (fun q hq => hs q (List.mem_cons_of_mem _ hq)), ← e, s1]
      obtain ⟨d, rfl⟩ : ∃ d, hi = lo + d + 1 := ⟨hi - lo - 1, by omega⟩
      rw [show lo + d + 1 - (lo + 1) = d by omega, show lo + d + 1 - lo = d + 1 by omega, List.range'_succ]
  have hp := hpools pools 0 bins.length h2 hsingle
  rw [Nat.sub_zero, ← List.range_eq_range'] at hp
  calc pools.map (fun p => b p.1) = pools.map (fun p => orig p.1) := List.map_congr_left hb
    _ = (pools.map Prod.fst).map orig := by rw [List.map_map]; rfl
    _ = row bins.length orig := by rw [hp]; rfl
    _ = bins := ho.symm

/-- **C40 (fitting).** Fitting terminates on every non-empty list of bins with probabilities in `[0, 1]`, whatever sorted permutation `std::sort`
returns and however thresholds are compared; the result has strictly increasing thresholds and strictly increasing probabilities in `[0, 1]`. -/
theorem fit_fitted_partial [Field K] [LinearOrder K] [IsStrictOrderedRing K] {sort : List (K × K) → List (K × K)} (hsort : SortByThreshold sort)
    {isEqual : K → K → Bool} (hrefl : ∀ x, isEqual x x = true) {bins : List (K × K)} (hne : bins ≠ []) (hb : ∀ b ∈ bins, 0 ≤ b.2 ∧ b.2 ≤ 1)
    (fuel : Nat) (hf : 2 * bins.length < fuel) :
    ∃ r, fitBins sort isEqual fuel bins = Run.done r ∧ Fitted r ∧ r.Pairwise (fun a b => a.2 < b.2) ∧ (∀ b ∈ r, b.1 ∈ bins.map Prod.fst) := by
  obtain ⟨m, h1, h2, h3, h4, h5, h6⟩ := eliminate_thresholds hsort hrefl hne hb
  obtain ⟨r, g1, g2, g3, g4, g5, g6, g7⟩ := aggregate_increasing h2 h4 h5 fuel (by omega)
  refine ⟨r, ?_, ⟨g2, g3, g4.imp le_of_lt, g5⟩, g4, ?_⟩
  · unfold fitBins
    rw [h1, Run.lift_ok, Run.done_bind, g1]
  · intro b hbm
    obtain ⟨c, hc, e⟩ := List.mem_map.1 (g6 b hbm)
    rw [← e]
    exact h6 c hc

/-- **C40 (fitting, all lists).** All lists of bins are fitted independently of each other. -/
theorem fit_lists_partial [Field K] [LinearOrder K] [IsStrictOrderedRing K] {sort : List (K × K) → List (K × K)} (hsort : SortByThreshold sort)
    {isEqual : K → K → Bool} (hrefl : ∀ x, isEqual x x = true) (fuel : Nat) : ∀ (lists : List (List (K × K))),
      (∀ bins ∈ lists, bins ≠ [] ∧ (∀ b ∈ bins, 0 ≤ b.2 ∧ b.2 ≤ 1) ∧ 2 * bins.length < fuel) →
      ∃ r, fit sort isEqual fuel lists = Run.done r ∧ r.length = lists.length ∧
        ∀ (i : Nat) (x y : List (K × K)), lists[i]? = some x → r[i]? = some y → fitBins sort isEqual fuel x = Run.done y ∧ Fitted y := by
  intro lists
  induction lists with
  | nil => intro _; exact ⟨[], rfl, rfl, by simp⟩
  | cons bins lists ih =>
    intro h
    obtain ⟨h1, h2, h3⟩ := h bins (List.mem_cons_self ..)
    obtain ⟨y, g1, g2, -, -⟩ := fit_fitted_partial hsort hrefl h1 h2 fuel h3
    obtain ⟨r, k1, k2, k3⟩ := ih (fun b hb => h b (List.mem_cons_of_mem _ hb))
    refine ⟨y :: r, ?_, by simp [k2], ?_⟩
    · simp only [fit]
      rw [g1, Run.done_bind, k1, Run.done_bind, Run.pure_eq]
    · intro i x z hx hz
      cases i with
      | zero =>
        simp only [List.getElem?_cons_zero, Option.some.injEq] at hx hz
        subst hx; subst hz
        exact ⟨g1, g2⟩
      | succ i => exact k3 i x z (by simpa using hx) (by simpa using hz)

/-! ### C40: calibration -/

/-- **C40 (calibration).** Calibrated probabilities are in `[0, 1]`. Excluded is only a probability of zero if there is a threshold of zero. -/
theorem calibrate_valid_partial [Field K] [LinearOrder K] [IsStrictOrderedRing K] {bins : List (K × K)} (h : Fitted bins) {p : K} (h0 : 0 ≤ p)
    (h1 : p ≤ 1) (hz : 0 < p ∨ ∀ b ∈ bins, 0 < b.1) : ∃ v, calibrateProbability bins p = .ok v ∧ 0 ≤ v ∧ v ≤ 1 := by
  obtain ⟨l, u, b1, b2, b3, b4, b5, b6, b7, -⟩ := bounds_ok h h0 h1 hz
  have := interpolate_bounds b2 b3 b4 b6
  exact ⟨_, calibrate_ok b1 b4, le_trans b5 this.1, le_trans this.2 b7⟩

/-- **C40 (calibration).** Greater probabilities are mapped to calibrated probabilities that are not less. -/
theorem calibrate_monotone_partial [Field K] [LinearOrder K] [IsStrictOrderedRing K] {bins : List (K × K)} (h : Fitted bins) {p p' : K} (h0 : 0 ≤ p)
    (hpp : p ≤ p') (h1 : p' ≤ 1) (hz : 0 < p ∨ ∀ b ∈ bins, 0 < b.1) :
    ∃ v v', calibrateProbability bins p = .ok v ∧ calibrateProbability bins p' = .ok v' ∧ v ≤ v' := by
  obtain ⟨l, u, b1, b2, b3, b4, b5, b6, b7, b8, b9, b10, b11⟩ := bounds_ok h h0 (le_trans hpp h1) hz
  obtain ⟨l', u', c1, c2, c3, c4, c5, c6, c7, c8, c9, c10, c11⟩ := bounds_ok h (le_trans h0 hpp) h1 (hz.imp (fun hz => lt_of_lt_of_le hz hpp) id)
  refine ⟨_, _, calibrate_ok b1 b4, calibrate_ok c1 c4, ?_⟩
  have hlen := (takeWhile_spec (fun b : K × K => decide (b.1 < p')) bins).2.2
  change offsetOf bins p' ≤ _ at hlen
  rcases Nat.lt_or_ge (offsetOf bins p) (offsetOf bins p') with hlt | hge
  · have i1 := (interpolate_bounds b2 b3 b4 b6).2
    have i2 := (interpolate_bounds c2 c3 c4 c6).1
    refine le_trans i1 (le_trans ?_ i2)
    have hu := b9 (by omega)
    have hl := c11 (by omega)
    by_cases e : offsetOf bins p = offsetOf bins p' - 1
    · rw [e, hl] at hu
      simp only [Option.some.injEq] at hu
      rw [hu]
    · exact getElem_pairwise h.values (by omega) hu hl
  · have e : offsetOf bins p = offsetOf bins p' := le_antisymm (offset_mono hpp) hge
    have el : l = l' := by
      by_cases hz : offsetOf bins p = 0
      · rw [b10 hz, c10 (by omega)]
      · have x1 := b11 (by omega)
        have x2 := c11 (by omega)
        rw [e, x2] at x1
        simpa using x1.symm
    have eu : u = u' := by
      by_cases hz : offsetOf bins p = bins.length
      · rw [b8 hz, c8 (by omega)]
      · have x1 := b9 (by omega)
        have x2 := c9 (by omega)
        rw [e, x2] at x1
        simpa using x1.symm
    subst el; subst eu
    have hd : 0 < u.1 - l.1 := sub_pos.2 b4
    have hv : 0 ≤ u.2 - l.2 := sub_nonneg.2 b6
    have : (p - l.1) / (u.1 - l.1) ≤ (p' - l.1) / (u.1 - l.1) := by
      rw [div_le_div_iff_of_pos_right hd]
      linarith
    nlinarith

/-- **C40 (calibration).** At a threshold, the calibrated probability is the one of the bin; a probability of one is mapped to one if it exceeds all
thresholds. -/
theorem calibrate_threshold [Field K] [LinearOrder K] [IsStrictOrderedRing K] {bins : List (K × K)} (h : Fitted bins) :
    (∀ b ∈ bins, 0 < b.1 → b.1 ≤ 1 → calibrateProbability bins b.1 = .ok b.2) ∧
    ((∀ b ∈ bins, b.1 < 1) → calibrateProbability bins 1 = .ok 1) := by
  constructor
  · intro b hb h0 h1
    obtain ⟨l, u, b1, b2, b3, b4, b5, b6, b7, b8, b9, b10, b11⟩ := bounds_ok h h0.le h1 (Or.inl h0)
    rw [calibrate_ok b1 b4]
    obtain ⟨k, hk⟩ := List.mem_iff_getElem?.1 hb
    have hkl := (List.getElem?_eq_some_iff.1 hk).1
    obtain ⟨t1, t2, t3⟩ := takeWhile_spec (fun x : K × K => decide (x.1 < b.1)) bins
    change ∀ i x, i < offsetOf bins b.1 → _ at t1
    change ∀ x, bins[offsetOf bins b.1]? = some x → _ at t2
    change offsetOf bins b.1 ≤ _ at t3
    have ho : offsetOf bins b.1 = k := by
      rcases Nat.lt_trichotomy (offsetOf bins b.1) k with hlt | he | hgt
      · have hg := List.getElem?_eq_getElem (show offsetOf bins b.1 < bins.length by omega)
        have := t2 _ hg
        simp only [decide_eq_false_iff_not, not_lt] at this
        exact absurd (getElem_pairwise h.thresholds hlt hg hk) (not_lt.2 this)
      · exact he
      · have := t1 k b hgt hk
        simp at this
    have hu := b9 (by omega)
    rw [ho, hk] at hu
    simp only [Option.some.injEq] at hu
    subst hu
    rw [div_self (ne_of_gt (sub_pos.2 b4))]
    congr 1
    ring
  · intro hlt
    obtain ⟨l, u, b1, b2, b3, b4, b5, b6, b7, b8, b9, b10, b11⟩ := bounds_ok h (zero_le_one) (le_refl (1 : K)) (Or.inl zero_lt_one)
    rw [calibrate_ok b1 b4]
    obtain ⟨t1, t2, t3⟩ := takeWhile_spec (fun x : K × K => decide (x.1 < 1)) bins
    change ∀ x, bins[offsetOf bins 1]? = some x → _ at t2
    change offsetOf bins 1 ≤ _ at t3
    have ho : offsetOf bins 1 = bins.length := by
      by_contra hne
      have hg := List.getElem?_eq_getElem (show offsetOf bins 1 < bins.length by omega)
      have := t2 _ hg
      simp only [decide_eq_false_iff_not, not_lt] at this
      exact absurd (hlt _ (List.getElem_mem _)) (not_lt.2 this)
    have := b8 ho
    subst this
    rw [div_self (ne_of_gt (sub_pos.2 b4))]
    congr 1
    ring

/-- **C40.** Training and calibration together: for bins with thresholds in `(0, 1)` (marginal probabilities are values of the logistic function) the
calibrated probabilities are monotone and valid for all probabilities in `[0, 1]`. -/
theorem fit_calibrate_partial [Field K] [LinearOrder K] [IsStrictOrderedRing K] {sort : List (K × K) → List (K × K)} (hsort : SortByThreshold sort)
    {isEqual : K → K → Bool} (hrefl : ∀ x, isEqual x x = true) {bins : List (K × K)} (hne : bins ≠ [])
    (hb : ∀ b ∈ bins, 0 < b.1 ∧ 0 ≤ b.2 ∧ b.2 ≤ 1) (fuel : Nat) (hf : 2 * bins.length < fuel) :
    ∃ r, fitBins sort isEqual fuel bins = Run.done r ∧ ∀ p p', 0 ≤ p → p ≤ p' → p' ≤ 1 →
      ∃ v v', calibrateProbability r p = .ok v ∧ calibrateProbability r p' = .ok v' ∧ 0 ≤ v ∧ v ≤ v' ∧ v' ≤ 1 := by
  obtain ⟨r, h1, h2, -, h4⟩ := fit_fitted_partial hsort hrefl hne (fun b hbm => (hb b hbm).2) fuel hf
  have hpos : ∀ b ∈ r, 0 < b.1 := by
    intro b hbm
    obtain ⟨c, hc, e⟩ := List.mem_map.1 (h4 b hbm)
    rw [← e]
    exact (hb c hc).1
  refine ⟨r, h1, fun p p' h0 hpp hp1 => ?_⟩
  obtain ⟨v, v', g1, g2, g3⟩ := calibrate_monotone_partial h2 h0 hpp hp1 (Or.inr hpos)
  obtain ⟨w, k1, k2, -⟩ := calibrate_valid_partial h2 h0 (le_trans hpp hp1) (Or.inr hpos)
  obtain ⟨w', k4, -, k6⟩ := calibrate_valid_partial h2 (le_trans h0 hpp) hp1 (Or.inr hpos)
  rw [g1] at k1
  rw [g2] at k4
  cases k1; cases k4
  exact ⟨v, v', g1, g2, k2, g3, k6⟩

/-! ### C40: what is false -/

/-- An implementation of `std::sort` for the examples. -/
def sortExample (l : List (ℚ × ℚ)) : List (ℚ × ℚ) := l.insertionSort (fun a b => a.1 ≤ b.1)

theorem sortExample_spec : SortByThreshold sortExample where
  perm l := List.perm_insertionSort _ l
  sorted l := by
    have : Std.Total (fun a b : ℚ × ℚ => a.1 ≤ b.1) := ⟨fun a b => le_total a.1 b.1⟩
    have : IsTrans (ℚ × ℚ) (fun a b => a.1 ≤ b.1) := ⟨fun a b c h1 h2 => le_trans h1 h2⟩
    exact List.pairwise_insertionSort _ l

/-- **C40 is false for an empty list of bins** (calibration with an empty holdout set): fitting it accesses the first element. Calibration with a list
without bins accesses the element before the first one. -/
theorem fit_empty_fault (isEqual : ℚ → ℚ → Bool) (fuel : Nat) :
    fitBins sortExample isEqual fuel [] = Run.lift (.error .outOfBounds) ∧ ∀ p : ℚ, calibrateProbability [] p = .error .outOfBounds := by
  constructor
  · rfl
  · intro p
    rfl

/-- **C40 is false for a probability of zero, if there is a threshold of zero**: zero is divided by zero. Such a bin is always added if scores are
sparse (boosting:60-62 and 102-104). -/
theorem calibrate_zero_nan [Field K] [LinearOrder K] [IsStrictOrderedRing K] (v : K) (bins : List (K × K)) :
    calibrateProbability ((0, v) :: bins) 0 = .error .divByZero := by
  simp [calibrateProbability, bounds, readAt, divide, bind, Except.bind, pure, Except.pure]

/-- **Duplicates of the greatest threshold are not averaged**: the probability of the bin that comes last after sorting is used, although the mean of
the probabilities is `1/3`. -/
theorem eliminate_last_group_not_averaged :
    sortAndEliminate sortExample (fun x y => decide (x = y)) [(1/2, 0), (1/2, 0), (1/2, 1)] = .ok [(1/2, 1)] ∧
      meanAt [((1/2 : ℚ), (0 : ℚ)), (1/2, 0), (1/2, 1)] (1/2) = 1/3 := by
  constructor
  · decide +kernel
  · norm_num [meanAt]

/-- **The fitted probabilities do not minimise the squared error** among non-decreasing functions, as isotonic regression does: pools that are merged
are weighted equally, regardless of their sizes. -/
theorem aggregate_not_least_squares :
    aggregateNonIncreasing 20 [((1/10 : ℚ), (1 : ℚ)), (2/10, 0), (3/10, 1), (4/10, 0), (5/10, 0)] = Run.done [(1/10, 5/12)] ∧
      squaredError (List.replicate 5 (2/5 : ℚ)) [1, 0, 1, 0, 0] < squaredError (List.replicate 5 (5/12)) [1, 0, 1, 0, 0] := by
  constructor
  · decide +kernel
  · norm_num [squaredError, List.replicate]

/-! ### Concrete cases -/

/-- Duplicates of the threshold `2/10` are averaged, then the first three bins are merged. -/
example : fitBins sortExample (fun x y => decide (x = y)) 20 [((3/10 : ℚ), (3/4 : ℚ)), (1/10, 1), (2/10, 0), (2/10, 1), (9/10, 1)]
    = Run.done [(1/10, 3/4), (9/10, 1)] := by
  decide +kernel

example : Fitted [((1/10 : ℚ), (1/4 : ℚ)), (1/2, 3/4)] where
  ne := by simp
  thresholds := by norm_num
  values := by norm_num
  unit := by
    intro b hb
    simp at hb
    rcases hb with rfl | rfl <;> norm_num

example : calibrateProbability [((1/10 : ℚ), (1/4 : ℚ)), (1/2, 3/4)] (3/10) = .ok (1/2) := by decide +kernel

example : calibrateProbability [((1/10 : ℚ), (1/4 : ℚ)), (1/2, 3/4)] 1 = .ok 1 := by decide +kernel

/-! ### C54 -/

/-- `areLabelVectorsEqual` tests whether the label vector is a prefix of the labels of the example. -/
theorem areLabelVectorsEqual_iff (labels vector : List Nat) : areLabelVectorsEqual labels vector = true ↔ vector <+: labels := by
  induction vector generalizing labels with
  | nil => cases labels <;> simp [areLabelVectorsEqual]
  | cons y ys ih =>
    cases labels with
    | nil => simp [areLabelVectorsEqual]
    | cons x xs =>
      simp only [areLabelVectorsEqual, List.cons_prefix_cons]
      by_cases e : x = y
      · subst e
        simp [ih]
      · have e' : y ≠ x := fun h => e h.symm
        simp [e, e']

/-- **C54 is false**: the labels `{0, 1}` of an example are considered to be equal to the label vector `{0}`, and to the empty one. -/
theorem areLabelVectorsEqual_wrong : areLabelVectorsEqual [0, 1] [0] = true ∧ ([0, 1] : List Nat) ≠ [0] ∧
    ∀ labels, areLabelVectorsEqual labels [] = true := by
  refine ⟨rfl, by decide, fun labels => ?_⟩
  rw [areLabelVectorsEqual_iff]
  exact List.nil_prefix

/-- **C54, the part that holds**: equal label vectors are recognised, and label vectors with at least as many labels as the example are equal to its
labels exactly if the function returns true. -/
theorem areLabelVectorsEqual_partial (labels vector : List Nat) : (labels = vector → areLabelVectorsEqual labels vector = true) ∧
    (labels.length ≤ vector.length → (areLabelVectorsEqual labels vector = true ↔ labels = vector)) := by
  rw [areLabelVectorsEqual_iff]
  refine ⟨fun h => h ▸ List.prefix_rfl, fun h => ⟨fun hp => ?_, fun h => h ▸ List.prefix_rfl⟩⟩
  exact (hp.eq_of_length (le_antisymm hp.length_le h)).symm

/-- **C54.** The bins that are extracted for the `i`-th label vector: one bin per example, in the order of the examples. Its probability is one if the
label vector is a prefix of the example's labels. -/
theorem extractJoint_bins_partial [Field K] {joint : Nat → List Nat → Nat → Res K} {p : Nat → Nat → K} {indices : List Nat} {labels : List (List Nat)}
    {rel : Nat → List Nat} {vectors : List (List Nat)} {v : Nat → List Nat} (hv : vectors = row vectors.length v)
    (hl : ∀ e ∈ indices, labels[e]? = some (rel e)) (hj : ∀ i < vectors.length, ∀ e ∈ indices, joint i (v i) e = .ok (p i e)) :
    extractJoint joint indices labels vectors (row vectors.length (fun _ => [])) =
      .ok (row vectors.length (fun i => indices.map (fun e => (p i e, if v i <+: rel e then 1 else 0)))) := by
  unfold extractJoint
  refine loop_update _ _ (fun i g hi hg => ?_)
  have hvi : readAt vectors i = .ok (v i) := by
    conv_lhs => rw [hv]
    exact readAt_row v hi
  rw [hvi, ok_bind]
  have := loop_list (l := indices) (body := fun j model => do
      let exampleIndex ← readAt indices j
      let labelRow ← readAt labels exampleIndex
      let q ← joint i (v i) exampleIndex
      addBin model i (q, if areLabelVectorsEqual labelRow (v i) then 1 else 0))
    (fun done => row vectors.length (Function.update g i (done.map (fun e => (p i e, if v i <+: rel e then (1 : K) else 0))))) (by
    intro j e he
    have hm := List.mem_of_getElem? he
    rw [readAt_of_getElem? he, ok_bind, readAt_of_getElem? (hl e hm), ok_bind, hj i hi e hm, ok_bind, addBin_row _ hi, Function.update_self,
      Function.update_idem]
    simp [areLabelVectorsEqual_iff])
  have h0 : Function.update g i (([] : List Nat).map (fun e => (p i e, if v i <+: rel e then (1 : K) else 0))) = g := by
    rw [List.map_nil, ← hg]
    exact Function.update_eq_self i g
  rw [h0] at this
  exact this

example : extractJoint (fun i _ e => .ok ((i + e : Nat) : ℚ)) [1, 0] [[0, 1], [0]] [[0], [0, 1]] [[], []]
    = .ok [[(1, 1), (0, 1)], [(2, 0), (1, 1)]] := by decide +kernel

/-! ### C63 -/

/-- **C63 (dense scores).** Which bins are extracted for fitting marginal probabilities does not depend on the format of the label matrix: one bin per
example and label with the marginal probability and the label. -/
theorem extract_dense_scores [Field K] (marginal : Nat → K → K) {indices : List Nat} {n : Nat} {dense : List (List Bool)} {csr : List (List Nat)}
    {scores : List (List K)} {rel : Nat → List Nat} {sc : Nat → Nat → K} (hsort : ∀ e ∈ indices, (rel e).Pairwise (· < ·))
    (hd : ∀ e ∈ indices, dense[e]? = some (row n (fun j => decide (j ∈ rel e)))) (hc : ∀ e ∈ indices, csr[e]? = some (rel e))
    (hs : ∀ e ∈ indices, scores[e]? = some (row n (sc e))) :
    extractDenseDense marginal indices n dense scores (row n (fun _ => [])) =
        .ok (row n (fun j => indices.map (fun e => (marginal j (sc e j), if j ∈ rel e then 1 else 0)))) ∧
      extractCsrDense marginal indices n csr scores (row n (fun _ => [])) =
        .ok (row n (fun j => indices.map (fun e => (marginal j (sc e j), if j ∈ rel e then 1 else 0)))) := by
  rw [extractDenseDense_ok marginal (rel := fun e j => decide (j ∈ rel e)) hd hs, extractCsrDense_ok marginal hc hsort hs]
  simp [indicator]

/-- **C63 (sparse scores).** If for each label there is an example without a score, the bins do not depend on the format of the label matrix: the first
bin has the threshold zero and the mean of the labels of all examples without a score; there is one further bin per example with a score. -/
theorem extract_sparse_scores_partial [Field K] [DecidableEq K] [CharZero K] (marginal : Nat → K → K) {indices : List Nat} {n : Nat}
    (hn : n ≤ SparseSet.maxIndex) {dense : List (List Bool)} {csr : List (List Nat)}
    {scores : List (SparseSet K)} {rel : Nat → List Nat} {sc : Nat → Nat → Option K} (hsort : ∀ e ∈ indices, (rel e).Pairwise (· < ·))
    (hlt : ∀ e ∈ indices, ∀ c ∈ rel e, c < n)
    (hd : ∀ e ∈ indices, dense[e]? = some (row n (fun j => decide (j ∈ rel e)))) (hc : ∀ e ∈ indices, csr[e]? = some (rel e))
    (hs : ∀ e ∈ indices, ∃ s, scores[e]? = some s ∧ SparseSet.Rep n s (sc e)) (hmiss : ∀ c < n, ∃ e ∈ indices, sc e c = none) :
    ∃ first : Nat → K, (∀ j < n, first j = ((indices.filter (fun e => (sc e j).isNone)).map (fun e => if j ∈ rel e then (1 : K) else 0)).sum
        / ((indices.filter (fun e => (sc e j).isNone)).length : K)) ∧
      extractDenseSparse marginal indices n dense scores (row n (fun _ => [])) =
        .ok (row n (fun j => (0, first j) :: indices.filterMap (fun e => (sc e j).map (fun v => (marginal j v, if j ∈ rel e then 1 else 0))))) ∧
      extractCsrSparse marginal indices n csr scores (row n (fun _ => [])) =
        .ok (row n (fun j => (0, first j) :: indices.filterMap (fun e => (sc e j).map (fun v => (marginal j v, if j ∈ rel e then 1 else 0))))) := by
  refine ⟨missingMean (fun e j => decide (j ∈ rel e)) sc indices, ?_, ?_, ?_⟩
  · intro j hj
    obtain ⟨e, he, hse⟩ := hmiss j hj
    have hpos : 0 < (indices.filter (fun e => (sc e j).isNone)).length :=
      List.length_pos_of_mem (List.mem_filter.2 ⟨he, by simp [hse]⟩)
    unfold missingMean
    rw [if_neg (by omega)]
    simp [indicator]
  · rw [extractDenseSparse_ok marginal hn (rel := fun e j => decide (j ∈ rel e)) hd hs]
    simp [presentBins, indicator]
  · rw [extractCsrSparse_ok marginal hc hsort hlt hs hmiss]
    simp [presentBins, indicator]

/-- A row of a sparse score matrix with a single column and the score 2. -/
def scoreRowExample : SparseSet ℚ := { values := [(0, 2)], indices := [0] }

/-- **C63 is false if all examples have a score for a label**: with a CSR label matrix zero is divided by zero, with a dense one a bin with the threshold
zero and the probability zero is added that does not stand for any example. -/
theorem extract_sparse_all_present :
    extractCsrSparse (fun _ s => s) [0] 1 [[0]] [scoreRowExample] [[]] = .error .divByZero ∧
      extractDenseSparse (fun _ s => s) [0] 1 [[true]] [scoreRowExample] [[]] = .ok [[(0, 0), (2, 1)]] := by
  constructor <;> decide +kernel

/-- **C63 is false for the format of the scores**: an example without a score has a score of zero; if the scores are dense, the threshold is the marginal
probability of zero (for instance `1/2`), but if they are sparse, it is zero. -/
theorem extract_dense_sparse_differ :
    extractDenseDense (fun _ s => if s = 0 then 1/2 else s) [0] 1 [[true]] [[(0 : ℚ)]] [[]] = .ok [[(1/2, 1)]] ∧
      extractDenseSparse (fun _ s => if s = 0 then 1/2 else s) [0] 1 [[true]] [(SparseSet.init 1 : SparseSet ℚ)] [[]] = .ok [[(0, 1)]] := by
  constructor <;> decide +kernel

end MLRL.Isotonic
