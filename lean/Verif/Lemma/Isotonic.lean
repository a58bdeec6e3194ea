import Verif.Model.Isotonic
import Verif.Spec.Isotonic
import Verif.Lemma.LabelVectors
import Mathlib.Tactic.Linarith
import Mathlib.Tactic.FieldSimp
import Mathlib.Tactic.Ring
import Mathlib.Algebra.Order.Field.Basic
import Mathlib.Logic.Function.Basic

/-!
# Lemmas about the isotonic calibration of probabilities
-/

set_option linter.unusedSectionVars false

namespace MLRL.Isotonic

open Iterators Stopping Loss LabelVectors

variable {K : Type}

/-! ### Arrays as functions -/

theorem readAt_row {A : Type} {n : Nat} (b : Nat → A) {i : Nat} (h : i < n) : readAt (row n b) i = .ok (b i) := by
  refine readAt_of_getElem? ?_
  simp [row, h]

theorem length_row {A : Type} (n : Nat) (b : Nat → A) : (row n b).length = n := by simp [row]

theorem writeAt_row {A : Type} {n : Nat} (b : Nat → A) {i : Nat} (h : i < n) (v : A) :
    writeAt (row n b) i v = .ok (row n (Function.update b i v)) := by
  rw [writeAt_of_lt (by rw [length_row]; exact h)]
  congr 1
  refine List.ext_getElem? (fun c => ?_)
  simp only [row, List.getElem?_set, List.getElem?_map, List.length_map, List.length_range, Function.update_apply]
  by_cases e : i = c
  · subst e
    simp [h]
  · have e' : c ≠ i := fun hh => e hh.symm
    by_cases hc : c < n <;> simp [e, e', hc, List.getElem?_range]

/-! ### Means -/

theorem mean_bounds [Field K] [LinearOrder K] [IsStrictOrderedRing K] {lo hi x m : K} {n : Nat} (hn : 1 ≤ n) (h1 : lo ≤ x) (h2 : x ≤ hi)
    (h3 : lo ≤ m) (h4 : m ≤ hi) : lo ≤ iterativeArithmeticMean n x m ∧ iterativeArithmeticMean n x m ≤ hi := by
  unfold iterativeArithmeticMean
  have hp : (0 : K) < n := by exact_mod_cast hn
  have h1' : (1 : K) ≤ n := by exact_mod_cast hn
  have e : m + (x - m) / (n : K) = (((n : K) - 1) * m + x) / n := by field_simp; ring
  rw [e, le_div_iff₀ hp, div_le_iff₀ hp]
  constructor <;> nlinarith

/-! ### Pools -/

/-- The pools `l` (pairs of the first and last position) cover the positions from `lo` to `hi - 1` in order. -/
def Seg : List (Nat × Nat) → Nat → Nat → Prop
  | [], lo, hi => lo = hi
  | p :: l, lo, hi => p.1 = lo ∧ p.1 ≤ p.2 ∧ Seg l (p.2 + 1) hi

theorem Seg.append {l r : List (Nat × Nat)} {lo hi : Nat} : Seg (l ++ r) lo hi ↔ ∃ m, Seg l lo m ∧ Seg r m hi := by
  induction l generalizing lo with
  | nil => simp [Seg]
  | cons p l ih =>
    simp only [List.cons_append, Seg, ih]
    constructor
    · rintro ⟨h1, h2, m, h3, h4⟩
      exact ⟨m, ⟨h1, h2, h3⟩, h4⟩
    · rintro ⟨m, ⟨h1, h2, h3⟩, h4⟩
      exact ⟨h1, h2, m, h3, h4⟩

theorem Seg.le {l : List (Nat × Nat)} {lo hi : Nat} (h : Seg l lo hi) : lo + l.length ≤ hi := by
  induction l generalizing lo with
  | nil => exact Nat.le_of_eq h
  | cons p l ih =>
    obtain ⟨h1, h2, h3⟩ := h
    have := ih h3
    simp only [List.length_cons]
    omega

theorem Seg.mem {l : List (Nat × Nat)} {lo hi : Nat} (h : Seg l lo hi) {p : Nat × Nat} (hp : p ∈ l) : lo ≤ p.1 ∧ p.1 ≤ p.2 ∧ p.2 < hi := by
  induction l generalizing lo with
  | nil => cases hp
  | cons q l ih =>
    obtain ⟨h1, h2, h3⟩ := h
    have hle := h3.le
    rcases List.mem_cons.1 hp with rfl | hp
    · omega
    · have := ih h3 hp
      omega

theorem Seg.singletons (n lo : Nat) : Seg ((List.range' lo n).map (fun k => (k, k))) lo (lo + n) := by
  induction n generalizing lo with
  | zero => simp [Seg]
  | succ n ih =>
    simp only [List.range'_succ, List.map_cons, Seg, le_refl, true_and]
    have := ih (lo + 1)
    rwa [show lo + 1 + n = lo + (n + 1) by omega] at this

theorem Seg.pairwise {l : List (Nat × Nat)} {lo hi : Nat} (h : Seg l lo hi) : l.Pairwise (fun p q => p.2 < q.1) := by
  induction l generalizing lo with
  | nil => exact List.Pairwise.nil
  | cons q l ih =>
    obtain ⟨h1, h2, h3⟩ := h
    exact List.Pairwise.cons (fun p hp => by have := h3.mem hp; omega) (ih h3)

/-- `v` lies between any bounds of the probabilities of the bins of the pool `p`. -/
def Hull [LE K] (orig : Nat → K × K) (p : Nat × Nat) (v : K) : Prop :=
  ∀ lo hi, (∀ k, p.1 ≤ k → k ≤ p.2 → lo ≤ (orig k).2 ∧ (orig k).2 ≤ hi) → lo ≤ v ∧ v ≤ hi

/-- A pool with several bins contains a bin whose probability is not greater than the one of the previous bin. -/
def Violating [LE K] (orig : Nat → K × K) (p : Nat × Nat) : Prop :=
  p.1 < p.2 → ∃ k, p.1 ≤ k ∧ k < p.2 ∧ (orig (k + 1)).2 ≤ (orig k).2

/-- What holds for a pool `p`, if the bins are given by `b` and the array `pools` by `q`. -/
structure PoolOk [LE K] (orig b : Nat → K × K) (q : Nat → Nat) (p : Nat × Nat) : Prop where
  last : q p.1 = p.2
  first : q p.2 = p.1
  threshold : (b p.1).1 = (orig p.1).1
  hull : Hull orig p (b p.1).2
  violating : Violating orig p

theorem increasing_of_not_violating [LinearOrder K] {orig : Nat → K × K} {a : Nat} : ∀ {c : Nat}, a ≤ c →
    (∀ k, a ≤ k → k < c → (orig k).2 < (orig (k + 1)).2) → ∀ k, a ≤ k → k ≤ c → (orig a).2 ≤ (orig k).2 ∧ (orig k).2 ≤ (orig c).2 := by
  intro c
  induction c with
  | zero =>
    intro h1 h2 k h3 h4
    have e1 : a = 0 := by omega
    have e2 : k = 0 := by omega
    subst e1; subst e2
    exact ⟨le_refl _, le_refl _⟩
  | succ c ih =>
    intro h1 h2 k h3 h4
    by_cases e : a = c + 1
    · have : k = c + 1 := by omega
      subst this; subst e
      exact ⟨le_refl _, le_refl _⟩
    · have hac : a ≤ c := by omega
      have hi := ih hac (fun k g1 g2 => h2 k g1 (by omega))
      have hl := h2 c hac (by omega)
      by_cases e2 : k = c + 1
      · subst e2
        exact ⟨le_trans (hi c hac (le_refl _)).1 hl.le, le_refl _⟩
      · have := hi k h3 (by omega)
        exact ⟨this.1, le_trans this.2 hl.le⟩

/-- Two neighbouring pools are merged only if the union contains a violation. -/
theorem merge_violating [LinearOrder K] {orig : Nat → K × K} {p r : Nat × Nat} {v w : K} (hp : p.1 ≤ p.2) (hr : r.1 ≤ r.2) (e : r.1 = p.2 + 1)
    (h1 : Hull orig p v) (h2 : Hull orig r w) (h : w ≤ v) : ∃ k, p.1 ≤ k ∧ k < r.2 ∧ (orig (k + 1)).2 ≤ (orig k).2 := by
  by_contra hc
  push Not at hc
  have a1 := increasing_of_not_violating (orig := orig) (a := p.1) (c := p.2) hp (fun k g1 g2 => hc k g1 (by omega))
  have a2 := increasing_of_not_violating (orig := orig) (a := r.1) (c := r.2) hr (fun k g1 g2 => hc k (by omega) g2)
  have b1 := (h1 _ _ a1).2
  have b2 := (h2 _ _ a2).1
  have b3 := hc p.2 hp (by omega)
  rw [← e] at b3
  exact absurd h (not_le.2 (lt_of_le_of_lt b1 (lt_of_lt_of_le b3 b2)))

theorem Hull.mono [LE K] {orig : Nat → K × K} {p r : Nat × Nat} {v : K} (h : Hull orig p v) (h1 : r.1 ≤ p.1) (h2 : p.2 ≤ r.2) : Hull orig r v :=
  fun lo hi hk => h lo hi (fun k g1 g2 => hk k (by omega) (by omega))

theorem Hull.mean [Field K] [LinearOrder K] [IsStrictOrderedRing K] {orig : Nat → K × K} {p : Nat × Nat} {v w : K} (h1 : Hull orig p v)
    (h2 : Hull orig p w) {n : Nat} (hn : 1 ≤ n) : Hull orig p (iterativeArithmeticMean n v w) := by
  intro lo hi hk
  obtain ⟨a1, a2⟩ := h1 lo hi hk
  obtain ⟨b1, b2⟩ := h2 lo hi hk
  exact mean_bounds hn a1 a2 b1 b2

theorem aggregateInner_ok [Field K] [LinearOrder K] [IsStrictOrderedRing K] {orig : Nat → K × K} {n i c : Nat} {q : Nat → Nat} (hc : c < n) (hic : i < c)
    (R : List (Nat × Nat)) : ∀ (b : Nat → K × K) (count j e fuel : Nat), R.length < fuel → j < n → q j = e → c ≤ e → Seg R (e + 1) n →
      (∀ p ∈ R, PoolOk orig b q p) → Hull orig (i, e) (b i).2 →
      ∃ b' j' R0 R', aggregateInner n (row n q) i c fuel (row n b) count j = Run.done (row n b', j') ∧ R = R0 ++ R' ∧ Seg R' j' n ∧ e < j' ∧
        (∀ k, k ≠ i → k ≠ c → b' k = b k) ∧ (b' i).1 = (b i).1 ∧ Hull orig (i, j' - 1) (b' i).2 := by
  induction R with
  | nil =>
    intro b count j e fuel hf hj hq hce hseg hR hh
    obtain ⟨fuel, rfl⟩ : ∃ k, fuel = k + 1 := ⟨fuel - 1, by simp at hf; omega⟩
    have hn : e + 1 = n := hseg
    refine ⟨b, n, [], [], ?_, rfl, rfl, by omega, fun _ _ _ => rfl, rfl, ?_⟩
    · simp only [aggregateInner]
      rw [readAt_row q hj, Run.lift_ok, Run.done_bind, hq, if_neg (by omega), hn]
    · rwa [← hn]
  | cons p R ih =>
    intro b count j e fuel hf hj hq hce hseg hR hh
    obtain ⟨fuel, rfl⟩ : ∃ k, fuel = k + 1 := ⟨fuel - 1, by omega⟩
    have hp := hR p (List.mem_cons_self ..)
    have hm := hseg.mem (List.mem_cons_self ..)
    obtain ⟨s1, s2, s3⟩ := hseg
    simp only [aggregateInner]
    rw [readAt_row q hj, Run.lift_ok, Run.done_bind, hq, if_pos (by omega), readAt_row b (by omega), Run.lift_ok, Run.done_bind,
      readAt_row b hc, Run.lift_ok, Run.done_bind]
    by_cases hgt : (b (e + 1)).2 > (b c).2
    · rw [if_pos hgt]
      refine ⟨b, e + 1, [], p :: R, rfl, rfl, ⟨s1, s2, s3⟩, by omega, fun _ _ _ => rfl, rfl, ?_⟩
      simpa using hh
    · rw [if_neg hgt, readAt_row b (by omega), Run.lift_ok, Run.done_bind, writeAt_row b (by omega), Run.lift_ok, Run.done_bind,
        writeAt_row _ hc, Run.lift_ok, Run.done_bind]
      have hb : ∀ k, e < k → (Function.update (Function.update b i ((b i).1, iterativeArithmeticMean (count + 1) (b (e + 1)).2 (b i).2)) c (b (e + 1))) k
          = b k := by
        intro k hk
        rw [Function.update_of_ne (by omega), Function.update_of_ne (by omega)]
      have hbi : (Function.update (Function.update b i ((b i).1, iterativeArithmeticMean (count + 1) (b (e + 1)).2 (b i).2)) c (b (e + 1))) i
          = ((b i).1, iterativeArithmeticMean (count + 1) (b (e + 1)).2 (b i).2) := by
        rw [Function.update_of_ne (by omega), Function.update_self]
      obtain ⟨b', j', R0, R', g1, g2, g3, g4, g5, g6, g7⟩ := ih
        (Function.update (Function.update b i ((b i).1, iterativeArithmeticMean (count + 1) (b (e + 1)).2 (b i).2)) c (b (e + 1)))
        (count + 1) (e + 1) p.2 fuel (by simp only [List.length_cons] at hf; omega) (by omega) (by rw [← s1]; exact hp.last) (by omega) s3
        (by
          intro r hr
          have hr' := hR r (List.mem_cons_of_mem _ hr)
          have hrm := s3.mem hr
          have := hb r.1 (by omega)
          exact ⟨hr'.last, hr'.first, by rw [this]; exact hr'.threshold, by rw [this]; exact hr'.hull, hr'.violating⟩)
        (by
          rw [hbi]
          refine Hull.mean (p := (i, p.2)) ?_ (hh.mono (le_refl _) (by show e ≤ p.2; omega)) (by omega)
          have := hp.hull
          rw [s1] at this
          exact this.mono (by show i ≤ p.1; omega) (le_refl _))
      refine ⟨b', j', p :: R0, R', g1, by rw [g2]; rfl, g3, by omega, ?_, ?_, g7⟩
      · intro k h1 h2
        rw [g5 k h1 h2, Function.update_of_ne h2, Function.update_of_ne h1]
      · rw [g6, hbi]

/-- The state of the outer loop: `l` are the pools before the current one, `cur` is the current pool and `r` are the pools after it. -/
structure PavaOk [LinearOrder K] (orig : Nat → K × K) (n : Nat) (l : List (Nat × Nat)) (cur : Nat × Nat) (r : List (Nat × Nat)) (b : Nat → K × K)
    (q : Nat → Nat) : Prop where
  seg : Seg (l ++ cur :: r) 0 n
  pool : ∀ p ∈ l ++ cur :: r, PoolOk orig b q p
  chain : (l ++ [cur]).Pairwise (fun p p' => (b p.1).2 < (b p'.1).2)

theorem mergePools_ok [Field K] [LinearOrder K] [IsStrictOrderedRing K] {orig : Nat → K × K} {n : Nat} {l : List (Nat × Nat)} {cur p : Nat × Nat}
    {r : List (Nat × Nat)} {b : Nat → K × K} {q : Nat → Nat} (h : PavaOk orig n l cur (p :: r) b q) (hv : (b p.1).2 ≤ (b cur.1).2) (fuel : Nat)
    (hf : n < fuel) (j0 : Nat) :
    ∃ l' cur' r' b' q' j', mergePools n fuel { bins := row n b, pools := row n q, i := cur.1, j := j0 } p.1
        = Run.done { bins := row n b', pools := row n q', i := cur'.1, j := j' } ∧ PavaOk orig n l' cur' r' b' q' ∧
      (l' ++ cur' :: r').length + r'.length < (l ++ cur :: p :: r).length + (p :: r).length ∧ (j' < n ∨ (r' = [] ∧ j' = n)) := by
  obtain ⟨m, sl, sc⟩ := Seg.append.1 h.seg
  obtain ⟨c1, c2, sp⟩ := sc
  have hpm := sp.mem (List.mem_cons_self ..)
  obtain ⟨p1, p2, sr⟩ := sp
  have hcur := h.pool cur (by simp)
  have hp := h.pool p (by simp)
  have hle := sr.le
  unfold mergePools
  simp only
  rw [readAt_row b (by omega), Run.lift_ok, Run.done_bind, readAt_row b (by omega), Run.lift_ok, Run.done_bind, writeAt_row b (by omega), Run.lift_ok,
    Run.done_bind]
  have hb : ∀ k, k ≠ cur.1 → (Function.update b cur.1 ((b cur.1).1, iterativeArithmeticMean 2 (b p.1).2 (b cur.1).2)) k = b k :=
    fun k hk => Function.update_of_ne hk ..
  obtain ⟨b', j', R0, R', g1, g2, g3, g4, g5, g6, g7⟩ := aggregateInner_ok (orig := orig) (n := n) (i := cur.1) (c := p.1) (q := q) (by omega)
    (by omega) r (Function.update b cur.1 ((b cur.1).1, iterativeArithmeticMean 2 (b p.1).2 (b cur.1).2)) 2 p.1 p.2 fuel (by omega) (by omega) hp.last p2 sr
    (by
      intro t ht
      have ht' := h.pool t (by simp [ht])
      have htm := sr.mem ht
      have := hb t.1 (by omega)
      exact ⟨ht'.last, ht'.first, by rw [this]; exact ht'.threshold, by rw [this]; exact ht'.hull, ht'.violating⟩)
    (by
      rw [Function.update_self]
      refine Hull.mean ?_ ?_ (by omega)
      · exact hp.hull.mono (by show cur.1 ≤ p.1; omega) (le_refl _)
      · exact hcur.hull.mono (le_refl _) (by show cur.2 ≤ p.2; omega))
  have hj' := g3.le
  rw [g1, Run.done_bind]
  simp only
  rw [writeAt_row q (by omega), Run.lift_ok, Run.done_bind, writeAt_row _ (by omega), Run.lift_ok, Run.done_bind]
  -- facts about the new arrays
  have hq : ∀ k, k ≠ cur.1 → k ≠ j' - 1 → Function.update (Function.update q cur.1 (j' - 1)) (j' - 1) cur.1 k = q k := by
    intro k h1 h2
    rw [Function.update_of_ne h2, Function.update_of_ne h1]
  have hbk : ∀ k, k < cur.1 ∨ p.2 < k → b' k = b k := by
    intro k hk
    rw [g5 k (by omega) (by omega), hb k (by omega)]
  have hcase : ∀ t, t ∈ l ∨ t ∈ R' → PoolOk orig b' (Function.update (Function.update q cur.1 (j' - 1)) (j' - 1) cur.1) t := by
    intro t ht
    have ht' := h.pool t (by
      rcases ht with ht | ht
      · simp [ht]
      · simp [g2, ht])
    have hpos : (t.1 ≤ t.2 ∧ t.2 < cur.1) ∨ (j' ≤ t.1 ∧ t.1 ≤ t.2) := by
      rcases ht with ht | ht
      · have := sl.mem ht
        omega
      · have := g3.mem ht
        omega
    have e1 := hbk t.1 (by omega)
    exact ⟨by rw [hq t.1 (by omega) (by omega)]; exact ht'.last, by rw [hq t.2 (by omega) (by omega)]; exact ht'.first,
      by rw [e1]; exact ht'.threshold, by rw [e1]; exact ht'.hull, ht'.violating⟩
  have hnew : PoolOk orig b' (Function.update (Function.update q cur.1 (j' - 1)) (j' - 1) cur.1) (cur.1, j' - 1) := by
    refine ⟨?_, ?_, ?_, g7, ?_⟩
    · show Function.update (Function.update q cur.1 (j' - 1)) (j' - 1) cur.1 cur.1 = j' - 1
      rw [Function.update_of_ne (by omega), Function.update_self]
    · show Function.update (Function.update q cur.1 (j' - 1)) (j' - 1) cur.1 (j' - 1) = cur.1
      rw [Function.update_self]
    · show (b' cur.1).1 = _
      rw [g6, Function.update_self]
      exact hcur.threshold
    · intro _
      obtain ⟨k, k1, k2, k3⟩ := merge_violating c2 p2 p1 hcur.hull hp.hull hv
      exact ⟨k, k1, by show k < j' - 1; omega, k3⟩
  have hlen : r.length = R0.length + R'.length := by rw [g2]; simp
  have hsegm : Seg ((cur.1, j' - 1) :: R') m n := by
    refine ⟨c1, by show cur.1 ≤ j' - 1; omega, ?_⟩
    show Seg R' (j' - 1 + 1) n
    rwa [show j' - 1 + 1 = j' by omega]
  rcases List.eq_nil_or_concat l with rfl | ⟨l', prev, rfl⟩
  · have h0 : cur.1 = 0 := by
      have : (0 : Nat) = m := sl
      omega
    rw [if_neg (by omega)]
    refine ⟨[], (cur.1, j' - 1), R', b', _, j', rfl, ⟨?_, ?_, by simp⟩, ?_, ?_⟩
    · have : (0 : Nat) = m := sl
      rw [this]
      exact hsegm
    · intro t ht
      rcases List.mem_cons.1 ht with rfl | ht
      · exact hnew
      · exact hcase t (Or.inr ht)
    · simp only [List.nil_append, List.length_cons]
      omega
    · cases R' with
      | nil =>
        have : j' = n := g3
        exact Or.inr ⟨rfl, this⟩
      | cons t R' =>
        have := g3.mem (List.mem_cons_self ..)
        exact Or.inl (by omega)
  · rw [List.concat_eq_append] at *
    obtain ⟨m', sl1, sl2⟩ := Seg.append.1 sl
    obtain ⟨v1, v2, v3⟩ := sl2
    have v3 : prev.2 + 1 = m := v3
    have hprev := h.pool prev (by simp)
    have hqp : Function.update (Function.update q cur.1 (j' - 1)) (j' - 1) cur.1 (cur.1 - 1) = prev.1 := by
      rw [hq (cur.1 - 1) (by omega) (by omega), show cur.1 - 1 = prev.2 by omega]
      exact hprev.first
    rw [if_pos (by omega), readAt_row _ (by omega), Run.lift_ok, Run.done_bind, hqp]
    refine ⟨l', prev, (cur.1, j' - 1) :: R', b', _, prev.1, rfl, ⟨?_, ?_, ?_⟩, ?_, ?_⟩
    · refine Seg.append.2 ⟨m', sl1, v1, v2, ?_⟩
      rwa [v3]
    · intro t ht
      simp only [List.mem_append, List.mem_cons] at ht
      rcases ht with ht | rfl | rfl | ht
      · exact hcase t (Or.inl (by simp [ht]))
      · exact hcase _ (Or.inl (by simp))
      · exact hnew
      · exact hcase t (Or.inr ht)
    · have := h.chain.sublist (List.sublist_append_left (l' ++ [prev]) [cur])
      refine this.imp_of_mem ?_
      intro a c ha hc hac
      have ha' := sl.mem ha
      have hc' := sl.mem hc
      rw [hbk a.1 (by omega), hbk c.1 (by omega)]
      exact hac
    · simp only [List.length_append, List.length_cons, List.length_nil]
      omega
    · exact Or.inl (by omega)

theorem aggregateOuter_ok [Field K] [LinearOrder K] [IsStrictOrderedRing K] {orig : Nat → K × K} {n innerFuel : Nat} (hin : n < innerFuel) :
    ∀ (fuel : Nat) (l : List (Nat × Nat)) (cur : Nat × Nat) (r : List (Nat × Nat)) (b : Nat → K × K) (q : Nat → Nat) (j : Nat),
      PavaOk orig n l cur r b q → (l ++ cur :: r).length + r.length < fuel → (j < n ∨ (r = [] ∧ j = n)) →
      ∃ l' cur' b' q' i' j', aggregateOuter n innerFuel fuel { bins := row n b, pools := row n q, i := cur.1, j := j }
        = Run.done { bins := row n b', pools := row n q', i := i', j := j' } ∧ PavaOk orig n l' cur' [] b' q' := by
  intro fuel
  induction fuel with
  | zero => intro l cur r b q j h hf; omega
  | succ fuel ih =>
    intro l cur r b q j h hf hj
    obtain ⟨m, sl, sc⟩ := Seg.append.1 h.seg
    have hcm := sc.mem (List.mem_cons_self ..)
    obtain ⟨c1, c2, sr⟩ := sc
    have hcur := h.pool cur (by simp)
    simp only [aggregateOuter]
    rcases hj with hj | ⟨rfl, hj⟩
    · rw [if_pos ⟨by omega, hj⟩, readAt_row q (by omega), Run.lift_ok, Run.done_bind, hcur.last]
      cases r with
      | nil =>
        have : cur.2 + 1 = n := sr
        rw [if_neg (by omega)]
        exact ⟨l, cur, b, q, cur.1, cur.2 + 1, rfl, h⟩
      | cons p r =>
        have hpm := sr.mem (List.mem_cons_self ..)
        have p1 := sr.1
        rw [if_pos (by omega), readAt_row b (by omega), Run.lift_ok, Run.done_bind, readAt_row b (by omega), Run.lift_ok, Run.done_bind, ← p1]
        by_cases hgt : (b p.1).2 > (b cur.1).2
        · rw [if_pos hgt]
          obtain ⟨l', cur', b', q', i', j', g1, g2⟩ := ih (l ++ [cur]) p r b q p.1
            ⟨by simpa using h.seg, by simpa using h.pool, by
              rw [List.pairwise_append]
              refine ⟨h.chain, by simp, ?_⟩
              intro a ha c hc
              simp only [List.mem_singleton] at hc
              subst hc
              have hch := h.chain
              rw [List.pairwise_append] at hch
              rcases List.mem_append.1 ha with ha | ha
              · exact lt_trans (hch.2.2 a ha cur (by simp)) hgt
              · simp only [List.mem_singleton] at ha
                subst ha
                exact hgt⟩ (by
              simp only [List.length_append, List.length_cons, List.length_nil] at hf ⊢
              omega) (Or.inl (by omega))
          exact ⟨l', cur', b', q', i', j', g1, g2⟩
        · rw [if_neg hgt]
          obtain ⟨l', cur', r', b', q', j', g1, g2, g3, g4⟩ := mergePools_ok h (not_lt.1 hgt) innerFuel hin j
          rw [g1, Run.done_bind]
          exact ih l' cur' r' b' q' j' g2 (by omega) g4
    · rw [if_neg (by omega)]
      exact ⟨l, cur, b, q, cur.1, j, rfl, h⟩

theorem compact_ok {n : Nat} {q : Nat → Nat} : ∀ (r : List (Nat × Nat)) (b : Nat → K × K) (i j fuel : Nat) (out : List (K × K)), Seg r i n →
    (∀ p ∈ r, q p.1 = p.2) → r.length < fuel → j ≤ i → out = row j b →
    ∃ b', compact n (row n q) fuel (row n b) i j = Run.done (row n b', j + r.length) ∧ row (j + r.length) b' = out ++ r.map (fun p => b p.1) := by
  intro r
  induction r with
  | nil =>
    intro b i j fuel out hs hq hf hj ho
    obtain ⟨fuel, rfl⟩ : ∃ k, fuel = k + 1 := ⟨fuel - 1, by simp at hf; omega⟩
    have : i = n := hs
    refine ⟨b, ?_, by simp [ho]⟩
    simp only [compact]
    rw [if_neg (by omega)]
    simp
  | cons p r ih =>
    intro b i j fuel out hs hq hf hj ho
    obtain ⟨fuel, rfl⟩ : ∃ k, fuel = k + 1 := ⟨fuel - 1, by omega⟩
    have hm := hs.mem (List.mem_cons_self ..)
    obtain ⟨s1, s2, s3⟩ := hs
    simp only [compact]
    rw [if_pos (by omega), readAt_row b (by omega), Run.lift_ok, Run.done_bind, writeAt_row b (by omega), Run.lift_ok, Run.done_bind,
      readAt_row q (by omega), Run.lift_ok, Run.done_bind, ← s1, hq p (List.mem_cons_self ..)]
    obtain ⟨b', g1, g2⟩ := ih (Function.update b j (b p.1)) (p.2 + 1) (j + 1) fuel (out ++ [b p.1]) s3 (fun t ht => hq t (List.mem_cons_of_mem _ ht))
      (by simp only [List.length_cons] at hf; omega) (by omega) (by
        rw [ho]
        simp only [row, List.range_succ, List.map_append, List.map_cons, List.map_nil, Function.update_self]
        congr 1
        refine List.map_congr_left (fun k hk => ?_)
        rw [Function.update_of_ne (by have := List.mem_range.1 hk; omega)])
    have e : j + (p :: r).length = j + 1 + r.length := by simp only [List.length_cons]; omega
    refine ⟨b', by rw [g1, e], ?_⟩
    rw [e, g2, List.map_cons, List.append_assoc, List.singleton_append]
    congr 2
    refine List.map_congr_left (fun t ht => ?_)
    have := s3.mem ht
    rw [Function.update_of_ne (by omega)]

/-- The result of the aggregation: one bin per pool. -/
theorem aggregateNonIncreasing_ok [Field K] [LinearOrder K] [IsStrictOrderedRing K] {orig : Nat → K × K} {n : Nat} (hn : 1 ≤ n) (fuel : Nat)
    (hf : 2 * n < fuel) :
    ∃ (pools : List (Nat × Nat)) (b : Nat → K × K), aggregateNonIncreasing fuel (row n orig) = Run.done (pools.map (fun p => b p.1)) ∧ Seg pools 0 n ∧
      (∀ p ∈ pools, (b p.1).1 = (orig p.1).1 ∧ Hull orig p (b p.1).2 ∧ Violating orig p) ∧
      pools.Pairwise (fun p p' => (b p.1).2 < (b p'.1).2) := by
  unfold aggregateNonIncreasing
  simp only [length_row]
  have hrange : List.range n = row n id := by simp [row]
  have hsing := Seg.singletons n 0
  have hcons : (List.range' 0 n).map (fun k => (k, k)) = (0, 0) :: (List.range' 1 (n - 1)).map (fun k => (k, k)) := by
    obtain ⟨k, rfl⟩ : ∃ k, n = k + 1 := ⟨n - 1, by omega⟩
    simp [List.range'_succ]
  rw [hcons, Nat.zero_add] at hsing
  have hinit : PavaOk orig n [] (0, 0) ((List.range' 1 (n - 1)).map (fun k => (k, k))) orig id := by
    refine ⟨hsing, ?_, by simp⟩
    intro p hp
    rw [List.nil_append, ← hcons, List.mem_map] at hp
    obtain ⟨k, hk, rfl⟩ := hp
    exact ⟨rfl, rfl, rfl, fun lo hi h => h k (le_refl _) (le_refl _), fun h => absurd h (lt_irrefl _)⟩
  obtain ⟨l, cur, b, q, i', j', g1, g2⟩ := aggregateOuter_ok (n := n) (innerFuel := fuel) (by omega) fuel [] (0, 0) _ orig id 0 hinit
    (by simp; omega) (Or.inl (by omega))
  rw [hrange, g1, Run.done_bind]
  obtain ⟨b', c1, c2⟩ := compact_ok (n := n) (q := q) (l ++ [cur]) b 0 0 fuel [] (by simpa using g2.seg)
    (fun p hp => (g2.pool p hp).last) (by
      have := g2.seg.le
      omega) (le_refl _) (by simp [row])
  simp only
  rw [c1, Run.done_bind]
  refine ⟨l ++ [cur], b, ?_, g2.seg, fun p hp => ⟨(g2.pool p hp).threshold, (g2.pool p hp).hull, (g2.pool p hp).violating⟩, g2.chain⟩
  rw [Run.pure_eq]
  congr 1
  rw [Nat.zero_add] at c2 ⊢
  rw [List.nil_append] at c2
  rw [← c2]
  simp only [row, ← List.map_take, List.take_range]
  have := g2.seg.le
  rw [Nat.min_eq_left (by omega)]

/-! ### Elimination of duplicates -/

/-- The arithmetic mean of the probabilities of the bins at positions `p.1` to `p.2`. -/
def groupMean [Field K] (orig : Nat → K × K) (p : Nat × Nat) : K :=
  ((List.range' p.1 (p.2 + 1 - p.1)).map (fun k => (orig k).2)).sum / ((p.2 + 1 - p.1 : Nat) : K)

theorem groupMean_single [Field K] (orig : Nat → K × K) (k : Nat) : groupMean orig (k, k) = (orig k).2 := by
  simp [groupMean]

theorem groupMean_succ [Field K] [CharZero K] (orig : Nat → K × K) {a j : Nat} (h : a < j) :
    iterativeArithmeticMean (j - a + 1) (orig j).2 (groupMean orig (a, j - 1)) = groupMean orig (a, j) := by
  unfold groupMean iterativeArithmeticMean
  simp only
  obtain ⟨d, rfl⟩ : ∃ d, j = a + d + 1 := ⟨j - a - 1, by omega⟩
  rw [show a + d + 1 - 1 + 1 - a = d + 1 by omega, show a + d + 1 + 1 - a = d + 1 + 1 by omega, show a + d + 1 - a + 1 = d + 1 + 1 by omega]
  rw [List.range'_concat (n := d + 1), List.map_append, List.sum_append]
  simp only [List.map_cons, List.map_nil, List.sum_cons, List.sum_nil, add_zero, one_mul]
  rw [show a + (d + 1) = a + d + 1 by omega]
  have h1 : ((d + 1 : Nat) : K) ≠ 0 := Nat.cast_ne_zero.2 (by omega)
  have h2 : ((d + 1 + 1 : Nat) : K) ≠ 0 := Nat.cast_ne_zero.2 (by omega)
  field_simp
  push_cast
  ring

/-- The state of the loop before position `j` is visited; `groups` are the groups of bins with equal thresholds that are finished. -/
structure DedupOk [Field K] [LinearOrder K] (isEqual : K → K → Bool) (orig : Nat → K × K) (n j : Nat) (groups : List (Nat × Nat)) (s : Dedup K) :
    Prop where
  seg : Seg groups 0 s.previousIndex
  lt : s.previousIndex < j
  bins : ∃ b, s.bins = row n b ∧ (∀ k, s.n ≤ k → b k = orig k) ∧ row s.n b = groups.map (fun p => ((orig p.1).1, groupMean orig p))
  num : s.n = groups.length
  previous : s.previousBin = ((orig s.previousIndex).1, groupMean orig (s.previousIndex, j - 1))
  same : ∀ p ∈ groups ++ [(s.previousIndex, j - 1)], ∀ k, p.1 < k → k ≤ p.2 → isEqual (orig k).1 (orig p.1).1 = true
  diff : (groups ++ [(s.previousIndex, j - 1)]).Pairwise (fun p p' => (orig p.1).1 < (orig p'.1).1)
  consecutive : ∀ p ∈ groups, isEqual (orig (p.2 + 1)).1 (orig p.1).1 = false

theorem dedupStep_ok [Field K] [LinearOrder K] [CharZero K] {isEqual : K → K → Bool} (hrefl : ∀ x, isEqual x x = true) {orig : Nat → K × K} {n j : Nat}
    (hsorted : ∀ a c, a ≤ c → c < n → (orig a).1 ≤ (orig c).1) (hj : j < n) {groups : List (Nat × Nat)} {s : Dedup K}
    (h : DedupOk isEqual orig n j groups s) :
    ∃ s' groups', dedupStep isEqual j s = .ok s' ∧ DedupOk isEqual orig n (j + 1) groups' s' := by
  obtain ⟨b, hb1, hb2, hb3⟩ := h.bins
  have hsl := h.seg.le
  have hlt := h.lt
  have hnum := h.num
  unfold dedupStep
  rw [hb1, readAt_row b hj, ok_bind, hb2 j (by omega), h.previous]
  simp only
  by_cases he : isEqual (orig j).1 (orig s.previousIndex).1 = true
  · rw [if_pos he]
    refine ⟨_, groups, rfl, ⟨h.seg, by simp only; omega, ⟨b, by simp only [hb1], hb2, hb3⟩, h.num, ?_, ?_, ?_, h.consecutive⟩⟩
    · simp only [Nat.add_sub_cancel]
      rw [groupMean_succ orig hlt]
    · intro p hp k hk1 hk2
      simp only [Nat.add_sub_cancel] at hp
      rcases List.mem_append.1 hp with hp | hp
      · exact h.same p (List.mem_append_left _ hp) k hk1 hk2
      · simp only [List.mem_singleton] at hp
        subst hp
        simp only at hk1 hk2 ⊢
        by_cases e : k = j
        · rw [e]; exact he
        · exact h.same (s.previousIndex, j - 1) (by simp) k hk1 (by show k ≤ j - 1; omega)
    · have := h.diff
      rw [List.pairwise_append] at this ⊢
      refine ⟨this.1, by simp, ?_⟩
      intro a ha c hc
      simp only [List.mem_singleton] at hc
      subst hc
      exact this.2.2 a ha (s.previousIndex, j - 1) (by simp)
  · rw [if_neg he, writeAt_row b (by omega), ok_bind, readAt_row _ hj, ok_bind, Function.update_of_ne (by omega), hb2 j (by omega)]
    have hlt' : (orig s.previousIndex).1 < (orig j).1 := by
      refine lt_of_le_of_ne (hsorted _ _ (by omega) hj) (fun e => he ?_)
      rw [e]
      exact hrefl _
    refine ⟨_, groups ++ [(s.previousIndex, j - 1)], rfl, ⟨?_, by simp, ?_, by simp [h.num], ?_, ?_, ?_, ?_⟩⟩
    · refine Seg.append.2 ⟨_, h.seg, rfl, by show s.previousIndex ≤ j - 1; omega, ?_⟩
      show j - 1 + 1 = j
      omega
    · refine ⟨_, rfl, ?_, ?_⟩
      · intro k hk
        simp only at hk
        rw [Function.update_of_ne (by omega), hb2 k (by omega)]
      · simp only [row, List.range_succ, List.map_append, List.map_cons, List.map_nil, Function.update_self]
        rw [← hb3]
        congr 1
        simp only [row]
        refine List.map_congr_left (fun k hk => ?_)
        rw [Function.update_of_ne (by have := List.mem_range.1 hk; omega)]
    · simp only [Nat.add_sub_cancel]
      rw [groupMean_single]
    · intro p hp k hk1 hk2
      simp only [Nat.add_sub_cancel] at hp
      rcases List.mem_append.1 hp with hp | hp
      · exact h.same p hp k hk1 hk2
      · simp only [List.mem_singleton] at hp
        subst hp
        simp only at hk1 hk2
        omega
    · rw [List.pairwise_append]
      refine ⟨h.diff, by simp, ?_⟩
      intro a ha c hc
      simp only [List.mem_singleton] at hc
      subst hc
      simp only
      rcases List.mem_append.1 ha with ha | ha
      · have := h.diff
        rw [List.pairwise_append] at this
        exact lt_trans (this.2.2 a ha (s.previousIndex, j - 1) (by simp)) hlt'
      · simp only [List.mem_singleton] at ha
        subst ha
        exact hlt'
    · intro p hp
      rcases List.mem_append.1 hp with hp | hp
      · exact h.consecutive p hp
      · simp only [List.mem_singleton] at hp
        subst hp
        simp only
        rw [show j - 1 + 1 = j by omega]
        simpa using he

/-- The bins after duplicates have been eliminated: one bin per group of bins with equal thresholds; the one for the last group is the last bin. -/
theorem eliminate_ok [Field K] [LinearOrder K] [CharZero K] {isEqual : K → K → Bool} (hrefl : ∀ x, isEqual x x = true) {orig : Nat → K × K} {n : Nat}
    (hsorted : ∀ a c, a ≤ c → c < n → (orig a).1 ≤ (orig c).1) (hn : 1 ≤ n) (sort : List (K × K) → List (K × K)) (bins : List (K × K))
    (hs : sort bins = row n orig) :
    ∃ (groups : List (Nat × Nat)) (a : Nat),
      sortAndEliminate sort isEqual bins = .ok (groups.map (fun p => ((orig p.1).1, groupMean orig p)) ++ [orig (n - 1)]) ∧
      Seg (groups ++ [(a, n - 1)]) 0 n ∧
      (∀ p ∈ groups ++ [(a, n - 1)], ∀ k, p.1 < k → k ≤ p.2 → isEqual (orig k).1 (orig p.1).1 = true) ∧
      (groups ++ [(a, n - 1)]).Pairwise (fun p p' => (orig p.1).1 < (orig p'.1).1) ∧
      (∀ p ∈ groups, isEqual (orig (p.2 + 1)).1 (orig p.1).1 = false) := by
  unfold sortAndEliminate
  simp only [hs, length_row]
  rw [readAt_row orig (by omega), ok_bind]
  obtain ⟨s, g1, groups, g2⟩ := loopFrom_rule (body := dedupStep isEqual) (fun j s => ∃ groups, DedupOk isEqual orig n j groups s) 1 (n - 1)
    { bins := row n orig, previousIndex := 0, previousBin := orig 0, n := 0 }
    ⟨[], ⟨rfl, by simp, ⟨orig, rfl, fun _ _ => rfl, by simp [row]⟩, rfl, by simp [groupMean_single], by
      intro p hp k hk1 hk2
      simp at hp
      subst hp
      simp only at hk1 hk2
      omega, by simp, by simp⟩⟩
    (by
      rintro i t h1 h2 ⟨groups, h⟩
      obtain ⟨s', groups', k1, k2⟩ := dedupStep_ok hrefl hsorted (by omega) h
      exact ⟨s', k1, groups', k2⟩)
  rw [show 1 + (n - 1) = n by omega] at g2
  obtain ⟨b, hb1, hb2, hb3⟩ := g2.bins
  have hsl := g2.seg.le
  have hlt := g2.lt
  have hnum := g2.num
  rw [g1, ok_bind, hb1, readAt_row b (by omega), ok_bind, writeAt_row b (by omega), ok_bind, hb2 (n - 1) (by omega)]
  refine ⟨groups, s.previousIndex, ?_, ?_, g2.same, g2.diff, g2.consecutive⟩
  · rw [pure_eq_ok]
    congr 1
    rw [← hb3]
    simp only [row, ← List.map_take, List.take_range]
    rw [Nat.min_eq_left (by omega), List.range_succ, List.map_append]
    congr 1
    · refine List.map_congr_left (fun k hk => ?_)
      rw [Function.update_of_ne (by have := List.mem_range.1 hk; omega)]
    · simp
  · refine Seg.append.2 ⟨_, g2.seg, rfl, by show s.previousIndex ≤ n - 1; omega, ?_⟩
    show n - 1 + 1 = n
    omega

/-- If thresholds are compared exactly, the mean of a group is the mean of the probabilities of all bins with its threshold. -/
theorem groupMean_eq [Field K] [LinearOrder K] {orig : Nat → K × K} {n : Nat} {groups : List (Nat × Nat)} (hseg : Seg groups 0 n)
    (hsame : ∀ p ∈ groups, ∀ k, p.1 < k → k ≤ p.2 → (orig k).1 = (orig p.1).1)
    (hdiff : groups.Pairwise (fun p p' => (orig p.1).1 < (orig p'.1).1)) {p : Nat × Nat} (hp : p ∈ groups) :
    groupMean orig p = (((row n orig).filter (fun b => b.1 = (orig p.1).1)).map Prod.snd).sum
      / (((row n orig).filter (fun b => b.1 = (orig p.1).1)).length : K) := by
  have hpm := hseg.mem hp
  have hcover : ∀ (l : List (Nat × Nat)) (lo hi k : Nat), Seg l lo hi → lo ≤ k → k < hi → ∃ q ∈ l, q.1 ≤ k ∧ k ≤ q.2 := by
    intro l
    induction l with
    | nil => intro lo hi k h h1 h2; simp only [Seg] at h; omega
    | cons q l ih =>
      intro lo hi k h h1 h2
      obtain ⟨s1, s2, s3⟩ := h
      by_cases e : k ≤ q.2
      · exact ⟨q, List.mem_cons_self .., by omega, e⟩
      · obtain ⟨q', h3, h4⟩ := ih _ _ k s3 (by omega) h2
        exact ⟨q', List.mem_cons_of_mem _ h3, h4⟩
  have hiff : ∀ k, k < n → ((orig k).1 = (orig p.1).1 ↔ p.1 ≤ k ∧ k ≤ p.2) := by
    intro k hk
    constructor
    · intro e
      obtain ⟨q, hq, q1, q2⟩ := hcover groups 0 n k hseg (by omega) hk
      have hqk : (orig k).1 = (orig q.1).1 := by
        by_cases e' : k = q.1
        · rw [e']
        · exact hsame q hq k (by omega) q2
      have : q = p := by
        by_contra hne
        have hsym : ∀ (l : List (Nat × Nat)), l.Pairwise (fun p p' => (orig p.1).1 < (orig p'.1).1) → q ∈ l → p ∈ l →
            q = p ∨ (orig q.1).1 ≠ (orig p.1).1 := by
          intro l
          induction l with
          | nil => intro _ h _; cases h
          | cons x l ih =>
            intro hl hq hp
            obtain ⟨l1, l2⟩ := List.pairwise_cons.1 hl
            rcases List.mem_cons.1 hq with e1 | h1 <;> rcases List.mem_cons.1 hp with e2 | h2
            · exact Or.inl (by rw [e1, e2])
            · exact Or.inr (ne_of_lt (by rw [e1]; exact l1 _ h2))
            · exact Or.inr (ne_of_gt (by rw [e2]; exact l1 _ h1))
            · exact ih l2 h1 h2
        have hsym := hsym groups hdiff hq hp
        rcases hsym with h | h
        · exact hne h
        · exact h (by rw [← hqk, e])
      rw [← this]
      exact ⟨q1, q2⟩
    · rintro ⟨h1, h2⟩
      by_cases e' : k = p.1
      · rw [e']
      · exact hsame p hp k (by omega) h2
  have hfilter : (row n orig).filter (fun b => b.1 = (orig p.1).1) = (List.range' p.1 (p.2 + 1 - p.1)).map orig := by
    simp only [row, List.filter_map]
    congr 1
    have : (List.range n).filter ((fun b => decide (b.1 = (orig p.1).1)) ∘ orig) = (List.range n).filter (fun k => decide (p.1 ≤ k ∧ k ≤ p.2)) := by
      refine List.filter_congr (fun k hk => ?_)
      simp only [Function.comp]
      exact decide_eq_decide.2 (hiff k (List.mem_range.1 hk))
    rw [this]
    refine LossUpdate.sorted_ext ?_ ?_ ?_
    · exact (List.pairwise_lt_range).filter _
    · exact List.pairwise_lt_range' (s := p.1) (n := p.2 + 1 - p.1) (step := 1)
    · intro k
      simp only [List.mem_filter, List.mem_range, decide_eq_true_eq, List.mem_range'_1]
      omega
  rw [hfilter]
  simp [groupMean, List.map_map, Function.comp_def]

/-! ### Calibration -/

theorem takeWhile_spec {A : Type} (P : A → Bool) (l : List A) : (∀ k x, k < (l.takeWhile P).length → l[k]? = some x → P x = true) ∧
    (∀ x, l[(l.takeWhile P).length]? = some x → P x = false) ∧ (l.takeWhile P).length ≤ l.length := by
  induction l with
  | nil => simp
  | cons a l ih =>
    by_cases h : P a = true
    · rw [List.takeWhile_cons_of_pos h]
      refine ⟨?_, ?_, by simpa using ih.2.2⟩
      · intro k x hk hx
        cases k with
        | zero => simp at hx; rw [← hx]; exact h
        | succ k => exact ih.1 k x (by simpa using hk) (by simpa using hx)
      · intro x hx
        exact ih.2.1 x (by simpa using hx)
    · rw [List.takeWhile_cons_of_neg h]
      refine ⟨by simp, ?_, by simp⟩
      intro x hx
      simp at hx
      rw [← hx]
      simpa using h

/-- The position `std::lower_bound` returns, as a number. -/
def offsetOf [LinearOrder K] (bins : List (K × K)) (p : K) : Nat := (bins.takeWhile (fun b => b.1 < p)).length

theorem offset_mono [LinearOrder K] {bins : List (K × K)} {p p' : K} (h : p ≤ p') : offsetOf bins p ≤ offsetOf bins p' := by
  by_contra hc
  push Not at hc
  obtain ⟨a1, a2, a3⟩ := takeWhile_spec (fun b : K × K => decide (b.1 < p)) bins
  obtain ⟨b1, b2, b3⟩ := takeWhile_spec (fun b : K × K => decide (b.1 < p')) bins
  have hlt : offsetOf bins p' < bins.length := lt_of_lt_of_le hc a3
  have h1 := a1 _ _ hc (List.getElem?_eq_getElem hlt)
  have h2 := b2 _ (List.getElem?_eq_getElem hlt)
  simp only [decide_eq_true_eq, decide_eq_false_iff_not, not_lt] at h1 h2
  exact absurd h1 (not_lt.2 (le_trans h h2))

theorem getElem_pairwise {A : Type} {R : A → A → Prop} {l : List A} (h : l.Pairwise R) {i j : Nat} {x y : A} (hij : i < j) (hx : l[i]? = some x)
    (hy : l[j]? = some y) : R x y := by
  obtain ⟨h1, rfl⟩ := List.getElem?_eq_some_iff.1 hx
  obtain ⟨h2, rfl⟩ := List.getElem?_eq_some_iff.1 hy
  exact List.pairwise_iff_getElem.1 h i j h1 h2 hij

/-- The bounds used for calibrating a probability. -/
theorem bounds_ok [Field K] [LinearOrder K] [IsStrictOrderedRing K] {bins : List (K × K)} (h : Fitted bins) {p : K} (h0 : 0 ≤ p) (h1 : p ≤ 1)
    (hz : 0 < p ∨ ∀ b ∈ bins, 0 < b.1) :
    ∃ l u, bounds bins p = .ok (l, u) ∧ l.1 ≤ p ∧ p ≤ u.1 ∧ l.1 < u.1 ∧ 0 ≤ l.2 ∧ l.2 ≤ u.2 ∧ u.2 ≤ 1 ∧
      (offsetOf bins p = bins.length → u = (1, 1)) ∧ (offsetOf bins p < bins.length → bins[offsetOf bins p]? = some u) ∧
      (offsetOf bins p = 0 → l = (0, 0)) ∧ (0 < offsetOf bins p → bins[offsetOf bins p - 1]? = some l) := by
  obtain ⟨a1, a2, a3⟩ := takeWhile_spec (fun b : K × K => decide (b.1 < p)) bins
  change ∀ k x, k < offsetOf bins p → _ at a1
  change ∀ x, bins[offsetOf bins p]? = some x → _ at a2
  change offsetOf bins p ≤ _ at a3
  have hpos : 0 < bins.length := List.length_pos_of_ne_nil h.ne
  have hdef : bounds bins p = (if offsetOf bins p = bins.length then do
        let lower ← readBefore bins (offsetOf bins p)
        return (lower, (1, 1))
      else if offsetOf bins p > 0 then do
        let lower ← readBefore bins (offsetOf bins p)
        let upper ← readAt bins (offsetOf bins p)
        return (lower, upper)
      else do
        let upper ← readAt bins (offsetOf bins p)
        return ((0, 0), upper)) := rfl
  rw [hdef]
  by_cases he : offsetOf bins p = bins.length
  · rw [if_pos he]
    have hlt : offsetOf bins p - 1 < bins.length := by omega
    have hg := List.getElem?_eq_getElem hlt
    have hl := a1 _ _ (by omega) hg
    have hu := h.unit _ (List.getElem_mem hlt)
    simp only [decide_eq_true_eq] at hl
    refine ⟨bins[offsetOf bins p - 1], (1, 1), ?_, hl.le, h1, lt_of_lt_of_le hl h1, hu.1, hu.2, le_refl _, fun _ => rfl, fun hh => by omega,
      fun hh => by omega, fun _ => hg⟩
    simp only [readBefore]
    rw [if_neg (by omega), readAt_of_getElem? hg, ok_bind]
    rfl
  · rw [if_neg he]
    have hlt : offsetOf bins p < bins.length := by omega
    have hg := List.getElem?_eq_getElem hlt
    have hu := h.unit _ (List.getElem_mem hlt)
    have hge := a2 _ hg
    simp only [decide_eq_false_iff_not, not_lt] at hge
    by_cases ho : offsetOf bins p > 0
    · rw [if_pos ho]
      have hlt' : offsetOf bins p - 1 < bins.length := by omega
      have hg' := List.getElem?_eq_getElem hlt'
      have hl := a1 _ _ (by omega) hg'
      have hu' := h.unit _ (List.getElem_mem hlt')
      simp only [decide_eq_true_eq] at hl
      refine ⟨bins[offsetOf bins p - 1], bins[offsetOf bins p], ?_, hl.le, hge, lt_of_lt_of_le hl hge, hu'.1,
        getElem_pairwise h.values (by omega) hg' hg, hu.2, fun hh => by omega, fun _ => hg, fun hh => by omega, fun _ => hg'⟩
      simp only [readBefore]
      rw [if_neg (by omega), readAt_of_getElem? hg', ok_bind, readAt_of_getElem? hg, ok_bind]
      rfl
    · rw [if_neg ho, readAt_of_getElem? hg, ok_bind]
      have hlt0 : 0 < (bins[offsetOf bins p]).1 := by
        rcases hz with hz | hz
        · exact lt_of_lt_of_le hz hge
        · exact hz _ (List.getElem_mem hlt)
      exact ⟨(0, 0), bins[offsetOf bins p], rfl, h0, hge, hlt0, le_refl _, hu.1, hu.2, fun hh => by omega, fun _ => hg, fun _ => rfl,
        fun hh => by omega⟩

theorem interpolate_bounds [Field K] [LinearOrder K] [IsStrictOrderedRing K] {l u : K × K} {p : K} (h1 : l.1 ≤ p) (h2 : p ≤ u.1) (h3 : l.1 < u.1)
    (h4 : l.2 ≤ u.2) : l.2 ≤ l.2 + (p - l.1) / (u.1 - l.1) * (u.2 - l.2) ∧ l.2 + (p - l.1) / (u.1 - l.1) * (u.2 - l.2) ≤ u.2 := by
  have hd : 0 < u.1 - l.1 := sub_pos.2 h3
  have ht0 : 0 ≤ (p - l.1) / (u.1 - l.1) := div_nonneg (sub_nonneg.2 h1) hd.le
  have ht1 : (p - l.1) / (u.1 - l.1) ≤ 1 := by
    rw [div_le_one hd]
    linarith
  have hv : 0 ≤ u.2 - l.2 := sub_nonneg.2 h4
  constructor
  · nlinarith
  · nlinarith

theorem calibrate_ok [Field K] [LinearOrder K] [IsStrictOrderedRing K] {bins : List (K × K)} {p : K} {l u : K × K} (h : bounds bins p = .ok (l, u))
    (hlt : l.1 < u.1) : calibrateProbability bins p = .ok (l.2 + (p - l.1) / (u.1 - l.1) * (u.2 - l.2)) := by
  unfold calibrateProbability divide
  rw [h, ok_bind]
  simp only
  rw [if_neg (sub_ne_zero.2 (ne_of_gt hlt)), ok_bind, pure_eq_ok]

end MLRL.Isotonic
