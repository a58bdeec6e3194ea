import Verif.Spec.FeatureSpace
import Mathlib.Data.List.Nodup
import Mathlib.Data.List.Perm.Basic
import Mathlib.Algebra.BigOperators.Group.List.Basic
import Mathlib.Tactic.Abel

/-!
# Lemmas about feature vectors and feature subspaces
-/

set_option linter.unusedSectionVars false

namespace MLRL.FeatureSpace

theorem readRange_of_le {α : Type} {a : List α} {start stop : Nat} (h1 : start ≤ stop) (h2 : stop ≤ a.length) :
    readRange a start stop = .ok ((a.drop start).take (stop - start)) := by
  unfold readRange
  by_cases h : start < stop
  · rw [if_pos h, if_pos h2]
  · have : stop - start = 0 := by omega
    simp [this, h]

theorem FeatureVector.examplesIn_eq {v : FeatureVector} {start stop : Nat} (hv : v ≠ .equal) (h1 : start ≤ stop)
    (h2 : stop ≤ v.size) : v.examplesIn start stop = .ok (v.slice start stop) := by
  cases v with
  | equal => exact absurd rfl hv
  | numerical e sv sp m => simp only [examplesIn, readRange_of_le h1 h2, ok_bind, pure_eq_ok, slice]
  | nominal k b mv m => simp only [examplesIn, readRange_of_le h1 h2, ok_bind, pure_eq_ok, slice]

theorem markAll_spec {M : Type} (upd : M → Nat → M) (ind : Nat) : ∀ (l arr : List Nat) (tot : M),
    (∀ e ∈ l, e < arr.length) →
    ∃ arr', markAll upd ind l (arr, tot) = .ok (arr', l.foldl upd tot) ∧ arr'.length = arr.length ∧
      ∀ e, e < arr.length → arr'[e]? = if e ∈ l then some ind else arr[e]? := by
  intro l
  induction l with
  | nil => intro arr tot _; exact ⟨arr, rfl, rfl, by simp⟩
  | cons x xs ih =>
    intro arr tot h
    have hx := h x (by simp)
    obtain ⟨arr', h1, h2, h3⟩ := ih (arr.set x ind) (upd tot x) (by
      intro e he; rw [List.length_set]; exact h e (List.mem_cons_of_mem _ he))
    refine ⟨arr', ?_, ?_, ?_⟩
    · simp only [markAll, writeAt_of_lt hx, ok_bind, h1, List.foldl_cons]
    · rw [h2, List.length_set]
    · intro e he
      rw [h3 e (by rw [List.length_set]; exact he), List.getElem?_set]
      by_cases hxe : x = e
      · subst hxe; simp [he]
      · have : e ≠ x := fun h => hxe h.symm
        simp [hxe, this]

/-- The mask marks exactly the examples in `c` among the first `n`. -/
def CoverageMask.Marks (m : CoverageMask) (n : Nat) (c : Nat → Bool) : Prop :=
  m.array.length = n ∧ ∀ e, e < n → m.isCovered e = .ok (c e)

theorem filterCovered_spec {α : Type} {m : CoverageMask} {n : Nat} {c : Nat → Bool} (hm : m.Marks n c) (ex : α → Nat) :
    ∀ l : List α, (∀ x ∈ l, ex x < n) → filterCovered m ex l = .ok (l.filter (fun x => c (ex x))) := by
  intro l
  induction l with
  | nil => intro _; rfl
  | cons x xs ih =>
    intro h
    simp only [filterCovered, hm.2 _ (h x (by simp)), ok_bind, ih (fun y hy => h y (List.mem_cons_of_mem _ hy)),
      List.filter_cons, pure_eq_ok]

theorem filterBins_spec {m : CoverageMask} {n : Nat} {c : Nat → Bool} (hm : m.Marks n c) :
    ∀ bins : List (Int × List Nat), (∀ b ∈ bins, ∀ e ∈ b.2, e < n) → filterBins m bins = .ok (restrictBins c bins) := by
  intro bins
  induction bins with
  | nil => intro _; rfl
  | cons b bs ih =>
    intro h
    obtain ⟨val, ind⟩ := b
    have h1 := filterCovered_spec hm id ind (fun e he => h (val, ind) (by simp) e he)
    simp only [filterBins, h1, ok_bind, ih (fun y hy => h y (List.mem_cons_of_mem _ hy)), pure_eq_ok, id]
    simp only [restrictBins, List.map_cons, List.filter_cons]
    by_cases hl : ind.filter c = []
    · simp [hl]
    · have : 0 < (ind.filter c).length := List.length_pos_iff.2 hl
      simp [hl, this]

/-! ### Restricting bins -/

theorem restrictBins_append (c : Nat → Bool) (a b : List (Int × List Nat)) :
    restrictBins c (a ++ b) = restrictBins c a ++ restrictBins c b := by
  simp [restrictBins]

theorem restrictBins_nonempty {c : Nat → Bool} {bins : List (Int × List Nat)} :
    ∀ b ∈ restrictBins c bins, b.2 ≠ [] := by
  intro b hb
  simp only [restrictBins, List.mem_filter] at hb
  simpa using hb.2

theorem mem_restrictBins_examples {c : Nat → Bool} {bins : List (Int × List Nat)} {e : Nat} :
    e ∈ (restrictBins c bins).flatMap Prod.snd ↔ e ∈ bins.flatMap Prod.snd ∧ c e = true := by
  induction bins with
  | nil => simp [restrictBins]
  | cons b bs ih =>
    have h1 : restrictBins c (b :: bs) = restrictBins c [b] ++ restrictBins c bs := restrictBins_append c [b] bs
    rw [h1, List.flatMap_append, List.mem_append, ih, List.flatMap_cons, List.mem_append]
    have h2 : e ∈ (restrictBins c [b]).flatMap Prod.snd ↔ e ∈ b.2 ∧ c e = true := by
      simp only [restrictBins, List.map_cons, List.map_nil, List.filter_cons, List.filter_nil]
      by_cases hl : b.2.filter c = []
      · simp only [hl, List.isEmpty_nil, Bool.not_true, Bool.false_eq_true, if_false, List.flatMap_nil,
          List.not_mem_nil, false_iff]
        intro ⟨h3, h4⟩
        have : e ∈ b.2.filter c := List.mem_filter.2 ⟨h3, h4⟩
        simp [hl] at this
      · have : (b.2.filter c).isEmpty = false := by simpa using hl
        simp [this, List.mem_filter]
    rw [h2]
    tauto

theorem restrictBins_sublist {c : Nat → Bool} (bins : List (Int × List Nat)) :
    ((restrictBins c bins).flatMap Prod.snd).Sublist (bins.flatMap Prod.snd) := by
  induction bins with
  | nil => simp [restrictBins]
  | cons b bs ih =>
    have h1 : restrictBins c (b :: bs) = restrictBins c [b] ++ restrictBins c bs := restrictBins_append c [b] bs
    rw [h1, List.flatMap_append, List.flatMap_cons]
    refine List.Sublist.append ?_ ih
    simp only [restrictBins, List.map_cons, List.map_nil, List.filter_cons, List.filter_nil]
    split
    · simp
    · simp

theorem restrictBins_eq_self {c : Nat → Bool} {bins : List (Int × List Nat)} (h0 : ∀ b ∈ bins, b.2 ≠ [])
    (h : ∀ e ∈ bins.flatMap Prod.snd, c e = true) : restrictBins c bins = bins := by
  induction bins with
  | nil => rfl
  | cons b bs ih =>
    have h1 : restrictBins c (b :: bs) = restrictBins c [b] ++ restrictBins c bs := restrictBins_append c [b] bs
    rw [h1, ih (fun x hx => h0 x (List.mem_cons_of_mem _ hx)) (fun e he => h e (by
      rw [List.flatMap_cons, List.mem_append]; exact Or.inr he))]
    have h2 : b.2.filter c = b.2 := List.filter_eq_self.2 (fun e he => h e (by
      rw [List.flatMap_cons, List.mem_append]; exact Or.inl he))
    have h3 := h0 b (by simp)
    have h4 : b.2.isEmpty = false := by simpa using h3
    simp [restrictBins, h2, h4]

theorem restrictBins_eq_nil {c : Nat → Bool} {bins : List (Int × List Nat)}
    (h : ∀ e ∈ bins.flatMap Prod.snd, c e = false) : restrictBins c bins = [] := by
  rw [List.eq_nil_iff_forall_not_mem]
  intro b hb
  have hne := restrictBins_nonempty b hb
  obtain ⟨e, he⟩ := List.exists_mem_of_ne_nil _ hne
  have : e ∈ (restrictBins c bins).flatMap Prod.snd := List.mem_flatMap.2 ⟨b, hb, he⟩
  rw [mem_restrictBins_examples] at this
  rw [h e this.1] at this
  simp at this

theorem restrictBins_congr {c d : Nat → Bool} {bins : List (Int × List Nat)}
    (h : ∀ e ∈ bins.flatMap Prod.snd, c e = d e) : restrictBins c bins = restrictBins d bins := by
  unfold restrictBins
  congr 1
  apply List.map_congr_left
  intro b hb
  congr 1
  apply List.filter_congr
  intro e he
  exact h e (List.mem_flatMap.2 ⟨b, hb, he⟩)

theorem restrictBins_restrictBins {c d : Nat → Bool} {bins : List (Int × List Nat)}
    (h : ∀ e ∈ bins.flatMap Prod.snd, d e = true → c e = true) : restrictBins d (restrictBins c bins) = restrictBins d bins := by
  induction bins with
  | nil => rfl
  | cons b bs ih =>
    have h1 : ∀ c, restrictBins c (b :: bs) = restrictBins c [b] ++ restrictBins c bs := fun c => restrictBins_append c [b] bs
    rw [h1 c, h1 d, restrictBins_append, ih (fun e he => h e (by
      rw [List.flatMap_cons, List.mem_append]; exact Or.inr he))]
    congr 1
    have h2 : (b.2.filter c).filter d = b.2.filter d := by
      rw [List.filter_filter]
      apply List.filter_congr
      intro e he
      have := h e (by rw [List.flatMap_cons, List.mem_append]; exact Or.inl he)
      cases hd : d e <;> simp_all
    by_cases hl : b.2.filter c = []
    · have h3 : b.2.filter d = [] := by rw [← h2, hl]; rfl
      simp [restrictBins, hl, h3]
    · have h4 : (b.2.filter c).isEmpty = false := by simpa using hl
      simp [restrictBins, h4, h2]

/-! ### The relation between a filtered vector and the original column -/

/-- `v` is the column restricted to the examples in `c'` (as far as entries are concerned); its missing values are among those of
the column and include all that are in `c`. -/
structure Agrees (c c' : Nat → Bool) (v column : FeatureVector) : Prop where
  entries : v.SameEntries c' column
  missing : v.missing.Sublist column.missing
  covered : ∀ e ∈ column.missing, c e = true → e ∈ v.missing

theorem FeatureVector.SameEntries.examples {c : Nat → Bool} {v col : FeatureVector} (h : v.SameEntries c col) {e : Nat} :
    e ∈ v.examples ↔ e ∈ col.examples ∧ c e = true := by
  cases v <;> cases col <;> simp only [SameEntries] at h <;> simp only [FeatureVector.examples]
  · obtain ⟨h, _, _⟩ := h
    subst h
    simp only [List.mem_map, List.mem_filter]
    constructor
    · rintro ⟨x, ⟨h1, h2⟩, rfl⟩
      exact ⟨⟨x, h1, rfl⟩, h2⟩
    · rintro ⟨⟨x, h1, rfl⟩, h2⟩
      exact ⟨x, ⟨h1, h2⟩, rfl⟩
  · obtain ⟨_, h, _⟩ := h
    subst h
    exact mem_restrictBins_examples

theorem FeatureVector.SameEntries.examples_sublist {c : Nat → Bool} {v col : FeatureVector} (h : v.SameEntries c col) :
    v.examples.Sublist col.examples := by
  cases v <;> cases col <;> simp only [SameEntries] at h <;> simp only [FeatureVector.examples]
  · obtain ⟨h, _, _⟩ := h
    subst h
    exact List.Sublist.map _ List.filter_sublist
  · obtain ⟨_, h, _⟩ := h
    subst h
    exact restrictBins_sublist _

theorem Agrees.wellFormed {n : Nat} {c c' : Nat → Bool} {v col : FeatureVector} (h : Agrees c c' v col)
    (hc : col.WellFormed n) : v.WellFormed n := by
  have h1 : (v.examples ++ v.missing).Sublist (col.examples ++ col.missing) :=
    List.Sublist.append h.entries.examples_sublist h.missing
  refine ⟨hc.nodup.sublist h1, fun e he => hc.lt e (h1.subset he), ?_⟩
  rintro k bins mv m rfl b hb
  have h2 := h.entries
  cases col <;> simp only [FeatureVector.SameEntries] at h2
  obtain ⟨_, h2, _⟩ := h2
  subst h2
  exact restrictBins_nonempty b hb

theorem agrees_self {n : Nat} {d c : Nat → Bool} {col : FeatureVector} (hcol : col ≠ .equal) (hc : col.WellFormed n)
    (hall : ∀ e, e < n → c e = true) : Agrees d c col col := by
  refine ⟨?_, List.Sublist.refl _, fun e he _ => he⟩
  cases col with
  | equal => exact absurd rfl hcol
  | numerical e sv sp m =>
    refine ⟨?_, rfl, rfl⟩
    rw [List.filter_eq_self.2]
    intro x hx
    exact hall _ (hc.lt _ (List.mem_append_left _ (List.mem_map.2 ⟨x, hx, rfl⟩)))
  | nominal k b mv m =>
    refine ⟨rfl, ?_, rfl⟩
    rw [restrictBins_eq_self (hc.bins k b mv m rfl)]
    intro e he
    exact hall _ (hc.lt _ (List.mem_append_left _ he))

/-- Filtering by a mask. -/
theorem filterMask_spec {n : Nat} {mask : CoverageMask} {c c' : Nat → Bool} {v col : FeatureVector}
    (isEq : Rat → Rat → Bool) (hm : mask.Marks n c) (hcol : col.WellFormed n)
    (hle : ∀ e, e < n → c e = true → c' e = true) (h : Agrees c c' v col) :
    ∃ v', v.filterMask isEq mask = .ok v' ∧
      (v' = .equal ∨ (Agrees c c v' col ∧ ∀ e ∈ v'.missing, c e = true)) := by
  have hwf := h.wellFormed hcol
  have hent := h.entries
  cases v with
  | equal => exact ⟨.equal, rfl, Or.inl rfl⟩
  | numerical E sv sp m =>
    cases col with
    | equal => exact absurd hent (by simp [FeatureVector.SameEntries])
    | nominal => exact absurd hent (by simp [FeatureVector.SameEntries])
    | numerical E0 sv0 sp0 m0 =>
      obtain ⟨hE, hs, hp⟩ := hent
      have h1 := filterCovered_spec hm id m (fun e he => hwf.lt e (List.mem_append_right _ he))
      have h2 := filterCovered_spec hm Prod.fst E (fun e he => hwf.lt e.1 (List.mem_append_left _ (List.mem_map.2 ⟨e, he, rfl⟩)))
      have h3 : E.filter (fun x => c x.1) = E0.filter (fun x => c x.1) := by
        rw [hE, List.filter_filter]
        apply List.filter_congr
        intro x hx
        have := hle x.1 (hcol.lt _ (List.mem_append_left _ (List.mem_map.2 ⟨x, hx, rfl⟩)))
        cases hd : c x.1 <;> simp_all
      have key : Agrees c c (.numerical (E.filter (fun x => c x.1)) sv sp (m.filter c)) (.numerical E0 sv0 sp0 m0) ∧
          ∀ e ∈ m.filter c, c e = true :=
        ⟨⟨⟨h3, hs, hp⟩, List.Sublist.trans List.filter_sublist h.missing,
          fun e he hce => List.mem_filter.2 ⟨h.covered e he hce, hce⟩⟩, fun e he => (List.mem_filter.1 he).2⟩
      simp only [FeatureVector.filterMask, h1, h2, ok_bind, id, pure_eq_ok]
      cases hl : E.filter (fun x => c x.1) with
      | nil => exact ⟨_, rfl, Or.inl rfl⟩
      | cons x xs =>
        rw [hl] at key
        simp only []
        split
        · exact ⟨_, rfl, Or.inr key⟩
        · split
          · exact ⟨_, rfl, Or.inl rfl⟩
          · exact ⟨_, rfl, Or.inr key⟩
  | nominal k B mv m =>
    cases col with
    | equal => exact absurd hent (by simp [FeatureVector.SameEntries])
    | numerical => exact absurd hent (by simp [FeatureVector.SameEntries])
    | nominal k0 B0 mv0 m0 =>
      obtain ⟨hk, hE, hs⟩ := hent
      have h1 := filterCovered_spec hm id m (fun e he => hwf.lt e (List.mem_append_right _ he))
      have h2 := filterBins_spec hm B (fun b hb e he => hwf.lt e (List.mem_append_left _ (List.mem_flatMap.2 ⟨b, hb, he⟩)))
      have h3 : restrictBins c B = restrictBins c B0 := by
        rw [hE]
        exact restrictBins_restrictBins (fun e he => hle e (hcol.lt _ (List.mem_append_left _ he)))
      have key : Agrees c c (.nominal k (restrictBins c B) mv (m.filter c)) (.nominal k0 B0 mv0 m0) ∧
          ∀ e ∈ m.filter c, c e = true :=
        ⟨⟨⟨hk, h3, hs⟩, List.Sublist.trans List.filter_sublist h.missing,
          fun e he hce => List.mem_filter.2 ⟨h.covered e he hce, hce⟩⟩, fun e he => (List.mem_filter.1 he).2⟩
      simp only [FeatureVector.filterMask, h1, h2, ok_bind, id, pure_eq_ok]
      split
      · exact ⟨_, rfl, Or.inr key⟩
      · exact ⟨_, rfl, Or.inl rfl⟩

theorem filterMask_equal (isEq : Rat → Rat → Bool) (mask : CoverageMask) :
    FeatureVector.equal.filterMask isEq mask = .ok .equal := rfl

/-! ### Updating the mask -/

/-- The examples that are covered after adding a condition. -/
def newCoverage (v : FeatureVector) (i : Interval) (c : Nat → Bool) (e : Nat) : Bool :=
  if i.inverse then c e && !(v.slice i.start i.stop).contains e && !v.missing.contains e
  else (v.slice i.start i.stop).contains e

theorem sublist_flatMap {α β : Type} {f : α → List β} {a b : List α} (h : a.Sublist b) :
    (a.flatMap f).Sublist (b.flatMap f) := by
  induction h with
  | slnil => simp
  | cons x _ ih => rw [List.flatMap_cons]; exact ih.trans (List.sublist_append_right _ _)
  | cons_cons x _ ih => rw [List.flatMap_cons, List.flatMap_cons]; exact List.Sublist.append (List.Sublist.refl _) ih

theorem FeatureVector.slice_sublist {v : FeatureVector} {start stop : Nat} : (v.slice start stop).Sublist v.examples := by
  cases v with
  | equal => simp [slice]
  | numerical e sv sp m =>
    exact List.Sublist.map _ ((List.take_sublist _ _).trans (List.drop_sublist _ _))
  | nominal k b mv m =>
    exact sublist_flatMap ((List.take_sublist _ _).trans (List.drop_sublist _ _))

theorem isCovered_eq {m : CoverageMask} {e x : Nat} (h : m.array[e]? = some x) : m.isCovered e = .ok (x == m.indicatorValue) := by
  simp only [CoverageMask.isCovered, readAt_of_getElem? h, ok_bind, pure_eq_ok]

/-- All elements of the mask and the indicator value are at most `k`. -/
def CoverageMask.Bounded (m : CoverageMask) (k : Nat) : Prop :=
  (∀ (e x : Nat), m.array[e]? = some x → x ≤ k) ∧ m.indicatorValue ≤ k

theorem updateCoverage_spec {M : Type} [Zero M] [Add M] [Sub M] {stat : Nat → M} {v : FeatureVector} {i : Interval} {n k : Nat}
    {mask : CoverageMask} {c : Nat → Bool} {total : M} (hwf : v.WellFormed n) (hi : v.ValidInterval i) (hm : mask.Marks n c)
    (hb : mask.Bounded k) :
    ∃ mask', v.updateCoverage stat i (k + 1) mask total = .ok (mask',
        if i.inverse then (v.slice i.start i.stop ++ v.missing).foldl (fun t e => t - stat e) total
        else (v.slice i.start i.stop).foldl (fun t e => t + stat e) 0) ∧
      mask'.Marks n (newCoverage v i c) ∧ mask'.Bounded (k + 1) := by
  have hex := FeatureVector.examplesIn_eq hi.notEqual hi.le hi.stop_le
  have hlt1 : ∀ e ∈ v.slice i.start i.stop, e < mask.array.length := by
    intro e he
    rw [hm.1]
    exact hwf.lt e (List.mem_append_left _ (FeatureVector.slice_sublist.subset he))
  have hlt2 : ∀ e ∈ v.missing, e < mask.array.length := by
    intro e he
    rw [hm.1]
    exact hwf.lt e (List.mem_append_right _ he)
  simp only [FeatureVector.updateCoverage, hex, ok_bind]
  cases hinv : i.inverse with
  | true =>
    obtain ⟨a1, h1, l1, g1⟩ := markAll_spec (fun t e => t - stat e) (k + 1) (v.slice i.start i.stop) mask.array total hlt1
    obtain ⟨a2, h2, l2, g2⟩ := markAll_spec (fun t e => t - stat e) (k + 1) v.missing a1
      ((v.slice i.start i.stop).foldl (fun t e => t - stat e) total) (by rw [l1]; exact hlt2)
    simp only [if_true, h1, ok_bind, h2, pure_eq_ok]
    refine ⟨_, by rw [List.foldl_append], ⟨by simp only []; rw [l2, l1, hm.1], ?_⟩, ?_, ?_⟩
    · intro e he
      have he' : e < mask.array.length := by rw [hm.1]; exact he
      have hold := hm.2 e he
      have hx : mask.array[e]? = some mask.array[e] := List.getElem?_eq_getElem he'
      have hc : (mask.array[e] == mask.indicatorValue) = c e := by
        rw [isCovered_eq hx] at hold
        exact Except.ok.inj hold
      have hne : ((k + 1) == mask.indicatorValue) = false := by
        have := hb.2
        simp only [beq_eq_false_iff_ne]; omega
      have hget : a2[e]? = if e ∈ v.missing then some (k + 1)
          else if e ∈ v.slice i.start i.stop then some (k + 1) else some mask.array[e] := by
        rw [g2 e (by rw [l1]; exact he'), g1 e he', hx]
      unfold newCoverage
      simp only [hinv, if_true]
      by_cases hA : e ∈ v.missing
      · rw [if_pos hA] at hget
        rw [isCovered_eq (m := { mask with array := a2 }) hget]
        simp [hne, hA]
      · by_cases hB : e ∈ v.slice i.start i.stop
        · rw [if_neg hA, if_pos hB] at hget
          rw [isCovered_eq (m := { mask with array := a2 }) hget]
          simp [hne, hB]
        · rw [if_neg hA, if_neg hB] at hget
          rw [isCovered_eq (m := { mask with array := a2 }) hget]
          simp [hc, hA, hB]
    · intro e x hx
      have he : e < mask.array.length := by
        have := (List.getElem?_eq_some_iff.1 hx).1
        simp only at this
        omega
      simp only at hx
      rw [g2 e (by rw [l1]; exact he), g1 e he] at hx
      split at hx
      · injection hx; omega
      · split at hx
        · injection hx; omega
        · have := hb.1 e x hx; omega
    · have := hb.2
      simp only; omega
  | false =>
    obtain ⟨a1, h1, l1, g1⟩ := markAll_spec (fun t e => t + stat e) (k + 1) (v.slice i.start i.stop) mask.array 0 hlt1
    simp only [Bool.false_eq_true, if_false, h1, ok_bind, pure_eq_ok]
    refine ⟨_, rfl, ⟨by simp only []; rw [l1, hm.1], ?_⟩, ?_, ?_⟩
    · intro e he
      have he' : e < mask.array.length := by rw [hm.1]; exact he
      have hx : mask.array[e]? = some mask.array[e] := List.getElem?_eq_getElem he'
      have hget : a1[e]? = if e ∈ v.slice i.start i.stop then some (k + 1) else some mask.array[e] := by
        rw [g1 e he', hx]
      have hne : (mask.array[e] == k + 1) = false := by
        have := hb.1 e _ hx
        simp only [beq_eq_false_iff_ne]; omega
      unfold newCoverage
      simp only [hinv, Bool.false_eq_true, if_false]
      by_cases hB : e ∈ v.slice i.start i.stop
      · rw [if_pos hB] at hget
        rw [isCovered_eq (m := { array := a1, indicatorValue := k + 1 }) hget]
        simp [hB]
      · rw [if_neg hB] at hget
        rw [isCovered_eq (m := { array := a1, indicatorValue := k + 1 }) hget]
        simp [hne, hB]
    · intro e x hx
      have he : e < mask.array.length := by
        have := (List.getElem?_eq_some_iff.1 hx).1
        simp only at this
        omega
      simp only at hx
      rw [g1 e he] at hx
      split at hx
      · injection hx; omega
      · have := hb.1 e x hx; omega
    · exact Nat.le_refl _

/-! ### Filtering by an interval -/

theorem open_range {α : Type} {E : List α} {i : Interval} (hle : i.start ≤ i.stop) (hs : i.stop ≤ E.length)
    (ho : i.start = 0 ∨ i.stop = E.length) :
    readRange E (i.open E.length).1 (i.open E.length).2 =
        .ok (if i.inverse then E.take i.start ++ E.drop i.stop else (E.drop i.start).take (i.stop - i.start)) ∧
      (i.open E.length).1 ≤ (i.open E.length).2 ∧ (i.open E.length).2 ≤ E.length := by
  unfold Interval.open
  cases i.inverse with
  | true =>
    simp only [if_true]
    by_cases h : i.start > 0
    · have h1 : i.stop = E.length := by rcases ho with h' | h' <;> omega
      rw [if_pos h]
      refine ⟨?_, by simp, by simp only; omega⟩
      rw [readRange_of_le (by simp) (by simp only; omega)]
      simp [h1]
    · have h1 : i.start = 0 := by omega
      rw [if_neg h]
      refine ⟨?_, by simp only; omega, by simp⟩
      rw [readRange_of_le (by simp only; omega) (by simp)]
      simp [h1]
  | false =>
    simp only [Bool.false_eq_true, if_false]
    by_cases h : i.start > 0
    · have h1 : i.stop = E.length := by rcases ho with h' | h' <;> omega
      rw [if_pos h]
      refine ⟨?_, by simp only; omega, by simp⟩
      rw [readRange_of_le (by simp only; omega) (by simp)]
      simp [h1]
    · have h1 : i.start = 0 := by omega
      rw [if_neg h]
      refine ⟨?_, by simp only; omega, by simp only; omega⟩
      rw [readRange_of_le (by simp only; omega) (by simp only; omega)]

theorem split_three {α : Type} (E : List α) {start stop : Nat} (h : start ≤ stop) :
    E = E.take start ++ ((E.drop start).take (stop - start) ++ E.drop stop) := by
  have h1 : E.drop stop = (E.drop start).drop (stop - start) := by
    rw [List.drop_drop]; congr 1; omega
  rw [h1, List.take_append_drop, List.take_append_drop]

/-- The part of an array that remains after filtering it by an interval. -/
def kept {α : Type} (E : List α) (i : Interval) : List α :=
  if i.inverse then E.take i.start ++ E.drop i.stop else (E.drop i.start).take (i.stop - i.start)

theorem kept_entries {n : Nat} {E E0 : List (Nat × Rat)} {sv : Rat} {sp : Bool} {m : List Nat} {i : Interval} {c : Nat → Bool}
    (hwf : (FeatureVector.numerical E sv sp m).WellFormed n) (hle : i.start ≤ i.stop)
    (hE : E = E0.filter (fun x => c x.1)) :
    kept E i = E0.filter (fun x => newCoverage (.numerical E sv sp m) i c x.1) := by
  have hcov : ∀ x ∈ E, c x.1 = true := by
    intro x hx
    rw [hE] at hx
    exact (List.mem_filter.1 hx).2
  -- filtering the original entries is filtering the current ones
  have h0 : ∀ nc : Nat → Bool, (∀ e, nc e = true → c e = true) →
      E0.filter (fun x => nc x.1) = E.filter (fun x => nc x.1) := by
    intro nc hnc
    rw [hE, List.filter_filter]
    apply List.filter_congr
    intro x hx
    have := hnc x.1
    cases hn : nc x.1 with
    | false => simp
    | true => simp [this hn]
  have h1 := h0 (newCoverage (.numerical E sv sp m) i c) (by
    intro e hn
    unfold newCoverage at hn
    split at hn
    · simp only [Bool.and_eq_true] at hn; exact hn.1.1
    · rw [List.contains_iff_mem] at hn
      have := FeatureVector.slice_sublist.subset hn
      simp only [FeatureVector.examples, List.mem_map] at this
      obtain ⟨y, hy, hyx⟩ := this
      rw [← hyx]; exact hcov y hy)
  rw [h1]
  have hsplit := split_three E hle
  have hnd : (E.map Prod.fst).Nodup := (List.nodup_append.1 hwf.nodup).1
  have hdis : ∀ e ∈ E.map Prod.fst, e ∉ m := by
    intro e he hm
    exact (List.nodup_append.1 hwf.nodup).2.2 e he e hm rfl
  have hnd' := hnd
  rw [hsplit, List.map_append, List.map_append] at hnd'
  obtain ⟨_, hnd2, hd1⟩ := List.nodup_append.1 hnd'
  obtain ⟨_, _, hd2⟩ := List.nodup_append.1 hnd2
  have key : ∀ x ∈ E, newCoverage (.numerical E sv sp m) i c x.1 =
      if i.inverse then !(((E.drop i.start).take (i.stop - i.start)).map Prod.fst).contains x.1
      else (((E.drop i.start).take (i.stop - i.start)).map Prod.fst).contains x.1 := by
    intro x hx
    unfold newCoverage
    have h2 := hcov x hx
    have h3 : m.contains x.1 = false := by
      have := hdis x.1 (List.mem_map.2 ⟨x, hx, rfl⟩)
      simpa using this
    split
    · simp only [FeatureVector.slice, FeatureVector.missing, h2, h3, Bool.true_and, Bool.not_false, Bool.and_true]
    · rfl
  rw [List.filter_congr key]
  unfold kept
  generalize hA : E.take i.start = A at *
  generalize hM : (E.drop i.start).take (i.stop - i.start) = Mid at *
  generalize hD : E.drop i.stop = D at *
  have hAm : ∀ x ∈ A, (Mid.map Prod.fst).contains x.1 = false := by
    intro x hx
    rw [← Bool.not_eq_true, List.contains_iff_mem]
    intro h
    exact hd1 x.1 (List.mem_map.2 ⟨x, hx, rfl⟩) x.1 (List.mem_append_left _ h) rfl
  have hDm : ∀ x ∈ D, (Mid.map Prod.fst).contains x.1 = false := by
    intro x hx
    rw [← Bool.not_eq_true, List.contains_iff_mem]
    intro h
    exact hd2 x.1 h x.1 (List.mem_map.2 ⟨x, hx, rfl⟩) rfl
  have hMm : ∀ x ∈ Mid, (Mid.map Prod.fst).contains x.1 = true := by
    intro x hx
    rw [List.contains_iff_mem]
    exact List.mem_map.2 ⟨x, hx, rfl⟩
  rw [hsplit, List.filter_append, List.filter_append]
  cases i.inverse with
  | true =>
    simp only [if_true]
    have e1 : A.filter (fun x => !(Mid.map Prod.fst).contains x.1) = A :=
      List.filter_eq_self.2 (fun x hx => by rw [hAm x hx]; rfl)
    have e2 : D.filter (fun x => !(Mid.map Prod.fst).contains x.1) = D :=
      List.filter_eq_self.2 (fun x hx => by rw [hDm x hx]; rfl)
    have e3 : Mid.filter (fun x => !(Mid.map Prod.fst).contains x.1) = [] :=
      List.filter_eq_nil_iff.2 (fun x hx => by rw [hMm x hx]; simp)
    rw [e1, e2, e3]
    simp
  | false =>
    simp only [Bool.false_eq_true, if_false]
    have e1 : A.filter (fun x => (Mid.map Prod.fst).contains x.1) = [] :=
      List.filter_eq_nil_iff.2 (fun x hx => by rw [hAm x hx]; simp)
    have e2 : D.filter (fun x => (Mid.map Prod.fst).contains x.1) = [] :=
      List.filter_eq_nil_iff.2 (fun x hx => by rw [hDm x hx]; simp)
    have e3 : Mid.filter (fun x => (Mid.map Prod.fst).contains x.1) = Mid := List.filter_eq_self.2 hMm
    rw [e1, e2, e3]
    simp

theorem kept_bins {n : Nat} {B B0 : List (Int × List Nat)} {k : NominalKind} {mv : Int} {m : List Nat} {i : Interval}
    {c : Nat → Bool} (hwf : (FeatureVector.nominal k B mv m).WellFormed n) (hle : i.start ≤ i.stop)
    (hE : B = restrictBins c B0) :
    kept B i = restrictBins (newCoverage (.nominal k B mv m) i c) B0 := by
  have hcov : ∀ e ∈ B.flatMap Prod.snd, c e = true := by
    intro e he
    rw [hE, mem_restrictBins_examples] at he
    exact he.2
  have hbins := hwf.bins k B mv m rfl
  have h0 : ∀ nc : Nat → Bool, (∀ e, nc e = true → c e = true) → restrictBins nc B0 = restrictBins nc B := by
    intro nc hnc
    rw [hE, restrictBins_restrictBins (fun e _ => hnc e)]
  have h1 := h0 (newCoverage (.nominal k B mv m) i c) (by
    intro e hn
    unfold newCoverage at hn
    split at hn
    · simp only [Bool.and_eq_true] at hn; exact hn.1.1
    · rw [List.contains_iff_mem] at hn
      have := FeatureVector.slice_sublist.subset hn
      exact hcov e this)
  rw [h1]
  have hsplit := split_three B hle
  have hnd : (B.flatMap Prod.snd).Nodup := (List.nodup_append.1 hwf.nodup).1
  have hdis : ∀ e ∈ B.flatMap Prod.snd, e ∉ m := by
    intro e he hm
    exact (List.nodup_append.1 hwf.nodup).2.2 e he e hm rfl
  have hnd' := hnd
  rw [hsplit, List.flatMap_append, List.flatMap_append] at hnd'
  obtain ⟨_, hnd2, hd1⟩ := List.nodup_append.1 hnd'
  obtain ⟨_, _, hd2⟩ := List.nodup_append.1 hnd2
  have key : ∀ e ∈ B.flatMap Prod.snd, newCoverage (.nominal k B mv m) i c e =
      if i.inverse then !(((B.drop i.start).take (i.stop - i.start)).flatMap Prod.snd).contains e
      else (((B.drop i.start).take (i.stop - i.start)).flatMap Prod.snd).contains e := by
    intro e he
    unfold newCoverage
    have h2 := hcov e he
    have h3 : m.contains e = false := by
      have := hdis e he
      simpa using this
    split
    · simp only [FeatureVector.slice, FeatureVector.missing, h2, h3, Bool.true_and, Bool.not_false, Bool.and_true]
    · rfl
  rw [restrictBins_congr (d := fun e => if i.inverse then
    !(((B.drop i.start).take (i.stop - i.start)).flatMap Prod.snd).contains e
      else (((B.drop i.start).take (i.stop - i.start)).flatMap Prod.snd).contains e) key]
  unfold kept
  generalize hA : B.take i.start = A at *
  generalize hM : (B.drop i.start).take (i.stop - i.start) = Mid at *
  generalize hD : B.drop i.stop = D at *
  have hAm : ∀ x ∈ A.flatMap Prod.snd, (Mid.flatMap Prod.snd).contains x = false := by
    intro x hx
    rw [← Bool.not_eq_true, List.contains_iff_mem]
    intro h
    exact hd1 x hx x (List.mem_append_left _ h) rfl
  have hDm : ∀ x ∈ D.flatMap Prod.snd, (Mid.flatMap Prod.snd).contains x = false := by
    intro x hx
    rw [← Bool.not_eq_true, List.contains_iff_mem]
    intro h
    exact hd2 x h x hx rfl
  have hMm : ∀ x ∈ Mid.flatMap Prod.snd, (Mid.flatMap Prod.snd).contains x = true := by
    intro x hx
    rw [List.contains_iff_mem]
    exact hx
  rw [hsplit] at hbins
  have hbA : ∀ b ∈ A, b.2 ≠ [] := fun b hb => hbins b (List.mem_append_left _ hb)
  have hbM : ∀ b ∈ Mid, b.2 ≠ [] := fun b hb => hbins b (List.mem_append_right _ (List.mem_append_left _ hb))
  have hbD : ∀ b ∈ D, b.2 ≠ [] := fun b hb => hbins b (List.mem_append_right _ (List.mem_append_right _ hb))
  rw [hsplit, restrictBins_append, restrictBins_append]
  cases i.inverse with
  | true =>
    simp only [if_true]
    rw [restrictBins_eq_self hbA (fun x hx => by rw [hAm x hx]; rfl), restrictBins_eq_self hbD (fun x hx => by rw [hDm x hx]; rfl),
      restrictBins_eq_nil (fun x hx => by rw [hMm x hx]; simp)]
    simp
  | false =>
    simp only [Bool.false_eq_true, if_false]
    rw [restrictBins_eq_nil hAm, restrictBins_eq_nil hDm, restrictBins_eq_self hbM hMm]
    simp

/-- Filtering by an interval. -/
theorem filterInterval_spec {n : Nat} {c : Nat → Bool} {v col : FeatureVector} {i : Interval} (isEq : Rat → Rat → Bool)
    (existing : Bool) (hcol : col.WellFormed n) (h : Agrees c c v col) (hi : v.ValidInterval i) :
    ∃ v', v.filterInterval isEq existing i = .ok v' ∧
      (v' = .equal ∨ (Agrees (newCoverage v i c) (newCoverage v i c) v' col ∧
        (v'.missing = [] ∨ ∃ b mv m, col = .nominal .nominal b mv m))) := by
  have hwf := h.wellFormed hcol
  have hent := h.entries
  -- no example with a missing value is covered any more
  have hmiss : ∀ e ∈ col.missing, newCoverage v i c e = true → False := by
    intro e he hn
    unfold newCoverage at hn
    split at hn
    · simp only [Bool.and_eq_true, Bool.not_eq_true'] at hn
      have := h.covered e he hn.1.1
      rw [← List.contains_iff_mem, hn.2] at this
      simp at this
    · rw [List.contains_iff_mem] at hn
      have h1 := FeatureVector.slice_sublist.subset hn
      have h2 := (h.entries.examples.1 h1).1
      exact (List.nodup_append.1 hcol.nodup).2.2 e h2 e he rfl
  cases v with
  | equal => exact absurd rfl hi.notEqual
  | numerical E sv sp m =>
    cases col with
    | equal => exact absurd hent (by simp [FeatureVector.SameEntries])
    | nominal => exact absurd hent (by simp [FeatureVector.SameEntries])
    | numerical E0 sv0 sp0 m0 =>
      obtain ⟨hE, hs, hp⟩ := hent
      have ho : i.start = 0 ∨ i.stop = E.length := by
        rcases hi.isOpen with ⟨_, _, _, h⟩ | ⟨_, _, _, h⟩ | h | h
        · cases h
        · cases h
        · exact Or.inl h
        · exact Or.inr h
      obtain ⟨hr, hr1, hr2⟩ := open_range (E := E) hi.le hi.stop_le ho
      have hk := kept_entries hwf hi.le hE
      have key : Agrees (newCoverage (.numerical E sv sp m) i c) (newCoverage (.numerical E sv sp m) i c)
          (.numerical (kept E i) sv sp []) (.numerical E0 sv0 sp0 m0) :=
        ⟨⟨hk, hs, hp⟩, List.nil_sublist _, fun e he hn => (hmiss e he hn).elim⟩
      unfold kept at key
      simp only [FeatureVector.filterInterval]
      by_cases hpos : (i.open E.length).2 - (i.open E.length).1 > 0
      · rw [if_pos hpos]
        cases sp with
        | true =>
          simp only [if_true, hr, ok_bind, pure_eq_ok]
          exact ⟨_, rfl, Or.inr ⟨key, Or.inl rfl⟩⟩
        | false =>
          simp only [Bool.false_eq_true, if_false, hr, ok_bind]
          rw [readAt_of_lt (by omega), readAt_of_lt (by omega)]
          simp only [ok_bind, pure_eq_ok]
          split
          · exact ⟨_, rfl, Or.inl rfl⟩
          · exact ⟨_, rfl, Or.inr ⟨key, Or.inl rfl⟩⟩
      · rw [if_neg hpos]
        exact ⟨_, rfl, Or.inl rfl⟩
  | nominal k B mv m =>
    cases col with
    | equal => exact absurd hent (by simp [FeatureVector.SameEntries])
    | numerical => exact absurd hent (by simp [FeatureVector.SameEntries])
    | nominal k0 B0 mv0 m0 =>
      obtain ⟨hkk, hE, hs⟩ := hent
      have hk := kept_bins hwf hi.le hE
      cases k with
      | binary => exact ⟨_, rfl, Or.inl rfl⟩
      | ordinal =>
        have ho : i.start = 0 ∨ i.stop = B.length := by
          rcases hi.isOpen with ⟨_, _, _, h⟩ | ⟨_, _, _, h⟩ | h | h
          · cases h
          · cases h
          · exact Or.inl h
          · exact Or.inr h
        obtain ⟨hr, hr1, hr2⟩ := open_range (E := B) hi.le hi.stop_le ho
        simp only [FeatureVector.filterInterval]
        by_cases hpos : (i.open B.length).2 - (i.open B.length).1 > 0
        · rw [if_pos hpos]
          simp only [hr, ok_bind, pure_eq_ok]
          refine ⟨_, rfl, Or.inr ⟨⟨⟨hkk, ?_, hs⟩, List.nil_sublist _, fun e he hn => (hmiss e he hn).elim⟩, Or.inl rfl⟩⟩
          exact hk
        · rw [if_neg hpos]
          exact ⟨_, rfl, Or.inl rfl⟩
      | nominal =>
        simp only [FeatureVector.filterInterval]
        cases hinv : i.inverse with
        | false => exact ⟨_, rfl, Or.inl rfl⟩
        | true =>
          have hl := hi.le
          have hl2 : i.stop ≤ B.length := hi.stop_le
          rw [readRange_of_le (by omega) (by omega), readRange_of_le hl2 (Nat.le_refl _)]
          simp only [ok_bind, if_true, pure_eq_ok]
          have e1 : (B.drop 0).take (i.start - 0) = B.take i.start := by simp
          have e2 : (B.drop i.stop).take (B.length - i.stop) = B.drop i.stop := by
            rw [List.take_of_length_le]; simp
          rw [e1, e2]
          split
          · refine ⟨_, rfl, Or.inr ⟨⟨⟨hkk, ?_, hs⟩, ?_, fun e he hn => (hmiss e he hn).elim⟩, ?_⟩⟩
            · rw [← hk]; unfold kept; rw [hinv]; simp
            · cases existing with
              | true => exact h.missing
              | false => exact List.nil_sublist _
            · subst hkk; exact Or.inr ⟨_, _, _, rfl⟩
          · exact ⟨_, rfl, Or.inl rfl⟩

/-! ### Invariant of a subspace -/

section
variable {M : Type} [Zero M] [Add M] [Sub M]

/-- All columns are well-formed. -/
def Env.WellFormed (env : Env M) : Prop := ∀ f, (env.column f).WellFormed env.numExamples

/-- No nominal column has missing values. -/
def Env.NoNominalMissing (env : Env M) : Prop := ∀ f b mv m, env.column f = .nominal .nominal b mv m → m = []

/-- The vector in a cache entry (or the original one). -/
def Subspace.current (env : Env M) (s : Subspace M) (f : Nat) : FeatureVector := (s.entry f).vector.getD (env.column f)

/-- Relation between a vector, the examples that are covered and the original column. -/
structure VecInv (env : Env M) (s : Subspace M) (c : Nat → Bool) (f : Nat) : Prop where
  le : (s.entry f).numConditions ≤ s.numModifications
  none : (s.entry f).vector = none → (s.entry f).numConditions = 0
  vec : ∀ v, (s.entry f).vector = some v → v = .equal ∨ ∃ c', Agrees c c' v (env.column f) ∧
    (∀ e, e < env.numExamples → c e = true → c' e = true) ∧
    ((s.entry f).numConditions = s.numModifications →
      Agrees c c v (env.column f) ∧ (env.NoNominalMissing → ∀ e ∈ v.missing, c e = true))

structure Inv (env : Env M) (s : Subspace M) (c : Nat → Bool) : Prop where
  marks : s.mask.Marks env.numExamples c
  bounded : s.mask.Bounded s.numModifications
  zero : s.numModifications = 0 → ∀ e, e < env.numExamples → c e = true
  vecs : ∀ f, VecInv env s c f

theorem marks_create {n : Nat} {c : Nat → Bool} (h : ∀ e, e < n → c e = true) : (CoverageMask.create n).Marks n c := by
  refine ⟨by simp [CoverageMask.create], fun e he => ?_⟩
  have : (CoverageMask.create n).array[e]? = some 0 := by
    simp only [CoverageMask.create]
    rw [List.getElem?_replicate, if_pos he]
  rw [isCovered_eq this, h e he]
  rfl

theorem bounded_create {n k : Nat} : (CoverageMask.create n).Bounded k := by
  refine ⟨fun e x hx => ?_, Nat.zero_le _⟩
  simp only [CoverageMask.create, List.getElem?_replicate] at hx
  split at hx
  · injection hx; omega
  · cases hx

theorem vecInv_none {env : Env M} {s : Subspace M} {c : Nat → Bool} {f : Nat} (h : s.cache f = none) : VecInv env s c f := by
  have h1 : s.entry f = { vector := none, numConditions := 0 } := by simp [Subspace.entry, h]
  exact ⟨by rw [h1]; exact Nat.zero_le _, by rw [h1]; exact fun _ => rfl, by rw [h1]; intro v hv; cases hv⟩

theorem Inv.create (env : Env M) : Inv env (.create env) (fun _ => true) :=
  ⟨marks_create (fun _ _ => rfl), bounded_create, fun _ _ _ => rfl, fun _ => vecInv_none rfl⟩

theorem Inv.copy {env : Env M} {s : Subspace M} {c : Nat → Bool} (h : Inv env s c) : Inv env s.copy c :=
  ⟨h.marks, h.bounded, h.zero, fun _ => vecInv_none rfl⟩

theorem Inv.reset {env : Env M} {s : Subspace M} {c : Nat → Bool} (h : Inv env s c) : Inv env (s.reset env) (fun _ => true) := by
  have : s.mask.reset = .create env.numExamples := by simp [CoverageMask.reset, h.marks.1]
  refine ⟨?_, ?_, fun _ _ _ => rfl, fun _ => vecInv_none rfl⟩
  · simp only [Subspace.reset, this]; exact marks_create (fun _ _ => rfl)
  · simp only [Subspace.reset, this]; exact bounded_create

/-- The vector that results from filtering a vector of the cache if it is outdated. -/
def Subspace.refreshed (env : Env M) (s : Subspace M) (f : Nat) : Res FeatureVector :=
  if s.numModifications > (s.entry f).numConditions then (s.current env f).filterMask env.isEqual s.mask
  else .ok (s.current env f)

theorem Inv.refreshed {env : Env M} {s : Subspace M} {c : Nat → Bool} (hwf : env.WellFormed) (h : Inv env s c) (f : Nat) :
    ∃ v, s.refreshed env f = .ok v ∧
      (v = .equal ∨ (Agrees c c v (env.column f) ∧ (env.NoNominalMissing → ∀ e ∈ v.missing, c e = true))) := by
  have hv := h.vecs f
  have hcol := hwf f
  unfold Subspace.refreshed Subspace.current
  by_cases hgt : s.numModifications > (s.entry f).numConditions
  · rw [if_pos hgt]
    have hcur : (s.entry f).vector.getD (env.column f) = .equal ∨ ∃ c', Agrees c c' ((s.entry f).vector.getD (env.column f)) (env.column f) ∧
        (∀ e, e < env.numExamples → c e = true → c' e = true) := by
      cases hvec : (s.entry f).vector with
      | some v =>
        rcases hv.vec v hvec with h1 | ⟨c', h1, h2, _⟩
        · exact Or.inl h1
        · exact Or.inr ⟨c', h1, h2⟩
      | none =>
        by_cases heq : env.column f = .equal
        · exact Or.inl heq
        · exact Or.inr ⟨fun _ => true, agrees_self heq hcol (fun _ _ => rfl), fun _ _ _ => rfl⟩
    rcases hcur with h1 | ⟨c', h1, h2⟩
    · rw [h1]; exact ⟨.equal, rfl, Or.inl rfl⟩
    · obtain ⟨v', h3, h4⟩ := filterMask_spec env.isEqual h.marks hcol h2 h1
      refine ⟨v', h3, ?_⟩
      rcases h4 with h4 | ⟨h4, h5⟩
      · exact Or.inl h4
      · exact Or.inr ⟨h4, fun _ => h5⟩
  · rw [if_neg hgt]
    refine ⟨_, rfl, ?_⟩
    have heq : (s.entry f).numConditions = s.numModifications := by have := hv.le; omega
    cases hvec : (s.entry f).vector with
    | some v =>
      rcases hv.vec v hvec with h1 | ⟨c', _, _, h3⟩
      · exact Or.inl h1
      · exact Or.inr (h3 heq)
    | none =>
      have h0 := hv.none hvec
      have hall := h.zero (by omega)
      by_cases hc : env.column f = .equal
      · exact Or.inl hc
      · exact Or.inr ⟨agrees_self hc hcol hall, fun _ e he => hall e (hcol.lt e (List.mem_append_right _ he))⟩

theorem invoke_eq {env : Env M} {s : Subspace M} {f : Nat} {v : FeatureVector} (h : s.refreshed env f = .ok v) :
    ∃ s', s.invoke env f = .ok (v, s') ∧ s'.mask = s.mask ∧ s'.numModifications = s.numModifications ∧ s'.total = s.total ∧
      (s'.loaded f = true ∨ ((s.entry f).vector.isSome = true ∧ s'.loaded = s.loaded)) ∧
      s'.cache = upd s.cache f (some (if s.numModifications > (s.entry f).numConditions then
        { vector := some v, numConditions := s.numModifications } else s.entry f)) := by
  unfold Subspace.refreshed Subspace.current at h
  unfold Subspace.invoke
  by_cases hgt : s.numModifications > (s.entry f).numConditions
  · rw [if_pos hgt] at h
    simp only [hgt, if_true, h, ok_bind, pure_eq_ok]
    refine ⟨_, rfl, rfl, rfl, rfl, ?_, rfl⟩
    simp only []
    split
    · rename_i hs; exact Or.inr ⟨hs, rfl⟩
    · exact Or.inl (by simp [upd])
  · rw [if_neg hgt] at h
    injection h with h
    subst h
    simp only [hgt, if_false, pure_eq_ok]
    refine ⟨_, rfl, rfl, rfl, rfl, ?_, rfl⟩
    simp only []
    split
    · rename_i hs; exact Or.inr ⟨hs, rfl⟩
    · exact Or.inl (by simp [upd])

theorem entry_upd {s s' : Subspace M} {f : Nat} {x : CacheEntry} (h : s'.cache = upd s.cache f (some x)) (g : Nat) :
    s'.entry g = if g = f then x else s.entry g := by
  unfold Subspace.entry
  rw [h]
  unfold upd
  split <;> rfl

theorem Inv.invoke {env : Env M} {s s' : Subspace M} {c : Nat → Bool} {f : Nat} {v : FeatureVector} (hwf : env.WellFormed)
    (h : Inv env s c) (hs : s.invoke env f = .ok (v, s')) : Inv env s' c := by
  obtain ⟨v0, h1, h2⟩ := h.refreshed hwf f
  obtain ⟨s0, h3, h4, h5, _, _, h6⟩ := invoke_eq h1
  rw [hs] at h3
  injection h3 with h3
  injection h3 with ha hb
  subst ha hb
  refine ⟨by rw [h4]; exact h.marks, by rw [h4, h5]; exact h.bounded, by rw [h5]; exact h.zero, ?_⟩
  intro g
  have hent := entry_upd h6 g
  by_cases hg : g = f
  · subst hg
    rw [if_pos rfl] at hent
    by_cases hgt : s.numModifications > (s.entry g).numConditions
    · rw [if_pos hgt] at hent
      refine ⟨by rw [hent, h5], (by rw [hent]; intro h'; exact absurd h' (by simp)), ?_⟩
      rw [hent, h5]
      intro w hw
      injection hw with hw
      subst hw
      rcases h2 with h2 | h2
      · exact Or.inl h2
      · exact Or.inr ⟨c, h2.1, fun _ _ h => h, fun _ => h2⟩
    · rw [if_neg hgt] at hent
      have := h.vecs g
      exact ⟨by rw [hent, h5]; exact this.le, by rw [hent]; exact this.none, by rw [hent, h5]; exact this.vec⟩
  · rw [if_neg hg] at hent
    have := h.vecs g
    exact ⟨by rw [hent, h5]; exact this.le, by rw [hent]; exact this.none, by rw [hent, h5]; exact this.vec⟩

theorem upToDate_eq {env : Env M} {s : Subspace M} {f : Nat} (h : (s.entry f).vector.isSome = true ∨ s.loaded f = true) :
    ∃ ex, s.upToDate env f = (s.refreshed env f >>= fun v => .ok (v, ex)) := by
  have hav : s.available env f = .ok (s.current env f) := by
    unfold Subspace.available Subspace.current
    cases hv : (s.entry f).vector with
    | some v => rfl
    | none =>
      rw [hv] at h
      simp only [Option.isSome_none, Bool.false_eq_true, false_or] at h
      simp [h]
  unfold Subspace.upToDate Subspace.refreshed
  rw [hav, ok_bind]
  by_cases hgt : s.numModifications > (s.entry f).numConditions
  · simp only [hgt, if_true, pure_eq_ok]; exact ⟨true, rfl⟩
  · simp only [hgt, if_false, pure_eq_ok, ok_bind]; exact ⟨_, rfl⟩

theorem refreshed_of_upToDate {env : Env M} {s : Subspace M} {f : Nat} {v : FeatureVector} {ex : Bool}
    (h : s.upToDate env f = .ok (v, ex)) : s.refreshed env f = .ok v := by
  by_cases hl : (s.entry f).vector.isSome = true ∨ s.loaded f = true
  · obtain ⟨ex', he⟩ := upToDate_eq (env := env) hl
    rw [he] at h
    cases hr : s.refreshed env f with
    | error e => rw [hr] at h; cases h
    | ok w =>
      rw [hr, ok_bind] at h
      injection h with h
      injection h with h _
      rw [h]
  · exfalso
    have h1 : (s.entry f).vector = none := by
      cases hv : (s.entry f).vector with
      | none => rfl
      | some v => exact absurd (Or.inl (by rw [hv]; rfl)) hl
    have h2 : s.loaded f = false := by
      cases hv : s.loaded f with
      | false => rfl
      | true => exact absurd (Or.inr hv) hl
    simp only [Subspace.upToDate, Subspace.available, h1, h2] at h
    cases h

/-- Adding a condition. -/
theorem Inv.filter {env : Env M} {s : Subspace M} {c : Nat → Bool} {f : Nat} {v : FeatureVector} {ex : Bool} {i : Interval} {k : Nat}
    (hwf : env.WellFormed) (h : Inv env s c) (hu : s.upToDate env f = .ok (v, ex)) (hi : v.ValidInterval i) :
    Agrees c c v (env.column f) ∧ (env.NoNominalMissing → ∀ e ∈ v.missing, c e = true) ∧
    ∃ s', s.filter env f i k = .ok s' ∧ Inv env s' (newCoverage v i c) ∧ s'.numCovered = k ∧
      s'.total = (if i.inverse then (v.slice i.start i.stop ++ v.missing).foldl (fun t e => t - env.stat e) s.total
        else (v.slice i.start i.stop).foldl (fun t e => t + env.stat e) 0) := by
  have hr := refreshed_of_upToDate hu
  obtain ⟨v0, h1, h2⟩ := h.refreshed hwf f
  rw [hr] at h1
  injection h1 with h1
  subst h1
  have h2 : Agrees c c v (env.column f) ∧ (env.NoNominalMissing → ∀ e ∈ v.missing, c e = true) := by
    rcases h2 with h2 | h2
    · exact absurd h2 hi.notEqual
    · exact h2
  refine ⟨h2.1, h2.2, ?_⟩
  have hvwf := h2.1.wellFormed (hwf f)
  obtain ⟨mask', h3, h4, h5⟩ := updateCoverage_spec (stat := env.stat) (total := s.total) hvwf hi h.marks h.bounded
  obtain ⟨v', h6, h7⟩ := filterInterval_spec env.isEqual ex (hwf f) h2.1 hi
  refine ⟨_, by simp only [Subspace.filter, hu, ok_bind, h3, h6, pure_eq_ok]; rfl, ?_, rfl, rfl⟩
  refine ⟨h4, h5, fun h0 => by simp only at h0; omega, ?_⟩
  have hmono : ∀ e, newCoverage v i c e = true → c e = true := by
    intro e hn
    unfold newCoverage at hn
    split at hn
    · simp only [Bool.and_eq_true] at hn; exact hn.1.1
    · rw [List.contains_iff_mem] at hn
      exact (h2.1.entries.examples.1 (FeatureVector.slice_sublist.subset hn)).2
  intro g
  by_cases hg : g = f
  · subst hg
    refine ⟨?_, ?_, ?_⟩
    · rw [entry_upd (s := s) rfl, if_pos rfl]
    · rw [entry_upd (s := s) rfl, if_pos rfl]; intro h; cases h
    · rw [entry_upd (s := s) rfl, if_pos rfl]
      intro w hw
      injection hw with hw
      subst hw
      rcases h7 with h7 | ⟨h7, h8⟩
      · exact Or.inl h7
      · refine Or.inr ⟨_, h7, fun _ _ h => h, fun _ => ⟨h7, fun hN => ?_⟩⟩
        have : v'.missing = [] := by
          rcases h8 with h8 | ⟨b, mv, m, h8⟩
          · exact h8
          · have hm := hN g b mv m h8
            have hsub := h7.missing
            rw [h8, hm] at hsub
            exact List.sublist_nil.1 hsub
        rw [this]
        intro e he
        cases he
  · have hv := h.vecs g
    refine ⟨?_, ?_, ?_⟩
    · rw [entry_upd (s := s) rfl, if_neg hg]; have := hv.le; simp only; omega
    · rw [entry_upd (s := s) rfl, if_neg hg]; exact hv.none
    · rw [entry_upd (s := s) rfl, if_neg hg]
      intro w hw
      rcases hv.vec w hw with h8 | ⟨c', h8, h9, _⟩
      · exact Or.inl h8
      · refine Or.inr ⟨c', ⟨h8.entries, h8.missing, fun e he hn => h8.covered e he (hmono e hn)⟩,
          fun e he hn => h9 e he (hmono e hn), fun heq => ?_⟩
        have := hv.le
        simp only at heq
        omega

theorem Inv.congr {env : Env M} {s : Subspace M} {c d : Nat → Bool} (hwf : env.WellFormed) (h : Inv env s c)
    (hcd : ∀ e, e < env.numExamples → c e = d e) : Inv env s d := by
  have hagree : ∀ {f v}, Agrees c c v (env.column f) → Agrees d d v (env.column f) := by
    intro f v ha
    have hlt := (hwf f).lt
    refine ⟨?_, ha.missing, fun e he hd => ha.covered e he (by rw [hcd e (hlt e (List.mem_append_right _ he))]; exact hd)⟩
    have he := ha.entries
    cases v with
    | equal => simp [FeatureVector.SameEntries] at he
    | numerical E sv sp m =>
      cases hcol : env.column f with
      | equal => rw [hcol] at he; simp [FeatureVector.SameEntries] at he
      | nominal => rw [hcol] at he; simp [FeatureVector.SameEntries] at he
      | numerical E0 sv0 sp0 m0 =>
        rw [hcol] at he hlt
        refine ⟨?_, he.2⟩
        rw [he.1]
        apply List.filter_congr
        intro x hx
        exact hcd _ (hlt _ (List.mem_append_left _ (List.mem_map.2 ⟨x, hx, rfl⟩)))
    | nominal k B mv m =>
      cases hcol : env.column f with
      | equal => rw [hcol] at he; simp [FeatureVector.SameEntries] at he
      | numerical => rw [hcol] at he; simp [FeatureVector.SameEntries] at he
      | nominal k0 B0 mv0 m0 =>
        rw [hcol] at he hlt
        refine ⟨he.1, ?_, he.2.2⟩
        rw [he.2.1]
        apply restrictBins_congr
        intro e hx
        exact hcd _ (hlt _ (List.mem_append_left _ hx))
  refine ⟨⟨h.marks.1, fun e he => by rw [h.marks.2 e he, hcd e he]⟩, h.bounded,
    fun h0 e he => by rw [← hcd e he]; exact h.zero h0 e he, fun f => ?_⟩
  have hv := h.vecs f
  refine ⟨hv.le, hv.none, fun v hvv => ?_⟩
  rcases hv.vec v hvv with h1 | ⟨c', h1, h2, h3⟩
  · exact Or.inl h1
  · have hlt := (hwf f).lt
    refine Or.inr ⟨c', ⟨h1.entries, h1.missing, fun e he hd => h1.covered e he (by
      rw [hcd e (hlt e (List.mem_append_right _ he))]; exact hd)⟩, fun e he hd => h2 e he (by rw [hcd e he]; exact hd), ?_⟩
    intro heq
    obtain ⟨h4, h5⟩ := h3 heq
    refine ⟨hagree h4, fun hN e he => ?_⟩
    rw [← hcd e (hlt e (List.mem_append_right _ (h4.missing.subset he)))]
    exact h5 hN e he

theorem newCoverage_eq {env : Env M} {c : Nat → Bool} {v col : FeatureVector} {i : Interval} {sat : Nat → Bool}
    (ha : Agrees c c v col) (hd : v.Describes env.numExamples c i sat) (e : Nat) (he : e < env.numExamples) :
    newCoverage v i c e = (sat e && c e) := by
  cases hc : c e with
  | false =>
    rw [Bool.and_false]
    unfold newCoverage
    split
    · simp [hc]
    · rw [← Bool.not_eq_true, List.contains_iff_mem]
      intro h
      have := (ha.entries.examples.1 (FeatureVector.slice_sublist.subset h)).2
      rw [hc] at this
      cases this
  | true =>
    rw [Bool.and_true]
    have := hd e he hc
    unfold newCoverage
    rw [Bool.eq_iff_iff, this]
    split
    · simp [hc]
    · simp

theorem History.inv {env : Env M} (hwf : env.WellFormed) {s : Subspace M} {conds : List (Nat → Bool)} {fresh : Bool}
    (h : History env s conds fresh) : Inv env s (satisfiesAll conds) := by
  induction h with
  | create => exact Inv.create env
  | copy _ ih => exact ih.copy
  | reset _ ih => exact ih.reset
  | invoke _ hs ih => exact ih.invoke hwf hs
  | filter _ hu hi hd hs ih =>
    obtain ⟨h1, _, s0, h2, h3, _⟩ := ih.filter (k := _) hwf hu hi
    rw [hs] at h2
    injection h2 with h2
    subst h2
    refine h3.congr hwf (fun e he => ?_)
    rw [newCoverage_eq h1 hd e he]
    rfl

end

/-! ### The statistics that are marked as covered -/

section
variable {M : Type} [AddCommGroup M]

theorem foldl_add (stat : Nat → M) : ∀ (l : List Nat) (t : M), l.foldl (fun t e => t + stat e) t = t + (l.map stat).sum := by
  intro l
  induction l with
  | nil => intro t; simp
  | cons x xs ih => intro t; rw [List.foldl_cons, ih, List.map_cons, List.sum_cons]; abel

theorem foldl_sub (stat : Nat → M) : ∀ (l : List Nat) (t : M), l.foldl (fun t e => t - stat e) t = t - (l.map stat).sum := by
  intro l
  induction l with
  | nil => intro t; simp
  | cons x xs ih => intro t; rw [List.foldl_cons, ih, List.map_cons, List.sum_cons]; abel

theorem sumOver_of_perm {n : Nat} {stat : Nat → M} {c : Nat → Bool} {l : List Nat} (hn : l.Nodup)
    (h : ∀ e, e ∈ l ↔ e < n ∧ c e = true) : (l.map stat).sum = sumOver n stat c := by
  unfold sumOver
  apply List.Perm.sum_eq
  apply List.Perm.map
  rw [List.perm_ext_iff_of_nodup hn (List.nodup_range.filter _)]
  intro e
  rw [h e, List.mem_filter, List.mem_range]

theorem sumOver_congr {n : Nat} {stat : Nat → M} {c d : Nat → Bool} (h : ∀ e, e < n → c e = d e) :
    sumOver n stat c = sumOver n stat d := by
  unfold sumOver
  rw [List.filter_congr (fun e he => h e (List.mem_range.1 he))]

theorem sumOver_split {n : Nat} {stat : Nat → M} {c d : Nat → Bool} {l : List Nat} (hn : l.Nodup)
    (hl : ∀ e ∈ l, e < n ∧ c e = true) (hd : ∀ e, e < n → (d e = true ↔ c e = true ∧ e ∉ l)) :
    sumOver n stat c = sumOver n stat d + (l.map stat).sum := by
  have h1 : ((((List.range n).filter d) ++ l).map stat).sum = sumOver n stat c := by
    apply sumOver_of_perm
    · rw [List.nodup_append]
      refine ⟨List.nodup_range.filter _, hn, fun a ha b hb hab => ?_⟩
      subst hab
      rw [List.mem_filter, List.mem_range] at ha
      exact ((hd a ha.1).1 ha.2).2 hb
    · intro e
      rw [List.mem_append, List.mem_filter, List.mem_range]
      constructor
      · rintro (⟨h1, h2⟩ | h1)
        · exact ⟨h1, ((hd e h1).1 h2).1⟩
        · exact hl e h1
      · rintro ⟨h1, h2⟩
        by_cases he : e ∈ l
        · exact Or.inr he
        · exact Or.inl ⟨h1, (hd e h1).2 ⟨h2, he⟩⟩
  rw [← h1, List.map_append, List.sum_append]
  rfl

theorem History.total {env : Env M} (hwf : env.WellFormed) (hN : env.NoNominalMissing) {s : Subspace M}
    {conds : List (Nat → Bool)} {fresh : Bool} (h : History env s conds fresh) (hf : fresh = true) :
    s.total = sumOver env.numExamples env.stat (satisfiesAll conds) := by
  induction h with
  | create =>
    simp only [Subspace.create, foldl_add, zero_add]
    exact sumOver_of_perm List.nodup_range (fun e => by simp [satisfiesAll])
  | copy _ ih => exact ih hf
  | reset _ ih => cases hf
  | @invoke s0 conds0 fresh0 f v s' hh hs ih =>
    have hinv := hh.inv hwf
    obtain ⟨v0, h1, h2⟩ := hinv.refreshed hwf f
    obtain ⟨s1, h3, _, _, h6, _⟩ := invoke_eq h1
    rw [hs] at h3
    injection h3 with h3
    injection h3 with ha hb
    subst ha hb
    rw [h6]
    exact ih hf
  | @filter s0 conds0 fresh0 f v ex i sat k s' hh hu hi hd hs ih =>
    obtain ⟨h1, hcovm, s1, h2, h3, _, h4⟩ := (hh.inv hwf).filter (k := k) hwf hu hi
    rw [hs] at h2
    injection h2 with h2
    subst h2
    have hvwf := h1.wellFormed (hwf f)
    have hcov : ∀ e, e < env.numExamples → newCoverage v i (satisfiesAll conds0) e = satisfiesAll (sat :: conds0) e :=
      fun e he => newCoverage_eq h1 hd e he
    rw [h4, ← sumOver_congr hcov]
    have hsn : (v.slice i.start i.stop).Nodup := ((List.nodup_append.1 hvwf.nodup).1).sublist FeatureVector.slice_sublist
    cases hinv : i.inverse with
    | false =>
      simp only [Bool.false_eq_true, if_false, foldl_add, zero_add]
      apply sumOver_of_perm hsn
      intro e
      unfold newCoverage
      simp only [hinv, Bool.false_eq_true, if_false, List.contains_iff_mem]
      constructor
      · intro h
        exact ⟨hvwf.lt e (List.mem_append_left _ (FeatureVector.slice_sublist.subset h)), h⟩
      · exact fun h => h.2
    | true =>
      simp only [if_true, foldl_sub, ih hf]
      rw [sumOver_split (d := newCoverage v i (satisfiesAll conds0)) (l := v.slice i.start i.stop ++ v.missing)]
      · abel
      · exact hvwf.nodup.sublist (List.Sublist.append FeatureVector.slice_sublist (List.Sublist.refl _))
      · intro e he
        rcases List.mem_append.1 he with he | he
        · have := FeatureVector.slice_sublist.subset he
          exact ⟨hvwf.lt e (List.mem_append_left _ this), (h1.entries.examples.1 this).2⟩
        · exact ⟨hvwf.lt e (List.mem_append_right _ he), hcovm hN e he⟩
      · intro e he
        unfold newCoverage
        simp only [hinv, if_true, Bool.and_eq_true, Bool.not_eq_true', List.mem_append, not_or]
        simp only [← Bool.not_eq_true, List.contains_iff_mem]
        tauto

end

end MLRL.FeatureSpace
