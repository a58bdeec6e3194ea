import Verif.Spec.Tabular
import Verif.Lemma.SearchTyped
import Verif.Props.Search
import Verif.Props.FeatureSpace

/-!
# Lemmas about searches in the subspaces of a tabular feature space
-/

namespace MLRL.Tabular

open FeatureSpace Search

/-! ### Vectors that are searched are not empty -/

/-- A vector is excluded from the search or contains entries. -/
def Filled (v : FeatureVector) : Prop := v = .equal ∨ 0 < v.size

theorem filterMask_filled {isEqual : Rat → Rat → Bool} {mask : CoverageMask} {v v' : FeatureVector} (h : v.filterMask isEqual mask = .ok v') :
    Filled v' := by
  cases v with
  | equal => cases h; exact Or.inl rfl
  | numerical E sv sp m =>
    simp only [FeatureVector.filterMask] at h
    cases h1 : filterCovered mask id m with
    | error e => rw [h1] at h; cases h
    | ok m' =>
      rw [h1, ok_bind] at h
      cases h2 : filterCovered mask Prod.fst E with
      | error e => rw [h2] at h; cases h
      | ok l =>
        rw [h2, ok_bind] at h
        cases l with
        | nil => cases h; exact Or.inl rfl
        | cons x xs =>
          simp only at h
          split at h
          · cases h; exact Or.inr (by simp [FeatureVector.size])
          · split at h
            · cases h; exact Or.inl rfl
            · cases h; exact Or.inr (by simp [FeatureVector.size])
  | nominal k B mv m =>
    simp only [FeatureVector.filterMask] at h
    cases h1 : filterCovered mask id m with
    | error e => rw [h1] at h; cases h
    | ok m' =>
      rw [h1, ok_bind] at h
      cases h2 : filterBins mask B with
      | error e => rw [h2] at h; cases h
      | ok l =>
        rw [h2, ok_bind] at h
        split at h
        · rename_i hl
          cases h
          refine Or.inr ?_
          simp only [FeatureVector.size]
          cases l with
          | nil => simp at hl
          | cons x xs => simp
        · cases h; exact Or.inl rfl

theorem readRange_length {α : Type} {a l : List α} {start stop : Nat} (h : readRange a start stop = .ok l) (hlt : 0 < stop - start) :
    0 < l.length := by
  unfold readRange at h
  rw [if_pos (by omega)] at h
  split at h
  · rename_i hle
    cases h
    rw [List.length_take, List.length_drop]
    omega
  · cases h

theorem filterInterval_filled {isEqual : Rat → Rat → Bool} {existing : Bool} {i : Interval} {v v' : FeatureVector}
    (h : v.filterInterval isEqual existing i = .ok v') : Filled v' := by
  cases v with
  | equal => cases h
  | numerical E sv sp m =>
    simp only [FeatureVector.filterInterval] at h
    split at h
    · rename_i hlt
      split at h
      · cases h1 : readRange E (i.open E.length).1 (i.open E.length).2 with
        | error e => rw [h1] at h; cases h
        | ok l =>
          rw [h1, ok_bind] at h
          cases h
          exact Or.inr (readRange_length h1 hlt)
      · cases ha : readAt E (i.open E.length).1 with
        | error e => rw [ha] at h; cases h
        | ok a =>
          rw [ha, ok_bind] at h
          cases hb : readAt E ((i.open E.length).2 - (i.open E.length).1 - 1) with
          | error e => rw [hb] at h; cases h
          | ok b =>
            rw [hb, ok_bind] at h
            split at h
            · cases h; exact Or.inl rfl
            · cases h1 : readRange E (i.open E.length).1 (i.open E.length).2 with
              | error e => rw [h1] at h; cases h
              | ok l =>
                rw [h1, ok_bind] at h
                cases h
                exact Or.inr (readRange_length h1 hlt)
    · cases h; exact Or.inl rfl
  | nominal k B mv m =>
    cases k with
    | nominal =>
      simp only [FeatureVector.filterInterval] at h
      split at h
      · cases h1 : readRange B 0 i.start with
        | error e => rw [h1] at h; cases h
        | ok a =>
          rw [h1, ok_bind] at h
          cases h2 : readRange B i.stop B.length with
          | error e => rw [h2] at h; cases h
          | ok b =>
            rw [h2, ok_bind] at h
            split at h
            · rename_i hl
              cases h
              refine Or.inr ?_
              simp only [FeatureVector.size]
              cases hab : a ++ b with
              | nil => rw [hab] at hl; simp at hl
              | cons x xs => simp
            · cases h; exact Or.inl rfl
      · cases h; exact Or.inl rfl
    | ordinal =>
      simp only [FeatureVector.filterInterval] at h
      split at h
      · rename_i hlt
        cases h1 : readRange B (i.open B.length).1 (i.open B.length).2 with
        | error e => rw [h1] at h; cases h
        | ok l =>
          rw [h1, ok_bind] at h
          cases h
          exact Or.inr (readRange_length h1 hlt)
      · cases h; exact Or.inl rfl
    | binary => cases h; exact Or.inl rfl

section
variable {M : Type} [Zero M] [Add M] [Sub M] {env : FeatureSpace.Env M}

/-- All vectors in the cache of a subspace are filled. -/
def AllFilled (s : Subspace M) : Prop := ∀ f v, (s.entry f).vector = some v → Filled v

theorem entry_of_upd {s : Subspace M} {s' : Subspace M} {f : Nat} {x : CacheEntry} (h : s'.cache = upd s.cache f (some x)) (g : Nat) :
    s'.entry g = if g = f then x else s.entry g := by
  unfold Subspace.entry
  rw [h]
  unfold upd
  split <;> rfl

theorem invoke_filled {s s' : Subspace M} {f : Nat} {v : FeatureVector} (hs : AllFilled s) (hcol : Filled (env.column f))
    (h : s.invoke env f = .ok (v, s')) : Filled v ∧ AllFilled s' := by
  unfold Subspace.invoke at h
  simp only at h
  split at h
  · cases hv : ((s.entry f).vector.getD (env.column f)).filterMask env.isEqual s.mask with
    | error e => rw [hv] at h; cases h
    | ok v' =>
      rw [hv, ok_bind] at h
      cases h
      have hf := filterMask_filled hv
      refine ⟨hf, fun g w hw => ?_⟩
      rw [entry_of_upd (s := s) (f := f) rfl] at hw
      split at hw
      · simp only [Option.some.injEq] at hw; rw [← hw]; exact hf
      · exact hs g w hw
  · cases h
    refine ⟨?_, fun g w hw => ?_⟩
    · cases hv : (s.entry f).vector with
      | none => exact hcol
      | some v => exact hs f v hv
    · rw [entry_of_upd (s := s) (f := f) rfl] at hw
      split at hw
      · rename_i hg; exact hs f w hw
      · exact hs g w hw

theorem filter_filled {s s' : Subspace M} {f k : Nat} {i : Interval} (hs : AllFilled s) (h : s.filter env f i k = .ok s') : AllFilled s' := by
  unfold Subspace.filter at h
  cases h1 : s.upToDate env f with
  | error e => rw [h1] at h; cases h
  | ok p =>
    obtain ⟨v, existing⟩ := p
    rw [h1, ok_bind] at h
    simp only at h
    cases h2 : v.updateCoverage env.stat i (s.numModifications + 1) s.mask s.total with
    | error e => rw [h2] at h; cases h
    | ok q =>
      obtain ⟨mask, total⟩ := q
      rw [h2, ok_bind] at h
      simp only at h
      cases h3 : v.filterInterval env.isEqual existing i with
      | error e => rw [h3] at h; cases h
      | ok v' =>
        rw [h3, ok_bind] at h
        cases h
        intro g w hw
        rw [entry_of_upd (s := s) (f := f) rfl] at hw
        split at hw
        · simp only [Option.some.injEq] at hw; rw [← hw]; exact filterInterval_filled h3
        · exact hs g w hw

theorem history_filled (hcol : ∀ f, Filled (env.column f)) {s : Subspace M} {conds : List (Nat → Bool)} {fresh : Bool}
    (h : History env s conds fresh) : AllFilled s := by
  induction h with
  | create => intro f v hv; cases hv
  | copy _ _ => intro f v hv; cases hv
  | reset _ _ => intro f v hv; cases hv
  | invoke _ hi ih => exact (invoke_filled ih (hcol _) hi).2
  | filter _ _ _ _ hf ih => exact filter_filled ih hf

end

/-! ### Searching a vector -/

/-- The examples `ex` that are covered and their values can be searched by means of a vector. -/
structure Searchable (n : Nat) (nonZero : Nat → Bool) (value : Nat → Option Rat) (c : Nat → Bool) (v : FeatureVector)
    (ex : List (Nat × Rat)) : Prop where
  nodup : (ex.map Prod.fst).Nodup
  mem : ∀ e, e ∈ ex.map Prod.fst ↔ e < n ∧ c e = true
  values : ∀ p ∈ ex, value p.1 = some p.2
  missing : v.missing = []
  search : ∀ {M : Type} [AddCommGroup M] (cfg : Search.Config M) (subset : Search.Subset M), cfg.nonZero = nonZero →
    (∀ x, cfg.isEqual x x = true) → Start cfg ex subset →
    ∃ r, searchVector cfg subset v = .ok r ∧ ∀ x ∈ r, Sound cfg ex (fun a b => v.slice a b) x ∧ v.ValidInterval x.interval

theorem numerical_searchable {n : Nat} {nonZero : Nat → Bool} {value : Nat → Option Rat} {c : Nat → Bool} {E E' : List (Nat × Rat)} {sv : Rat}
    (sorted : SortedEntries E) (nodup : (E.map Prod.fst).Nodup) (covered : ∀ e, e ∈ E.map Prod.fst ↔ e < n)
    (values : ∀ p ∈ E, value p.1 = some p.2) (sign : (∀ p ∈ E, p.2 < sv) ∨ (∀ p ∈ E, sv ≤ p.2))
    (hE : E' = E.filter (fun x => c x.1)) (hne : E' ≠ []) :
    Searchable n nonZero value c (.numerical E' sv false []) (numericalExamples E' sv []) := by
  have hex : numericalExamples E' sv [] = E' := by simp [numericalExamples]
  have hsub : E'.Sublist E := by rw [hE]; exact List.filter_sublist
  refine ⟨by rw [hex]; exact nodup.sublist (hsub.map _), fun e => ?_, fun p hp => ?_, rfl, ?_⟩
  · rw [hex, hE]
    constructor
    · intro h
      obtain ⟨p, hp, rfl⟩ := List.mem_map.1 h
      obtain ⟨h1, h2⟩ := List.mem_filter.1 hp
      exact ⟨(covered p.1).1 (List.mem_map_of_mem h1), h2⟩
    · rintro ⟨h1, h2⟩
      obtain ⟨p, hp, rfl⟩ := List.mem_map.1 ((covered e).2 h1)
      exact List.mem_map_of_mem (List.mem_filter.2 ⟨hp, h2⟩)
  · rw [hex] at hp
    exact values p (hsub.subset hp)
  · intro M _ cfg subset _ hEq hU
    have hsort : SortedEntries E' := List.Pairwise.sublist hsub sorted
    obtain ⟨r, hr⟩ := (numerical_succeeds_iff (sparse := false) hU hsort hEq).2 hne
    refine ⟨r.all, by simp only [searchVector, hr]; rfl, fun x hx => ?_⟩
    have hacc : r.sparse = [] ∧ r.accumulated = [] := by
      have hr' := hr
      unfold searchNumerical at hr'
      rw [if_neg hne] at hr'
      simp only at hr'
      obtain ⟨A, B, _, h2⟩ := forwardPhase_spec hU hsort hEq
      have hnone : ¬ ((forwardPhase cfg E' sv subset).2.numCovered > 0 ∧ (forwardPhase cfg E' sv subset).2.numCovered < cfg.numExamples) := by
        rw [h2.numCovered]
        rcases sign with hs | hs
        · have hB : B = [] := by
            rw [List.eq_nil_iff_forall_not_mem]
            intro p hp
            have h3 := h2.geq p hp
            have h4 := hs p (hsub.subset (by rw [h2.split]; exact List.mem_append_right _ hp))
            exact absurd h3 (not_le.2 h4)
          have h5 := hU.numExamples
          rw [hex, h2.split, hB, List.append_nil] at h5
          omega
        · have hA : A = [] := by
            rw [List.eq_nil_iff_forall_not_mem]
            intro p hp
            have h3 := h2.less p hp
            have h4 := hs p (hsub.subset (by rw [h2.split]; exact List.mem_append_left _ hp))
            exact absurd h4 (not_le.2 h3)
          rw [hA]
          simp [weighted]
      unfold accumulatedPhase at hr'
      rw [if_neg hnone] at hr'
      cases hr'
      exact ⟨rfl, rfl⟩
    obtain ⟨h1, _⟩ := numerical_sound_partial hU hsort hEq hr
    obtain ⟨⟨i1, i2⟩, i3⟩ := numerical_interval hr x hx
    unfold NumResult.all at hx
    rw [hacc.1, hacc.2, List.append_nil, List.append_nil] at hx
    exact ⟨h1 x hx, ⟨(fun h => by cases h), i1, i2, Or.inr (Or.inr i3)⟩⟩

theorem restrictBins_values_sublist {c : Nat → Bool} (bins : List (Int × List Nat)) :
    ((restrictBins c bins).map Prod.fst).Sublist (bins.map Prod.fst) := by
  unfold restrictBins
  have h := (List.filter_sublist (p := fun b : Int × List Nat => !b.2.isEmpty)
    (l := bins.map (fun b => (b.1, b.2.filter c)))).map Prod.fst
  rwa [List.map_map] at h

theorem mem_restrictBins {c : Nat → Bool} {bins : List (Int × List Nat)} {b : Int × List Nat} (h : b ∈ restrictBins c bins) :
    ∃ b' ∈ bins, b.1 = b'.1 ∧ b.2 = b'.2.filter c := by
  unfold restrictBins at h
  obtain ⟨b', hb', rfl⟩ := List.mem_map.1 (List.mem_filter.1 h).1
  exact ⟨b', hb', rfl, rfl⟩

theorem nominal_searchable {n : Nat} {nonZero : Nat → Bool} {value : Nat → Option Rat} {c : Nat → Bool} {kind : NominalKind}
    {bins B : List (Int × List Nat)} {mv : Int} (distinct : (mv :: bins.map Prod.fst).Nodup) (nodup : (bins.flatMap Prod.snd).Nodup)
    (values : ∀ b ∈ bins, ∀ e ∈ b.2, e < n ∧ value e = some (b.1 : Rat))
    (majority : ∀ e < n, e ∉ bins.flatMap Prod.snd → value e = some (mv : Rat))
    (binary : kind = .binary → bins.length = 1)
    (ordinal : kind = .ordinal → bins.Pairwise (fun a b => a.1 < b.1) ∧ ∀ e < n, nonZero e = true)
    (hB : B = restrictBins c bins) (hne : B ≠ []) :
    Searchable n nonZero value c (.nominal kind B mv [])
      (nominalExamples B mv ((List.range n).filter (fun e => c e && !(bins.flatMap Prod.snd).contains e))) := by
  have hfst : (nominalExamples B mv ((List.range n).filter (fun e => c e && !(bins.flatMap Prod.snd).contains e))).map Prod.fst =
      B.flatMap Prod.snd ++ (List.range n).filter (fun e => c e && !(bins.flatMap Prod.snd).contains e) := by
    have := map_fst_pairs B
    unfold pairs at this
    unfold nominalExamples
    rw [List.map_append, this]
    simp [Function.comp_def]
  have hmem : ∀ e, e ∈ B.flatMap Prod.snd ↔ e ∈ bins.flatMap Prod.snd ∧ c e = true := fun e => by rw [hB]; exact mem_restrictBins_examples
  have hlt : ∀ e ∈ bins.flatMap Prod.snd, e < n := by
    intro e he
    obtain ⟨b, hb, he⟩ := List.mem_flatMap.1 he
    exact (values b hb e he).1
  have hrest : ∀ e, e ∈ (List.range n).filter (fun e => c e && !(bins.flatMap Prod.snd).contains e) ↔
      e < n ∧ c e = true ∧ e ∉ bins.flatMap Prod.snd := by
    intro e
    rw [List.mem_filter, List.mem_range, Bool.and_eq_true, Bool.not_eq_true', ← Bool.not_eq_true, List.contains_iff_mem]
  have hvals : (mv :: B.map Prod.fst).Nodup := by
    rw [hB]
    exact distinct.sublist ((restrictBins_values_sublist bins).cons_cons mv)
  refine ⟨?_, fun e => ?_, fun p hp => ?_, rfl, ?_⟩
  · rw [hfst]
    refine List.nodup_append.2 ⟨nodup.sublist (by rw [hB]; exact restrictBins_sublist bins), List.nodup_range.filter _, ?_⟩
    rintro a ha _ hb rfl
    exact ((hrest a).1 hb).2.2 ((hmem a).1 ha).1
  · rw [hfst, List.mem_append, hmem, hrest]
    constructor
    · rintro (⟨h1, h2⟩ | ⟨h1, h2, _⟩)
      · exact ⟨hlt e h1, h2⟩
      · exact ⟨h1, h2⟩
    · rintro ⟨h1, h2⟩
      by_cases h : e ∈ bins.flatMap Prod.snd
      · exact Or.inl ⟨h, h2⟩
      · exact Or.inr ⟨h1, h2, h⟩
  · unfold nominalExamples at hp
    rcases List.mem_append.1 hp with hp | hp
    · obtain ⟨b, hb, hp⟩ := List.mem_flatMap.1 hp
      obtain ⟨e, he, rfl⟩ := List.mem_map.1 hp
      rw [hB] at hb
      obtain ⟨b', hb', h1, h2⟩ := mem_restrictBins hb
      rw [h2] at he
      rw [(values b' hb' e (List.mem_filter.1 he).1).2, h1]
    · obtain ⟨e, he, rfl⟩ := List.mem_map.1 hp
      obtain ⟨h1, _, h3⟩ := (hrest e).1 he
      exact majority e h1 h3
  · intro M _ cfg subset hnz _ hU
    cases kind with
    | nominal =>
      obtain ⟨r, hr, hs⟩ := nominal_sound hU hvals hne
      refine ⟨r, hr, fun x hx => ⟨hs x hx, ?_⟩⟩
      obtain ⟨i1, i2⟩ := nominal_interval hr x hx
      exact ⟨(fun h => by cases h), i1, i2, Or.inl ⟨_, _, _, rfl⟩⟩
    | binary =>
      have hlen : B.length = 1 := by
        have h1 := (restrictBins_values_sublist (c := c) bins).length_le
        rw [List.length_map, List.length_map, ← hB, binary rfl] at h1
        have h2 := List.length_pos_of_ne_nil hne
        omega
      obtain ⟨b, rfl⟩ := List.length_eq_one_iff.1 hlen
      obtain ⟨x, indices⟩ := b
      have hxm : x ≠ mv := by
        intro h
        simp [h] at hvals
      obtain ⟨r, hr, hs⟩ := binary_sound hU hxm
      refine ⟨r, hr, fun y hy => ⟨hs y hy, ?_⟩⟩
      obtain ⟨i1, i2⟩ := binary_interval hr y hy
      exact ⟨(fun h => by cases h), i1, i2, Or.inr (Or.inl ⟨_, _, _, rfl⟩)⟩
    | ordinal =>
      obtain ⟨ho, hw⟩ := ordinal rfl
      have hsb : SortedBins B mv := by
        refine ⟨?_, fun b hb h => ?_⟩
        · have h1 : (bins.map Prod.fst).Pairwise (· < ·) := List.pairwise_map.2 ho
          have h2 : (B.map Prod.fst).Pairwise (· < ·) := by rw [hB]; exact h1.sublist (restrictBins_values_sublist bins)
          exact List.pairwise_map.1 h2
        · exact (List.nodup_cons.1 hvals).1 (h ▸ List.mem_map_of_mem hb)
      have hfull : ∀ b ∈ B, b.2.filter cfg.nonZero ≠ [] := by
        intro b hb
        have h1 : b.2 ≠ [] := by rw [hB] at hb; exact restrictBins_nonempty b hb
        obtain ⟨e, he⟩ := List.exists_mem_of_ne_nil _ h1
        refine List.ne_nil_of_mem (List.mem_filter.2 ⟨he, ?_⟩)
        rw [hnz]
        exact hw e (hlt e ((hmem e).1 (List.mem_flatMap.2 ⟨b, hb, he⟩)).1)
      obtain ⟨r, hr, hs⟩ := ordinal_sound_partial hU hsb hne (fun b hb _ => hfull b (List.mem_of_mem_head? hb))
        (fun b hb _ => hfull b (List.mem_of_mem_getLast? hb))
      refine ⟨r.all, by simp only [searchVector, hr]; rfl, fun x hx => ⟨hs x hx, ?_⟩⟩
      obtain ⟨⟨i1, i2⟩, i3⟩ := ordinal_interval hr x hx
      exact ⟨(fun h => by cases h), i1, i2, Or.inr (Or.inr i3)⟩

theorem column_searchable {n : Nat} {nonZero : Nat → Bool} {value : Nat → Option Rat} {c : Nat → Bool} {col v : FeatureVector}
    (hcol : ColumnOk n nonZero value col) (hv : v.SameEntries c col) (hm : v.missing = []) (hsize : 0 < v.size) :
    ∃ ex, Searchable n nonZero value c v ex := by
  cases hcol with
  | equal => cases v <;> exact hv.elim
  | numerical _ sorted nodup covered values sign =>
    cases v with
    | equal => exact hv.elim
    | nominal => exact hv.elim
    | numerical E' sv' sp m =>
      obtain ⟨h1, rfl, rfl⟩ := hv
      simp only [FeatureVector.missing] at hm
      subst hm
      exact ⟨_, numerical_searchable sorted nodup covered values sign h1 (List.length_pos_iff.1 hsize)⟩
  | nominal _ _ distinct nodup values majority binary ordinal =>
    cases v with
    | equal => exact hv.elim
    | numerical => exact hv.elim
    | nominal k B mv m =>
      obtain ⟨rfl, h1, rfl⟩ := hv
      simp only [FeatureVector.missing] at hm
      subst hm
      exact ⟨_, nominal_searchable distinct nodup values majority binary ordinal h1 (List.length_pos_iff.1 hsize)⟩

theorem ColumnOk.wellFormed {n : Nat} {nonZero : Nat → Bool} {value : Nat → Option Rat} {col : FeatureVector} (h : ColumnOk n nonZero value col) :
    col.WellFormed n := by
  cases h with
  | equal => exact ⟨List.nodup_nil, (fun e he => by cases he), (fun _ _ _ _ h => by cases h)⟩
  | numerical _ _ nodup covered _ _ =>
    refine ⟨?_, fun e he => ?_, fun _ _ _ _ h => by cases h⟩
    · simp only [FeatureVector.examples, FeatureVector.missing, List.append_nil]; exact nodup
    · simp only [FeatureVector.examples, FeatureVector.missing, List.append_nil] at he
      exact (covered e).1 he
  | nominal _ bin _ nodup values _ _ _ =>
    refine ⟨?_, fun e he => ?_, fun _ _ _ _ h b hb => ?_⟩
    · simp only [FeatureVector.examples, FeatureVector.missing, List.append_nil]; exact nodup
    · simp only [FeatureVector.examples, FeatureVector.missing, List.append_nil] at he
      obtain ⟨b, hb, he⟩ := List.mem_flatMap.1 he
      exact (values b hb e he).1
    · cases h; exact bin b hb

theorem ColumnOk.filled {n : Nat} {nonZero : Nat → Bool} {value : Nat → Option Rat} {col : FeatureVector} (h : ColumnOk n nonZero value col) :
    Filled col := by
  cases h with
  | equal => exact Or.inl rfl
  | numerical nonempty => exact Or.inr (List.length_pos_iff.2 nonempty)
  | nominal nonempty => exact Or.inr (List.length_pos_iff.2 nonempty)

theorem ColumnOk.missing {n : Nat} {nonZero : Nat → Bool} {value : Nat → Option Rat} {col : FeatureVector} (h : ColumnOk n nonZero value col) :
    col.missing = [] := by
  cases h <;> rfl

/-! ### Sums and numbers of examples -/

theorem weighted_perm {n : Nat} {nonZero : Nat → Bool} {value : Nat → Option Rat} {c : Nat → Bool} {v : FeatureVector} {ex : List (Nat × Rat)}
    (h : Searchable n nonZero value c v ex) (p : Rat → Bool) (q : Nat → Bool) (hq : ∀ e x, value e = some x → q e = p x) :
    ((ex.filter (fun x => p x.2)).map Prod.fst).Perm ((List.range n).filter (fun e => c e && q e)) := by
  refine (List.perm_ext_iff_of_nodup (h.nodup.sublist (List.filter_sublist.map _)) (List.nodup_range.filter _)).2 (fun e => ?_)
  rw [List.mem_filter, List.mem_range, Bool.and_eq_true, ← and_assoc, ← h.mem]
  constructor
  · intro he
    obtain ⟨y, hy, rfl⟩ := List.mem_map.1 he
    obtain ⟨h1, h2⟩ := List.mem_filter.1 hy
    exact ⟨List.mem_map_of_mem h1, by rw [hq _ _ (h.values y h1)]; exact h2⟩
  · rintro ⟨h1, h2⟩
    obtain ⟨y, hy, rfl⟩ := List.mem_map.1 h1
    refine List.mem_map_of_mem (List.mem_filter.2 ⟨hy, ?_⟩)
    rw [← hq _ _ (h.values y hy)]; exact h2

theorem sum_filter_nonZero {M : Type} [AddCommGroup M] {nonZero : Nat → Bool} {stat : Nat → M} (hz : ∀ e, nonZero e = false → stat e = 0)
    (l : List Nat) : ((l.filter nonZero).map stat).sum = (l.map stat).sum := by
  induction l with
  | nil => rfl
  | cons e l ih =>
    rw [List.filter_cons]
    cases h : nonZero e with
    | true => simp [ih]
    | false => simp [ih, hz e h]

/-- The number of covered examples with non-zero weight. -/
def numWeighted (env : Env) (n : Nat) (c : Nat → Bool) : Nat := ((List.range n).filter (fun e => c e && env.nonZero e)).length

/-- A subspace represents the examples that satisfy certain conditions. -/
structure Represents (env : Env) (n : Nat) (s : Subspace Unit) (conds : List (Nat → Bool)) : Prop where
  history : ∃ fresh, History env.space s conds fresh
  numCovered : s.numCovered = numWeighted env n (satisfiesAll conds)

variable {env : Env} {n : Nat} {values : Nat → Nat → Option Rat}

theorem Env.Ok.wellFormed (hok : env.Ok n values) : env.space.WellFormed := by
  intro f
  rw [hok.numExamples]
  exact (hok.column f).wellFormed

theorem covers_eq (hok : env.Ok n values) {s : Subspace Unit} {conds : List (Nat → Bool)} (hs : Represents env n s conds) (e : Nat) :
    covers s e = (decide (e < n) && satisfiesAll conds e) := by
  obtain ⟨fresh, hist⟩ := hs.history
  unfold covers
  by_cases he : e < n
  · rw [mask_iff_satisfied hok.wellFormed hist e (by rw [hok.numExamples]; exact he)]
    simp [he]
  · have hl := (hist.inv hok.wellFormed).marks.1
    rw [hok.numExamples] at hl
    unfold CoverageMask.isCovered readAt
    rw [List.getElem?_eq_none (by omega)]
    simp [he]

theorem filter_covers (hok : env.Ok n values) {s : Subspace Unit} {conds : List (Nat → Bool)} (hs : Represents env n s conds) :
    (List.range n).filter (covers s) = (List.range n).filter (satisfiesAll conds) := by
  refine List.filter_congr (fun e he => ?_)
  rw [covers_eq hok hs]
  simp [List.mem_range.1 he]

theorem start_of {M : Type} [AddCommGroup M] (hok : env.Ok n values) {s : Subspace Unit} {conds : List (Nat → Bool)} (hs : Represents env n s conds)
    {f : Nat} {v : FeatureVector} {ex : List (Nat × Rat)} (h : Searchable n env.nonZero (values f) (satisfiesAll conds) v ex) {stat : Nat → M}
    (hz : ∀ e, env.nonZero e = false → stat e = 0) :
    Start (searchConfig env s stat) ex ⟨0, none, searchTotal env s v stat⟩ := by
  have hall : ex.filter (fun _ => true) = ex := List.filter_eq_self.2 (fun _ _ => rfl)
  have hp := weighted_perm h (fun _ => true) (fun _ => true) (fun _ _ _ => rfl)
  rw [hall] at hp
  simp only [Bool.and_true] at hp
  have hnum : (searchConfig env s stat).numExamples = (weighted env.nonZero ex).length := by
    show s.numCovered = _
    rw [hs.numCovered]
    unfold numWeighted weighted
    rw [(hp.filter env.nonZero).length_eq, List.filter_filter]
    exact congrArg _ (List.filter_congr (fun e _ => Bool.and_comm _ _))
  refine ⟨h.nodup, hnum, ?_, rfl, rfl, ?_⟩
  · rw [hnum]
    unfold weighted
    have h1 : ((ex.map Prod.fst).filter env.nonZero).length ≤ (List.range n).length := by
      refine le_trans (List.length_filter_le _ _) ?_
      rw [hp.length_eq]
      exact List.length_filter_le _ _
    rw [List.length_range] at h1
    exact lt_of_le_of_lt h1 hok.size
  · show searchTotal env s v stat = ((weighted env.nonZero ex).map stat).sum
    unfold weighted searchTotal
    rw [sum_filter_nonZero hz, h.missing, hok.numExamples, filter_covers hok hs]
    simp only [List.map_nil, List.sum_nil, sub_zero]
    exact ((hp.map stat).sum_eq).symm

/-- The search by a feature succeeds. All refinements that are found are evaluated on the statistics of the examples that satisfy their
conditions, and these conditions can be added to the subspace. -/
theorem searchFeature_ok {M : Type} [AddCommGroup M] (hok : env.Ok n values) {s : Subspace Unit} {conds : List (Nat → Bool)}
    (hs : Represents env n s conds) (f : Nat) {stat : Nat → M} (hz : ∀ e, env.nonZero e = false → stat e = 0) :
    ∃ r, searchFeature env f s stat = .ok r ∧ ∀ c ∈ r,
      env.minCoverage ≤ c.numCovered ∧
      c.stats = (((List.range n).filter (fun e => satisfiesAll conds e && (Boosting.conditionOf f c).holds values e)).map stat).sum ∧
      ∃ s', addCondition env s (Boosting.conditionOf f c) = .ok s' ∧ Represents env n s' ((Boosting.conditionOf f c).holds values :: conds) := by
  obtain ⟨fresh, hist⟩ := hs.history
  obtain ⟨v, s1, h1, ⟨existing, h2⟩, h3⟩ := filter_succeeds hok.wellFormed hist f
  have hfilled := (invoke_filled (history_filled (fun f => (hok.column f).filled) hist) (hok.column f).filled h1).1
  unfold searchFeature
  rw [h1, ok_bind]
  simp only
  by_cases hv : v = .equal
  · subst hv
    exact ⟨[], rfl, fun c hc => by cases hc⟩
  · have hsize : 0 < v.size := hfilled.resolve_left hv
    have hm : v.missing = [] := by
      have h4 := (invoke_missing hok.wellFormed hist h1 hv).2.1
      rw [(hok.column f).missing] at h4
      exact List.eq_nil_iff_forall_not_mem.2 (fun e he => by cases h4 e he)
    obtain ⟨ex, hex⟩ := column_searchable (hok.column f) ((invoke_sameEntries hok.wellFormed hist h1).resolve_left hv) hm hsize
    obtain ⟨r, hr, hsound⟩ := hex.search (searchConfig env s stat) ⟨0, none, searchTotal env s v stat⟩ rfl hok.isEqual (start_of hok hs hex hz)
    refine ⟨r, hr, fun c hc => ?_⟩
    obtain ⟨c1, c2⟩ := hsound c hc
    have hholds : ∀ e x, values f e = some x → (Boosting.conditionOf f c).holds values e = c.comparator.holds c.threshold x := by
      intro e x hx
      simp only [Boosting.Condition.holds, Boosting.conditionOf, hx]
    have hp := weighted_perm hex (fun x => c.comparator.holds c.threshold x) ((Boosting.conditionOf f c).holds values) hholds
    refine ⟨c1.minCoverage, ?_, ?_⟩
    · rw [c1.stats]
      unfold weightedSum weighted
      rw [show (searchConfig env s stat).nonZero = env.nonZero from rfl, show (searchConfig env s stat).stat = stat from rfl,
        sum_filter_nonZero hz]
      exact (hp.map stat).sum_eq
    · obtain ⟨s', h4, h5⟩ := h3 c.interval c.numCovered c2
      refine ⟨s', ?_, ⟨fresh, ?_⟩, ?_⟩
      · unfold addCondition
        rw [show (Boosting.conditionOf f c).feature = f from rfl, h1, ok_bind]
        exact h4
      · refine (hist.invoke h1).filter h2 c2 ?_ h4
        intro e he hcov
        rw [hok.numExamples] at he
        obtain ⟨y, hy, rfl⟩ := List.mem_map.1 ((hex.mem e).2 ⟨he, hcov⟩)
        rw [hholds _ _ (hex.values y hy), c1.covers y hy, hm]
        split <;> simp
      · rw [h5, c1.count]
        unfold numWeighted weighted
        rw [(hp.filter _).length_eq, List.filter_filter]
        refine congrArg _ (List.filter_congr (fun e _ => ?_))
        simp only [satisfiesAll, List.all_cons, searchConfig]
        cases env.nonZero e <;> cases (Boosting.conditionOf f c).holds values e <;> simp

/-- The comparator and the threshold of a candidate suit the type of the feature. -/
theorem searchFeature_typed {M : Type} [AddCommGroup M] (hok : env.Ok n values) {s : Subspace Unit} {conds : List (Nat → Bool)}
    (hs : Represents env n s conds) (f : Nat) {stat : Nat → M} {r : List (Search.Candidate M)} (hr : searchFeature env f s stat = .ok r) :
    ∀ c ∈ r, Typed env (Boosting.conditionOf f c) := by
  intro c hc
  obtain ⟨fresh, hist⟩ := hs.history
  unfold searchFeature at hr
  cases h1 : s.invoke env.space f with
  | error e => rw [h1] at hr; cases hr
  | ok p =>
    obtain ⟨v, s1⟩ := p
    rw [h1, ok_bind] at hr
    simp only at hr
    have hnum : ∀ c : Search.Candidate M, c.Numerical → NumericalComparator c.comparator := fun c h => h
    unfold Typed
    show match env.space.column f with
      | .equal => False
      | .numerical _ _ _ _ => NumericalComparator c.comparator
      | .nominal _ _ _ _ => ¬ NumericalComparator c.comparator ∧ ∃ z : Int, c.threshold = (z : Rat)
    by_cases hv : v = .equal
    · subst hv
      cases hr
      cases hc
    · have hsame := (invoke_sameEntries hok.wellFormed hist h1).resolve_left hv
      cases v with
      | equal => exact absurd rfl hv
      | numerical E sv sp m =>
        cases hcol : env.space.column f with
        | equal => rw [hcol] at hsame; exact hsame.elim
        | nominal => rw [hcol] at hsame; exact hsame.elim
        | numerical =>
          simp only [searchVector] at hr
          cases hn : searchNumerical (searchConfig env s stat) E sv sp ⟨0, none, searchTotal env s (.numerical E sv sp m) stat⟩ with
          | error e => rw [hn] at hr; cases hr
          | ok r' =>
            rw [hn] at hr
            cases hr
            exact numerical_typed hn c hc
      | nominal k B mv m =>
        cases hcol : env.space.column f with
        | equal => rw [hcol] at hsame; exact hsame.elim
        | numerical => rw [hcol] at hsame; exact hsame.elim
        | nominal =>
          cases k with
          | nominal => exact nominal_typed hr c hc
          | binary => exact binary_typed hr c hc
          | ordinal =>
            simp only [searchVector] at hr
            cases hn : searchOrdinal (searchConfig env s stat) B mv ⟨0, none, searchTotal env s (.nominal .ordinal B mv m) stat⟩ with
            | error e => rw [hn] at hr; cases hr
            | ok r' =>
              rw [hn] at hr
              cases hr
              exact ordinal_typed hn c hc

end MLRL.Tabular
