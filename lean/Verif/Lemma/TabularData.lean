import Verif.Spec.TabularData
import Verif.Props.FeatureType
import Verif.Props.BitVector

/-!
# Lemmas about training on a dense feature matrix
-/

namespace MLRL.TabularData

open FeatureSpace FeatureType Search Tabular

theorem ok_of_bind {α β : Type} {a : Res α} {f : α → Res β} {b : β} (h : (a >>= f) = .ok b) : ∃ x, a = .ok x ∧ f x = .ok b := by
  cases a with
  | error e => cases h
  | ok x => exact ⟨x, rfl, h⟩

/-! ### Types of features -/

theorem set_ok {n : Nat} {v : BitVector} {b : Nat → Bool} (h : BitVector.Rep n v b) {f : Nat} (hf : f < n) (x : Bool) :
    ∃ v', v.set f x = .ok v' ∧ BitVector.Rep n v' (fun g => if g = f then x else b g) :=
  h.apply (.set f x) hf

/-- The bit vectors of a `BitFeatureInfo` represent the kinds of features. -/
def InfoRep (n : Nat) (info : BitFeatureInfo) (kind : Nat → Kind) : Prop :=
  BitVector.Rep n info.ordinal (fun f => decide (kind f = .ordinal)) ∧ BitVector.Rep n info.nominal (fun f => decide (kind f = .nominal))

theorem rep_congr {n : Nat} {v : BitVector} {b b' : Nat → Bool} (h : BitVector.Rep n v b) (hb : b = b') : BitVector.Rep n v b' := hb ▸ h

theorem info_set {n : Nat} {info : BitFeatureInfo} {kind : Nat → Kind} (h : InfoRep n info kind) {f : Nat} (hf : f < n) (k : Kind) :
    ∃ info', info.set f k = .ok info' ∧ InfoRep n info' (fun g => if g = f then k else kind g) := by
  have key : ∀ a b : Bool, ∃ o m, info.ordinal.set f a = .ok o ∧ info.nominal.set f b = .ok m ∧
      BitVector.Rep n o (fun g => if g = f then a else decide (kind g = .ordinal)) ∧
      BitVector.Rep n m (fun g => if g = f then b else decide (kind g = .nominal)) := by
    intro a b
    obtain ⟨o, h1, h2⟩ := set_ok h.1 hf a
    obtain ⟨m, h3, h4⟩ := set_ok h.2 hf b
    exact ⟨o, m, h1, h3, h2, h4⟩
  cases k with
  | numerical =>
    obtain ⟨o, m, h1, h2, h3, h4⟩ := key false false
    refine ⟨⟨o, m⟩, by simp only [BitFeatureInfo.set, h1, h2, ok_bind]; rfl, rep_congr h3 ?_, rep_congr h4 ?_⟩ <;>
    · funext g
      by_cases hg : g = f <;> simp [hg]
  | ordinal =>
    obtain ⟨o, m, h1, h2, h3, h4⟩ := key true false
    refine ⟨⟨o, m⟩, by simp only [BitFeatureInfo.set, h1, h2, ok_bind]; rfl, rep_congr h3 ?_, rep_congr h4 ?_⟩ <;>
    · funext g
      by_cases hg : g = f <;> simp [hg]
  | nominal =>
    obtain ⟨o, m, h1, h2, h3, h4⟩ := key false true
    refine ⟨⟨o, m⟩, by simp only [BitFeatureInfo.set, h1, h2, ok_bind]; rfl, rep_congr h3 ?_, rep_congr h4 ?_⟩ <;>
    · funext g
      by_cases hg : g = f <;> simp [hg]

theorem info_create (n : Nat) : InfoRep n (.create n) (fun _ => .numerical) :=
  ⟨rep_congr (BitVector.rep_create n) (by funext g; simp), rep_congr (BitVector.rep_create n) (by funext g; simp)⟩

theorem info_get {n : Nat} {info : BitFeatureInfo} {kind : Nat → Kind} (h : InfoRep n info kind) {f : Nat} (hf : f < n) :
    info.createFeatureType f = .ok (kind f) := by
  unfold BitFeatureInfo.createFeatureType
  rw [h.1.get hf, ok_bind]
  cases hk : kind f with
  | ordinal => simp; rfl
  | nominal =>
    simp only [reduceCtorEq, decide_false, Bool.false_eq_true, if_false]
    rw [h.2.get hf, ok_bind]
    simp [hk]
    rfl
  | numerical =>
    simp only [reduceCtorEq, decide_false, Bool.false_eq_true, if_false]
    rw [h.2.get hf, ok_bind]
    simp [hk]
    rfl

theorem declared_append (calls : List (Nat × Kind)) (c : Nat × Kind) (f : Nat) :
    declared (calls ++ [c]) f = if f = c.1 then c.2 else declared calls f := by
  unfold declared
  simp only [List.reverse_append, List.reverse_cons, List.reverse_nil, List.nil_append, List.singleton_append, List.find?_cons]
  by_cases h : c.1 = f
  · simp [h]
  · simp [h, Ne.symm h]

theorem info_calls {n : Nat} : ∀ (calls : List (Nat × Kind)), (∀ c ∈ calls, c.1 < n) →
    ∃ info, calls.foldlM (fun info c => BitFeatureInfo.set info c.1 c.2) (.create n) = .ok info ∧ InfoRep n info (declared calls) := by
  intro calls
  induction calls using List.reverseRecOn with
  | nil => exact fun _ => ⟨_, rfl, info_create n⟩
  | append_singleton calls c ih =>
    intro h
    obtain ⟨info, h1, h2⟩ := ih (fun c hc => h c (List.mem_append_left _ hc))
    obtain ⟨info', h3, h4⟩ := info_set h2 (h c (by simp)) c.2
    refine ⟨info', ?_, ?_⟩
    · rw [List.foldlM_append, h1, ok_bind, List.foldlM_cons, h3, ok_bind]
      rfl
    · have : declared (calls ++ [c]) = fun g => if g = c.1 then c.2 else declared calls g := funext (declared_append calls c)
      rw [this]
      exact h4

/-! ### Columns -/

theorem mem_denseEntries {column : List FVal} {e : Nat} {v : FVal} : (e, v) ∈ denseEntries column ↔ column[e]? = some v := by
  unfold denseEntries
  rw [List.mem_map]
  constructor
  · rintro ⟨⟨a, i⟩, h, heq⟩
    simp only [Prod.mk.injEq] at heq
    obtain ⟨rfl, rfl⟩ := heq
    simpa [List.mem_zipIdx_iff_getElem?] using h
  · intro h
    exact ⟨(v, e), by simpa [List.mem_zipIdx_iff_getElem?] using h, rfl⟩

theorem mem_present {column : List FVal} {e : Nat} {x : Rat} : (e, x) ∈ present (denseEntries column) ↔ column[e]? = some (some x) := by
  unfold present
  rw [List.mem_filterMap]
  constructor
  · rintro ⟨⟨i, v⟩, h, heq⟩
    cases v with
    | none => simp at heq
    | some y =>
      simp only [Option.map_some, Option.some.injEq, Prod.mk.injEq] at heq
      obtain ⟨rfl, rfl⟩ := heq
      exact mem_denseEntries.1 h
  · intro h
    exact ⟨(e, some x), mem_denseEntries.2 h, rfl⟩

theorem present_nodup (column : List FVal) : ((present (denseEntries column)).map Prod.fst).Nodup := by
  have h := denseEntries_nodup column
  unfold present
  rw [List.map_filterMap]
  refine List.Nodup.of_map id ?_
  rw [List.map_id]
  have : List.filterMap (fun e : Entry => Option.map Prod.fst (e.2.map (fun x => (e.1, x)))) (denseEntries column) =
      ((denseEntries column).filter (fun e => e.2.isSome)).map Prod.fst := by
    generalize denseEntries column = l
    induction l with
    | nil => rfl
    | cons a l ih =>
      obtain ⟨i, v⟩ := a
      cases v with
      | none => simpa using ih
      | some x => simpa using ih
  rw [this]
  exact List.Nodup.sublist (List.Sublist.map _ List.filter_sublist) h

theorem mem_categories {column : List FVal} {e : Nat} {q : Rat} : (e, q) ∈ categories (denseEntries column) ↔
    ∃ x, column[e]? = some (some x) ∧ q = (category x : Rat) := by
  unfold categories
  rw [List.mem_map]
  constructor
  · rintro ⟨⟨i, x⟩, h, heq⟩
    simp only [Prod.mk.injEq] at heq
    obtain ⟨rfl, rfl⟩ := heq
    exact ⟨x, mem_present.1 h, rfl⟩
  · rintro ⟨x, h, rfl⟩
    exact ⟨(e, x), mem_present.2 h, rfl⟩

theorem absent_nil {column : List FVal} (h : none ∉ column) : absent (denseEntries column) = [] := by
  unfold absent
  rw [List.map_eq_nil_iff, List.filter_eq_nil_iff]
  rintro ⟨e, v⟩ he
  have hv := List.mem_of_getElem? (mem_denseEntries.1 he)
  cases v with
  | none => exact absurd hv h
  | some x => simp

theorem get_of_lt {column : List FVal} (h : none ∉ column) {e : Nat} (he : e < column.length) : ∃ x, column[e]? = some (some x) := by
  rw [List.getElem?_eq_getElem he]
  cases hv : column[e] with
  | none => exact absurd (hv ▸ List.getElem_mem he) h
  | some x => exact ⟨x, rfl⟩

theorem numerical_column {isEqual : Rat → Rat → Bool} {column : List FVal} {n : Nat} {nonZero : Nat → Bool} {v : FeatureVector} {x₀ : Rat}
    (hlen : column.length = n) (hp : none ∉ column) (hsign : (∀ x, some x ∈ column → x < x₀) ∨ (∀ x, some x ∈ column → x₀ ≤ x))
    (hv : NumericalCorrect isEqual (denseEntries column) x₀ v) {val : Nat → Option Rat}
    (hval : ∀ e x, column[e]? = some (some x) → val e = some x) (hdense : ∀ es sv sp mi, v = .numerical es sv sp mi → sp = false) :
    ColumnOk n nonZero val v := by
  cases v with
  | equal => exact .equal
  | nominal k b m mi => exact hv.elim
  | numerical entries sv sparse missing =>
    have hsp := hdense _ _ _ _ rfl
    subst hsp
    obtain ⟨h1, h2, h3, h4, remaining, h5, h6⟩ := hv
    rw [absent_nil hp] at h3
    have := h3.eq_nil
    subst this h4
    obtain ⟨h7, _⟩ := h6 rfl
    subst h7
    have h8 : entries.Perm (present (denseEntries column)) := by simpa [numericalExamples] using h5
    have hmem : ∀ p ∈ entries, column[p.1]? = some (some p.2) := fun p hp' => mem_present.1 (h8.subset hp')
    refine .numerical h1 h2 ((h8.map Prod.fst).nodup_iff.2 (present_nodup column)) ?_ (fun p hp' => hval _ _ (hmem p hp')) ?_
    · intro e
      constructor
      · intro he
        obtain ⟨p, hp', rfl⟩ := List.mem_map.1 he
        have := hmem p hp'
        obtain ⟨hlt, _⟩ := List.getElem?_eq_some_iff.1 this
        omega
      · intro he
        obtain ⟨x, hx⟩ := get_of_lt hp (by omega : e < column.length)
        exact List.mem_map.2 ⟨(e, x), h8.symm.subset (mem_present.2 hx), rfl⟩
    · exact hsign.imp (fun h p hp' => h _ (List.mem_of_getElem? (hmem p hp'))) (fun h p hp' => h _ (List.mem_of_getElem? (hmem p hp')))

theorem numericalDense_dense {isEqual : Rat → Rat → Bool} {sort : List (Nat × Rat) → List (Nat × Rat)} {column : List FVal} {v : FeatureVector}
    (h : numericalDense isEqual sort column = .ok v) : ∀ es sv sp mi, v = .numerical es sv sp mi → sp = false := by
  intro es sv sp mi hv
  subst hv
  unfold numericalDense at h
  obtain ⟨r, _, h⟩ := ok_of_bind h
  split at h
  · obtain ⟨same, _, h⟩ := ok_of_bind h
    cases same with
    | true => cases h
    | false => injection h with h; injection h with _ _ h _; exact h.symm
  · cases h

theorem nominal_column {kind : NominalKind} {column : List FVal} {n : Nat} {nonZero : Nat → Bool} {c : Created} {v : FeatureVector}
    (hlen : column.length = n) (hp : none ∉ column) (hc : c.Correct kind (denseEntries column)) (hv : c.decode = .ok v)
    (hk : kind ≠ .binary) (hord : kind = .ordinal → ∀ e < n, nonZero e = true) {val : Nat → Option Rat}
    (hval : ∀ e x, column[e]? = some (some x) → val e = some (category x : Rat)) : ColumnOk n nonZero val v := by
  obtain ⟨v', h1, h2⟩ := hc
  rw [hv] at h1
  injection h1 with h1
  subst h1
  cases v with
  | equal => exact .equal
  | numerical _ _ _ _ => exact h2.elim
  | nominal k bins mv missing =>
    simp only at h2
    obtain ⟨⟨⟨remaining, hex⟩, hmis, hvals, hne⟩, hkind, hsort⟩ := h2
    rw [absent_nil hp] at hmis
    have := hmis.eq_nil
    subst this
    have hnodup : ((nominalExamples bins mv remaining).map Prod.fst).Nodup := by
      refine ((hex.map Prod.fst).nodup_iff).2 ?_
      unfold categories
      rw [List.map_map]
      exact present_nodup column
    have hfst : (nominalExamples bins mv remaining).map Prod.fst = bins.flatMap Prod.snd ++ remaining := by
      unfold nominalExamples
      rw [List.map_append, List.map_flatMap, List.map_map]
      congr 1
      · exact congrArg (fun f => List.flatMap f bins) (funext fun b => by rw [List.map_map]; exact List.map_id _)
      · exact List.map_id _
    rw [hfst] at hnodup
    have hval' : ∀ e q, (e, q) ∈ nominalExamples bins mv remaining → e < n ∧ val e = some q := by
      intro e q hq
      obtain ⟨x, hx, rfl⟩ := mem_categories.1 (hex.subset hq)
      obtain ⟨hlt, _⟩ := List.getElem?_eq_some_iff.1 hx
      exact ⟨by omega, hval _ _ hx⟩
    refine .nominal ?_ hne hvals (List.nodup_append.1 hnodup).1 ?_ ?_ ?_ ?_
    · rintro rfl
      rcases hkind with ⟨_, h⟩ | ⟨_, h⟩ <;> simp at h
    · intro b hb e he
      refine hval' e b.1 ?_
      unfold nominalExamples
      exact List.mem_append_left _ (List.mem_flatMap.2 ⟨b, hb, List.mem_map.2 ⟨e, he, rfl⟩⟩)
    · intro e he hnot
      obtain ⟨x, hx⟩ := get_of_lt hp (by omega : e < column.length)
      have hm := hex.symm.subset (mem_categories.2 ⟨x, hx, rfl⟩)
      have h3 := (hval' _ _ hm).2
      unfold nominalExamples at hm
      rcases List.mem_append.1 hm with h | h
      · obtain ⟨b, hb, h⟩ := List.mem_flatMap.1 h
        obtain ⟨e', he', h⟩ := List.mem_map.1 h
        injection h with h _
        subst h
        exact absurd (List.mem_flatMap.2 ⟨b, hb, he'⟩) hnot
      · obtain ⟨e', he', h⟩ := List.mem_map.1 h
        injection h with _ h
        rw [h3, h]
    · rintro rfl
      rcases hkind with ⟨_, h⟩ | ⟨h, _⟩
      · exact h
      · exact absurd h.symm hk
    · rintro rfl
      rcases hkind with ⟨h, _⟩ | ⟨h, _⟩
      · cases h
      · exact ⟨by simpa [List.pairwise_map] using hsort rfl, hord h.symm⟩

end MLRL.TabularData
