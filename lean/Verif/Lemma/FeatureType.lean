import Verif.Spec.FeatureType
import Verif.Lemma.RuleList
import Mathlib.Data.List.Basic
import Mathlib.Data.List.Induction
import Mathlib.Data.List.Nodup
import Mathlib.Data.List.Perm.Basic
import Mathlib.Algebra.BigOperators.Group.List.Basic

/-!
# Lemmas about the creation of feature vectors
-/

namespace MLRL.FeatureType

open FeatureSpace (FeatureVector NominalKind readRange)

theorem foldlM_rule {σ α : Type} {f : σ → α → Res σ} (P : List α → σ → Prop) (l : List α) (pre : List α) (s : σ) (h0 : P pre s)
    (step : ∀ p a q s, pre ++ l = p ++ a :: q → P p s → ∃ s', f s a = .ok s' ∧ P (p ++ [a]) s') : ∃ s', l.foldlM f s = .ok s' ∧ P (pre ++ l) s' := by
  induction l generalizing pre s with
  | nil => exact ⟨s, rfl, by rwa [List.append_nil]⟩
  | cons a l ih =>
    obtain ⟨s', h1, h2⟩ := step pre a l s rfl h0
    obtain ⟨s'', h3, h4⟩ := ih (pre ++ [a]) s' h2 (fun p b q t h => step p b q t (by rw [← h]; simp))
    refine ⟨s'', ?_, by rw [show pre ++ a :: l = pre ++ [a] ++ l by simp]; exact h4⟩
    rw [List.foldlM_cons, h1, ok_bind]
    exact h3

/-! ### Mappings -/

theorem lookup_assign_self {m : Mapping} {k : Int} {u t : Nat × Nat} (h : m.lookup k = some u) : (m.assign k t).lookup k = some t := by
  induction m with
  | nil => cases h
  | cons e m ih =>
    obtain ⟨j, v⟩ := e
    unfold Mapping.assign
    simp only [List.map_cons]
    by_cases hj : j = k
    · subst hj
      simp
    · rw [if_neg hj]
      have hjk : (k == j) = false := by simpa using fun e => hj e.symm
      simp only [List.lookup_cons, hjk] at h ⊢
      exact ih h

theorem lookup_assign_ne {m : Mapping} {j k : Int} {t : Nat × Nat} (h : j ≠ k) : (m.assign k t).lookup j = m.lookup j := by
  induction m with
  | nil => rfl
  | cons e m ih =>
    obtain ⟨i, v⟩ := e
    unfold Mapping.assign at ih ⊢
    simp only [List.map_cons]
    by_cases hi : i = k
    · subst hi
      have : (j == i) = false := by simpa using h
      rw [if_pos rfl, List.lookup_cons, List.lookup_cons, this]
      exact ih
    · simp only [if_neg hi, List.lookup_cons]
      rw [ih]

theorem keys_assign (m : Mapping) (k : Int) (t : Nat × Nat) : (m.assign k t).keys = m.keys := by
  unfold Mapping.assign Mapping.keys
  rw [List.map_map]
  refine List.map_congr_left (fun e _ => ?_)
  simp only [Function.comp]
  split
  · rename_i h; exact h.symm
  · rfl

theorem lookup_none {m : Mapping} {k : Int} : m.lookup k = none ↔ k ∉ m.keys := by
  induction m with
  | nil => simp [Mapping.keys]
  | cons e m ih =>
    obtain ⟨j, v⟩ := e
    unfold Mapping.keys at ih ⊢
    simp only [List.lookup_cons, List.map_cons, List.mem_cons, not_or]
    by_cases hj : k = j
    · subst hj; simp
    · have : (k == j) = false := by simpa using hj
      simp only [this]
      rw [ih]
      exact ⟨fun h => ⟨hj, h⟩, fun h => h.2⟩

theorem lookup_append_self {m : Mapping} {k : Int} {t : Nat × Nat} (h : m.lookup k = none) : (m ++ [(k, t)]).lookup k = some t := by
  rw [List.lookup_append, h]
  simp

theorem lookup_append_ne {m : Mapping} {j k : Int} {t : Nat × Nat} (h : j ≠ k) : (m ++ [(k, t)]).lookup j = m.lookup j := by
  have : (j == k) = false := by simpa using h
  rw [List.lookup_append]
  simp [List.lookup_cons, this]

theorem at_ok {m : Mapping} {k : Int} {t : Nat × Nat} (h : m.lookup k = some t) : m.at k = .ok t := by
  unfold Mapping.at
  rw [h]

/-! ### Values -/

/-- The nominal values of all entries that are not missing. -/
def vals (l : List Entry) : List Int := l.filterMap (fun e => e.2.map category)

/-- The indices of all entries with a nominal value. -/
def idxs (l : List Entry) (k : Int) : List Nat := (l.filter (fun e => decide (e.2.map category = some k))).map Prod.fst

theorem vals_append (p q : List Entry) : vals (p ++ q) = vals p ++ vals q := List.filterMap_append

theorem vals_none (i : Nat) : vals [((i, none) : Entry)] = [] := rfl

theorem vals_some (i : Nat) (x : Rat) : vals [((i, some x) : Entry)] = [category x] := rfl

theorem idxs_append (p q : List Entry) (k : Int) : idxs (p ++ q) k = idxs p k ++ idxs q k := by
  unfold idxs
  rw [List.filter_append, List.map_append]

theorem idxs_none (i : Nat) (k : Int) : idxs [((i, none) : Entry)] k = [] := by
  simp [idxs]

theorem idxs_some (i : Nat) (x : Rat) (k : Int) : idxs [((i, some x) : Entry)] k = if category x = k then [i] else [] := by
  unfold idxs
  by_cases h : category x = k <;> simp [h]

theorem idxs_length (l : List Entry) (k : Int) : (idxs l k).length = (vals l).count k := by
  induction l with
  | nil => rfl
  | cons e l ih =>
    obtain ⟨i, v⟩ := e
    rw [show ((i, v) :: l : List Entry) = [(i, v)] ++ l from rfl, idxs_append, vals_append, List.length_append, List.count_append, ih]
    cases v with
    | none => rw [idxs_none, vals_none]; rfl
    | some x =>
      rw [idxs_some, vals_some]
      by_cases h : category x = k <;> simp [h]

theorem mem_idxs {l : List Entry} {k : Int} {i : Nat} : i ∈ idxs l k ↔ ∃ x, (i, some x) ∈ l ∧ category x = k := by
  unfold idxs
  simp only [List.mem_map, List.mem_filter, decide_eq_true_eq, Option.map_eq_some_iff]
  constructor
  · rintro ⟨⟨j, v⟩, ⟨h1, x, h2, h3⟩, rfl⟩
    simp only at h2
    subst h2
    exact ⟨x, h1, h3⟩
  · rintro ⟨x, h1, h2⟩
    exact ⟨(i, some x), ⟨h1, x, rfl, h2⟩, rfl⟩

theorem mem_vals {l : List Entry} {k : Int} : k ∈ vals l ↔ ∃ i x, (i, some x) ∈ l ∧ category x = k := by
  unfold vals
  simp only [List.mem_filterMap, Option.map_eq_some_iff]
  constructor
  · rintro ⟨⟨j, v⟩, h1, x, h2, h3⟩
    simp only at h2
    subst h2
    exact ⟨j, x, h1, h3⟩
  · rintro ⟨i, x, h1, h2⟩
    exact ⟨(i, some x), h1, x, rfl, h2⟩

theorem cast_ok {x : Rat} (h : -2 ^ 31 ≤ category x ∧ category x < 2 ^ 31) : castInt32 (some x) = .ok (category x) := by
  unfold castInt32
  simp only
  unfold category at h
  rw [if_pos h]
  rfl

/-- A mapping contains the number of occurrences of each value. -/
structure Counts (m : Mapping) (l : List Int) : Prop where
  nodup : m.keys.Nodup
  mem : ∀ k, k ∈ m.keys ↔ k ∈ l
  count : ∀ k t, m.lookup k = some t → t.2 = l.count k

theorem Counts.lookup {m : Mapping} {l : List Int} (h : Counts m l) {k : Int} (hk : k ∈ l) : ∃ t, m.lookup k = some t ∧ t.2 = l.count k := by
  cases ht : m.lookup k with
  | none => exact absurd ((h.mem k).2 hk) (lookup_none.1 ht)
  | some t => exact ⟨t, rfl, h.count k t ht⟩

theorem createMapping_ok {entries : List Entry} (hr : InRange entries) :
    ∃ c, createMapping entries = .ok c ∧ Counts c.mapping (vals entries) ∧ c.numExamples = (vals entries).length := by
  unfold createMapping
  obtain ⟨c, h1, h2, h3⟩ := foldlM_rule (f := countStep) (fun p (c : Counting) => Counts c.mapping (vals p) ∧ c.numExamples = (vals p).length) entries [] ⟨[], 0, 0⟩
    ⟨⟨by simp [Mapping.keys], by simp [Mapping.keys, vals], by simp⟩, rfl⟩ (by
      rintro p ⟨i, v⟩ q c hpq ⟨g1, g2⟩
      simp only [List.nil_append] at hpq
      rw [vals_append]
      cases v with
      | none =>
        refine ⟨c, rfl, ?_⟩
        rw [vals_none, List.append_nil]
        exact ⟨g1, g2⟩
      | some x =>
        have hx := hr (i, some x) (by rw [hpq]; simp) x rfl
        rw [vals_some]
        unfold countStep
        simp only
        rw [cast_ok hx, ok_bind]
        cases hl : c.mapping.lookup (category x) with
        | none =>
          have hk := lookup_none.1 hl
          refine ⟨_, rfl, ⟨?_, fun k => ?_, fun k t ht => ?_⟩, by simp [g2]⟩
          · have := g1.nodup
            unfold Mapping.keys at this hk ⊢
            simp only [List.map_append, List.map_cons, List.map_nil]
            rw [List.nodup_append]
            exact ⟨this, by simp, by rintro a ha b hb rfl; simp at hb; subst hb; exact hk ha⟩
          · have := g1.mem k
            unfold Mapping.keys at this ⊢
            simp only [List.map_append, List.map_cons, List.map_nil, List.mem_append, this]
          · simp only at ht
            by_cases hkx : k = category x
            · subst hkx
              rw [lookup_append_self hl] at ht
              cases ht
              have : (vals p).count (category x) = 0 := List.count_eq_zero.2 (fun h => hk ((g1.mem _).2 h))
              simp [this]
            · rw [lookup_append_ne hkx] at ht
              rw [List.count_append, g1.count k t ht, List.count_singleton]
              simp only [beq_iff_eq, if_neg (fun e : category x = k => hkx e.symm), Nat.add_zero]
        | some u =>
          have hmem : category x ∈ c.mapping.keys := by
            by_contra h
            rw [lookup_none.2 h] at hl
            cases hl
          refine ⟨_, rfl, ⟨?_, fun k => ?_, fun k t ht => ?_⟩, by simp [g2]⟩
          · simp only
            rw [keys_assign]
            exact g1.nodup
          · simp only
            rw [keys_assign, g1.mem k, List.mem_append, List.mem_singleton]
            refine ⟨Or.inl, ?_⟩
            rintro (h | rfl)
            · exact h
            · exact (g1.mem _).1 hmem
          · simp only at ht
            by_cases hkx : k = category x
            · subst hkx
              rw [lookup_assign_self hl] at ht
              cases ht
              rw [List.count_append, g1.count _ u hl]
              simp
            · rw [lookup_assign_ne hkx] at ht
              rw [List.count_append, g1.count k t ht, List.count_singleton]
              simp only [beq_iff_eq, if_neg (fun e : category x = k => hkx e.symm), Nat.add_zero])
  exact ⟨c, h1, h2, h3⟩

theorem getMajorityValue_ok {order : List Int → List Int} (ho : IsOrder order) {m : Mapping} {l : List Int} (h : Counts m l) (hne : l ≠ []) :
    ∃ v, getMajorityValue order m = .ok v ∧ v ∈ l ∧ ∀ k, l.count k ≤ l.count v := by
  unfold getMajorityValue
  have hp := ho m.keys
  cases hk : order m.keys with
  | nil =>
    rw [hk] at hp
    have := hp.symm.eq_nil
    obtain ⟨x, hx⟩ := List.exists_mem_of_ne_nil l hne
    have := (h.mem x).2 hx
    simp_all
  | cons key keys =>
    rw [hk] at hp
    have hmem : ∀ k, k ∈ key :: keys ↔ k ∈ l := fun k => by rw [hp.mem_iff, h.mem k]
    obtain ⟨t, ht, hc⟩ := h.lookup ((hmem key).1 (by simp))
    simp only
    rw [at_ok ht, ok_bind]
    obtain ⟨r, h1, h2, h3, h4⟩ := foldlM_rule (f := majorityStep m) (fun p (r : Int × Nat) => r.1 ∈ l ∧ r.2 = l.count r.1 ∧ ∀ k ∈ p, l.count k ≤ r.2)
      (key :: keys) [] (key, t.2) ⟨(hmem key).1 (by simp), hc, by simp⟩ (by
        rintro p k q ⟨v, f⟩ hpq ⟨g1, g2, g3⟩
        simp only at g1 g2 g3
        have hkl : k ∈ l := by
          rw [← hmem k]
          simp only [List.nil_append] at hpq
          rw [hpq]
          simp
        obtain ⟨u, hu, hcu⟩ := h.lookup hkl
        unfold majorityStep
        rw [at_ok hu, ok_bind]
        refine ⟨_, rfl, ?_⟩
        simp only
        split
        · refine ⟨hkl, hcu, fun j hj => ?_⟩
          rw [List.mem_append, List.mem_singleton] at hj
          rcases hj with hj | rfl
          · have := g3 j hj
            simp only
            omega
          · simp only
            omega
        · refine ⟨g1, g2, fun j hj => ?_⟩
          rw [List.mem_append, List.mem_singleton] at hj
          rcases hj with hj | rfl
          · exact g3 j hj
          · simp only
            omega)
    rw [h1, ok_bind]
    refine ⟨r.1, rfl, h2, fun k => ?_⟩
    by_cases hkl : k ∈ l
    · rw [← h3]
      exact h4 k (by simpa using (hmem k).2 hkl)
    · rw [List.count_eq_zero.2 hkl]
      omega

theorem getMinorityAndMajorityValue_ok {order : List Int → List Int} (ho : IsOrder order) {m : Mapping} {l : List Int} (h : Counts m l) (hlen : m.length = 2) :
    ∃ a b, getMinorityAndMajorityValue order m = .ok (a, b) ∧ a ≠ b ∧ (∀ k, k ∈ l ↔ k = a ∨ k = b) ∧ l.count a ≤ l.count b := by
  unfold getMinorityAndMajorityValue
  have hp := ho m.keys
  have hl : (order m.keys).length = 2 := by
    rw [hp.length_eq]
    simp [Mapping.keys, hlen]
  have hnd : (order m.keys).Nodup := hp.nodup_iff.2 h.nodup
  obtain ⟨a, b, hk⟩ : ∃ a b, order m.keys = [a, b] := by
    match hx : order m.keys, hl with
    | [a, b], _ => exact ⟨a, b, rfl⟩
  rw [hk] at hp hnd ⊢
  have hmem : ∀ k, k ∈ l ↔ k = a ∨ k = b := fun k => by rw [← h.mem k, ← hp.mem_iff]; simp
  have hab : a ≠ b := by simpa using hnd
  obtain ⟨t, ht, hc⟩ := h.lookup ((hmem a).2 (Or.inl rfl))
  obtain ⟨u, hu, hd⟩ := h.lookup ((hmem b).2 (Or.inr rfl))
  simp only
  rw [at_ok ht, ok_bind, at_ok hu, ok_bind]
  by_cases hgt : t.2 > u.2
  · rw [if_pos hgt]
    exact ⟨b, a, rfl, hab.symm, fun k => by rw [hmem k, or_comm], by omega⟩
  · rw [if_neg hgt]
    exact ⟨a, b, rfl, hab, hmem, by omega⟩

/-! ### Missing values -/

theorem absent_append (p q : List Entry) : absent (p ++ q) = absent p ++ absent q := by
  unfold absent
  rw [List.filter_append, List.map_append]

theorem absent_none (i : Nat) : absent [((i, none) : Entry)] = [i] := rfl

theorem absent_some (i : Nat) (x : Rat) : absent [((i, some x) : Entry)] = [] := rfl

theorem setMissing_absent {p q : List Entry} {i : Nat} (h : ((p ++ (i, none) :: q).map Prod.fst).Nodup) : setMissing (absent p) i = absent (p ++ [(i, none)]) := by
  have hi : i ∉ absent p := by
    intro hi
    unfold absent at hi
    simp only [List.mem_map, List.mem_filter] at hi
    obtain ⟨e, ⟨h1, _⟩, h2⟩ := hi
    rw [List.map_append, List.nodup_append] at h
    exact h.2.2 i (List.mem_map.2 ⟨e, h1, h2⟩) i (by simp) rfl
  unfold setMissing
  rw [if_neg hi, absent_append, absent_none]

/-! ### Bins -/

/-- The number of indices in the first bins. -/
def off (c : Int → Nat) (L : List Int) (i : Nat) : Nat := ((L.take i).map c).sum

theorem off_succ {c : Int → Nat} {L : List Int} {i : Nat} (h : i < L.length) : off c L (i + 1) = off c L i + c L[i] := by
  unfold off
  rw [List.take_add_one, List.getElem?_eq_getElem h, List.map_append, List.sum_append]
  rfl

theorem off_mono {c : Int → Nat} {L : List Int} {i j : Nat} (h : i ≤ j) : off c L i ≤ off c L j := by
  induction h with
  | refl => exact Nat.le_refl _
  | @step j _ ih =>
    simp only [Nat.succ_eq_add_one]
    by_cases hj : j < L.length
    · rw [off_succ hj]; omega
    · have : off c L (j + 1) = off c L j := by
        unfold off
        rw [List.take_of_length_le (by omega), List.take_of_length_le (by omega)]
      omega

theorem off_append {c : Int → Nat} {p q : List Int} {i : Nat} (h : i ≤ p.length) : off c (p ++ q) i = off c p i := by
  unfold off
  rw [List.take_append_of_le_length h]

theorem off_length (c : Int → Nat) (L : List Int) : off c L L.length = (L.map c).sum := by
  unfold off
  rw [List.take_length]

theorem offsets_ok {L l : List Int} {m : Mapping} {v : Compressed} (hm : Counts m l) (hL : L.Nodup) (hsub : ∀ k ∈ L, k ∈ l) (h1 : L.length ≤ v.values.length)
    (h2 : L.length ≤ v.indptr.length) :
    ∃ s, L.foldlM offsetStep ⟨v, m, 0, 0⟩ = .ok s ∧ s.v.indices = v.indices ∧ s.v.majorityValue = v.majorityValue ∧ s.v.values.length = v.values.length ∧
      s.v.indptr.length = v.indptr.length ∧ (∀ (i : Nat) (hi : i < L.length), s.v.values[i]? = some (some L[i])) ∧
      (∀ i < L.length, s.v.indptr[i]? = some (some (off l.count L i))) ∧ (∀ i, L.length ≤ i → s.v.indptr[i]? = v.indptr[i]?) ∧
      (∀ k ∈ L, s.mapping.lookup k = some (L.idxOf k, l.count k)) := by
  obtain ⟨s, g1, g2, g3, g4, g5, g6, g7, g8, g9, -, -, -⟩ := foldlM_rule (f := offsetStep) (fun p (s : Offsets) => s.v.indices = v.indices ∧
      s.v.majorityValue = v.majorityValue ∧ s.v.values.length = v.values.length ∧
      s.v.indptr.length = v.indptr.length ∧ (∀ (i : Nat) (hi : i < p.length), s.v.values[i]? = some (some p[i])) ∧
      (∀ i < p.length, s.v.indptr[i]? = some (some (off l.count p i))) ∧ (∀ i, p.length ≤ i → s.v.indptr[i]? = v.indptr[i]?) ∧
      (∀ k ∈ p, s.mapping.lookup k = some (p.idxOf k, l.count k)) ∧ (∀ k, k ∉ p → s.mapping.lookup k = m.lookup k) ∧ s.n = p.length ∧
      s.offset = (p.map l.count).sum) L [] ⟨v, m, 0, 0⟩ (by simp) (by
      rintro p k q s hpq ⟨k1, k2, k3, k4, k5, k6, k7, k8, k9, k10, k11⟩
      rw [List.nil_append] at hpq
      subst hpq
      have hkp : k ∉ p := by
        rw [List.nodup_append] at hL
        exact fun h => hL.2.2 k h k (by simp) rfl
      have hn : p.length < s.v.values.length := by
        simp only [List.length_append, List.length_cons] at h1
        omega
      have hn' : p.length < s.v.indptr.length := by
        simp only [List.length_append, List.length_cons] at h2
        omega
      obtain ⟨t, ht, hc⟩ := hm.lookup (hsub k (by simp))
      unfold offsetStep
      rw [k10, writeAt_of_lt hn, ok_bind, writeAt_of_lt hn', ok_bind, at_ok ((k9 k hkp).trans ht), ok_bind]
      refine ⟨_, rfl, k1, k2, by simp [k3], by simp [k4], fun i hi => ?_, fun i hi => ?_, fun i hi => ?_, fun j hj => ?_, fun j hj => ?_, by simp, by simp [k11, hc]⟩
      · simp only [List.length_append, List.length_singleton] at hi
        simp only [List.getElem?_set]
        split
        · rename_i e
          subst e
          simp
        · rw [k5 i (by omega), List.getElem_append_left]
      · simp only [List.length_append, List.length_singleton] at hi
        simp only [List.getElem?_set]
        split
        · rename_i e
          subst e
          rw [off_append (by omega), k11, off_length]
        · rw [k6 i (by omega), off_append (by omega)]
      · simp only [List.length_append, List.length_singleton] at hi
        simp only [List.getElem?_set]
        rw [if_neg (by omega), k7 i (by omega)]
      · simp only
        rw [List.mem_append, List.mem_singleton] at hj
        by_cases hjk : j = k
        · subst hjk
          rw [lookup_assign_self ((k9 j hkp).trans ht), List.idxOf_append_of_notMem hkp, hc]
          simp
        · rw [lookup_assign_ne hjk, k8 j (by tauto), List.idxOf_append_of_mem (by tauto)]
      · simp only
        rw [List.mem_append, List.mem_singleton, not_or] at hj
        rw [lookup_assign_ne hj.2, k9 j hj.1])
  exact ⟨s, g1, g2, g3, g4, g5, g6, g7, g8, g9⟩

theorem nominalOffsets_eq (maj : Int) : ∀ (keys : List Int) (s : Offsets),
    keys.foldlM (nominalOffsetStep maj) s = (keys.filter (fun k => decide (k ≠ maj))).foldlM offsetStep s
  | [], _ => rfl
  | k :: keys, s => by
    rw [List.foldlM_cons]
    unfold nominalOffsetStep
    by_cases hk : k ≠ maj
    · rw [if_pos hk, List.filter_cons, if_pos (by simpa using hk), List.foldlM_cons]
      congr 1
      funext s'
      exact nominalOffsets_eq maj keys s'
    · rw [if_neg hk, ok_bind, List.filter_cons, if_neg (by simpa using hk)]
      exact nominalOffsets_eq maj keys s

theorem idxOf_inj {L : List Int} {a b : Int} (ha : a ∈ L) (h : L.idxOf a = L.idxOf b) : a = b := by
  have hl := List.idxOf_lt_length_iff.2 ha
  have e1 := List.getElem_idxOf hl
  have hl' : L.idxOf b < L.length := by omega
  have e2 := List.getElem_idxOf hl'
  simp only [h] at e1
  rw [← e1, e2]

/-- Positions in different bins are different. -/
theorem off_disjoint {c : Int → Nat} {L : List Int} {a b : Int} (ha : a ∈ L) (hb : b ∈ L) (hab : a ≠ b) {i j : Nat} (hi : i < c a) (hj : j < c b) :
    off c L (L.idxOf a) + i ≠ off c L (L.idxOf b) + j := by
  have hla := List.idxOf_lt_length_iff.2 ha
  have hlb := List.idxOf_lt_length_iff.2 hb
  have ea := off_succ (c := c) hla
  have eb := off_succ (c := c) hlb
  rw [List.getElem_idxOf] at ea eb
  rcases Nat.lt_trichotomy (L.idxOf a) (L.idxOf b) with h | h | h
  · have := off_mono (c := c) (L := L) (show L.idxOf a + 1 ≤ L.idxOf b by omega)
    omega
  · exact absurd (idxOf_inj ha h) hab
  · have := off_mono (c := c) (L := L) (show L.idxOf b + 1 ≤ L.idxOf a by omega)
    omega

theorem fill_ok {entries : List Entry} {L : List Int} {maj : Int} {indptr indices : List (Option Nat)} {m : Mapping} (hr : InRange entries)
    (hnd : (entries.map Prod.fst).Nodup) (hlen : entries.length < 2 ^ 32) (hL : ∀ k ∈ vals entries, k ≠ maj → k ∈ L)
    (hp : ∀ i < L.length, indptr[i]? = some (some (off (vals entries).count L i))) (hi : off (vals entries).count L L.length ≤ indices.length)
    (hm : ∀ k ∈ L, m.lookup k = some (L.idxOf k, (vals entries).count k)) :
    ∃ r, entries.foldlM (fillStep indptr maj) ⟨indices, m, []⟩ = .ok r ∧ r.indices.length = indices.length ∧ r.missing = absent entries ∧
      ∀ k ∈ L, k ≠ maj → ∀ j < (vals entries).count k, r.indices[off (vals entries).count L (L.idxOf k) + j]? = (idxs entries k).reverse[j]?.map some := by
  obtain ⟨r, g1, g2, g3, g4, g5⟩ := foldlM_rule (f := fillStep indptr maj) (fun p (r : Filling) => r.indices.length = indices.length ∧ r.missing = absent p ∧
      (∀ k ∈ L, k ≠ maj → ∃ n, n + (vals p).count k = (vals entries).count k ∧ r.mapping.lookup k = some (L.idxOf k, n) ∧
        ∀ j < (vals p).count k, r.indices[off (vals entries).count L (L.idxOf k) + n + j]? = (idxs p k).reverse[j]?.map some) ∧ True)
    entries [] ⟨indices, m, []⟩ ⟨rfl, rfl, fun k hk _ => ⟨_, rfl, hm k hk, by simp [vals]⟩, trivial⟩ (by
      rintro p ⟨i, v⟩ q ⟨ind, mp, mis⟩ hpq ⟨k1, k2, k3, -⟩
      rw [List.nil_append] at hpq
      simp only at k1 k2 k3
      cases v with
      | none =>
        refine ⟨⟨ind, mp, setMissing mis i⟩, rfl, k1, ?_, ?_, trivial⟩
        · simp only
          rw [k2]
          exact setMissing_absent (by rw [← hpq]; exact hnd)
        · rw [vals_append, vals_none, List.append_nil]
          simp only [idxs_append, idxs_none, List.append_nil]
          exact k3
      | some x =>
        have hx := hr (i, some x) (by rw [hpq]; simp) x rfl
        unfold fillStep
        simp only
        rw [cast_ok hx, ok_bind]
        by_cases hmaj : category x = maj
        · simp only [ne_eq, hmaj, not_true_eq_false, decide_false]
          refine ⟨_, rfl, k1, by rw [absent_append, absent_some, List.append_nil]; exact k2, fun k hk hkm => ?_, trivial⟩
          obtain ⟨n, n1, n2, n3⟩ := k3 k hk hkm
          have hne : category x ≠ k := fun e => hkm (e ▸ hmaj)
          rw [vals_append, vals_some, List.count_append, List.count_singleton]
          simp only [beq_iff_eq, hne, if_false, Nat.add_zero, idxs_append, idxs_some, List.append_nil]
          exact ⟨n, n1, n2, n3⟩
        · have hxm : category x ∈ vals entries := by
            rw [hpq, vals_append, List.mem_append]
            right
            exact mem_vals.2 ⟨i, x, by simp, rfl⟩
          have hxL := hL _ hxm hmaj
          obtain ⟨n, n1, n2, n3⟩ := k3 _ hxL hmaj
          have hcount : (vals p).count (category x) + 1 ≤ (vals entries).count (category x) := by
            rw [hpq, show p ++ (i, some x) :: q = p ++ ([(i, some x)] ++ q) by simp, vals_append, vals_append, vals_some, List.count_append, List.count_append]
            simp only [List.count_singleton_self]
            omega
          have hle : (vals entries).count (category x) ≤ entries.length :=
            Nat.le_trans List.count_le_length (List.length_filterMap_le _ _)
          have hlx := List.idxOf_lt_length_iff.2 hxL
          have hsucc := off_succ (c := (vals entries).count) hlx
          rw [List.getElem_idxOf] at hsucc
          have hmono := off_mono (c := (vals entries).count) (L := L) (show L.idxOf (category x) + 1 ≤ L.length by omega)
          have hsub : sub32 n 1 = n - 1 := RuleList.sub32_of_le (by omega) (by omega)
          simp only [ne_eq, hmaj, not_false_eq_true, decide_true]
          rw [at_ok n2, ok_bind, readAt_of_getElem? (hp _ hlx), ok_bind]
          simp only [useInit]
          rw [ok_bind, hsub, writeAt_of_lt (by omega), ok_bind]
          refine ⟨_, rfl, by simp [k1], by simp only; rw [absent_append, absent_some, List.append_nil]; exact k2, fun k hk hkm => ?_, trivial⟩
          simp only
          rw [vals_append, vals_some, List.count_append, List.count_singleton]
          by_cases hkx : category x = k
          · subst hkx
            simp only [BEq.rfl, if_true, idxs_append, idxs_some, List.reverse_append, List.reverse_singleton, List.singleton_append]
            refine ⟨n - 1, by omega, lookup_assign_self n2, fun j hj => ?_⟩
            rw [List.getElem?_set]
            cases j with
            | zero =>
              rw [if_pos (by omega), if_pos (by omega)]
              rfl
            | succ j =>
              rw [if_neg (by omega), show off (vals entries).count L (L.idxOf (category x)) + (n - 1) + (j + 1) =
                off (vals entries).count L (L.idxOf (category x)) + n + j by omega, n3 j (by omega)]
              rfl
          · obtain ⟨n', m1, m2, m3⟩ := k3 k hk hkm
            simp only [beq_iff_eq, hkx, if_false, Nat.add_zero, idxs_append, idxs_some, List.append_nil]
            refine ⟨n', m1, by rw [lookup_assign_ne (fun e => hkx e.symm)]; exact m2, fun j hj => ?_⟩
            have hd := off_disjoint (c := (vals entries).count) hxL hk hkx (i := n - 1) (j := n' + j) (by omega) (by omega)
            rw [List.getElem?_set, if_neg (by omega)]
            exact m3 j hj)
  refine ⟨r, g1, g2, g3, fun k hk hkm j hj => ?_⟩
  obtain ⟨n, n1, n2, n3⟩ := g4 k hk hkm
  rw [List.nil_append] at n1 n3
  obtain rfl : n = 0 := by omega
  exact n3 j hj

theorem mapM_useInit {α : Type} (l : List α) : (l.map some).mapM useInit = .ok l := by
  induction l with
  | nil => rfl
  | cons x l ih =>
    rw [List.map_cons, List.mapM_cons]
    simp only [useInit]
    rw [ok_bind, ih]
    rfl

theorem bin_ok {v : Compressed} {i start stop : Nat} {k : Int} {l : List Nat} (h1 : v.values[i]? = some (some k)) (h2 : v.indptr[i]? = some (some start))
    (h3 : v.indptr[i + 1]? = some (some stop)) (h4 : stop = start + l.length) (h5 : stop ≤ v.indices.length)
    (h6 : ∀ j < l.length, v.indices[start + j]? = l[j]?.map some) : v.bin i = .ok (k, l) := by
  unfold Compressed.bin
  have hrange : readRange v.indices start stop = .ok (l.map some) := by
    unfold readRange
    split
    · congr 1
      refine List.ext_getElem? (fun j => ?_)
      rw [List.getElem?_take, List.getElem?_map]
      split
      · rw [List.getElem?_drop]
        exact h6 j (by omega)
      · rw [List.getElem?_eq_none (by omega)]
        rfl
    · have : l = [] := List.length_eq_zero_iff.1 (by omega)
      subst this
      rfl
  rw [readAt_of_getElem? h1, ok_bind]
  simp only [useInit]
  rw [ok_bind, readAt_of_getElem? h2, ok_bind, ok_bind, readAt_of_getElem? h3, ok_bind, ok_bind, hrange, ok_bind, mapM_useInit]
  rfl

theorem mapM_range {α : Type} {f : Nat → Res α} {l : List α} (h : ∀ (i : Nat) (hi : i < l.length), f i = .ok l[i]) : (List.range l.length).mapM f = .ok l := by
  induction l using List.reverseRecOn with
  | nil => rfl
  | append_singleton l x ih =>
    rw [List.length_append, List.length_singleton, List.range_succ, List.mapM_append, ih (fun i hi => by
      have := h i (by simp; omega)
      rw [List.getElem_append_left hi] at this
      exact this), ok_bind, List.mapM_cons, h l.length (by simp), ok_bind]
    simp [pure_eq_ok, ok_bind]

/-- The bins that result from assigning the entries to values. -/
def binsOf (entries : List Entry) (L : List Int) : List (Int × List Nat) := L.map (fun k => (k, (idxs entries k).reverse))

theorem fill_decode {entries : List Entry} {L : List Int} {s : Offsets} (hr : InRange entries)
    (hnd : (entries.map Prod.fst).Nodup) (hlen : entries.length < 2 ^ 32) (hmaj : s.v.majorityValue ∉ L)
    (hL : ∀ k ∈ vals entries, k ≠ s.v.majorityValue → k ∈ L) (hv : s.v.values.length = L.length)
    (hval : ∀ (i : Nat) (hi : i < L.length), s.v.values[i]? = some (some L[i]))
    (hp : ∀ i < L.length + 1, s.v.indptr[i]? = some (some (off (vals entries).count L i))) (hi : off (vals entries).count L L.length ≤ s.v.indices.length)
    (hm : ∀ k ∈ L, s.mapping.lookup k = some (L.idxOf k, (vals entries).count k)) (hLnd : L.Nodup) (kind : NominalKind) :
    ∃ v missing, fill entries s = .ok (v, missing) ∧
      (Created.nominal kind v missing).decode = .ok (.nominal kind (binsOf entries L) s.v.majorityValue (absent entries)) := by
  obtain ⟨r, g1, g2, g3, g4⟩ := fill_ok hr hnd hlen hL (fun i hi => hp i (by omega)) hi hm
  refine ⟨_, _, by unfold fill; rw [g1, ok_bind]; rfl, ?_⟩
  unfold Created.decode
  simp only
  have hb : (binsOf entries L).length = s.v.values.length := by
    simp [binsOf, hv]
  rw [← hb, mapM_range (l := binsOf entries L) (fun i hi => ?_), ok_bind, g3]
  · rfl
  · have hi' : i < L.length := by omega
    have hk : L[i] ∈ L := List.getElem_mem hi'
    have hbi : (binsOf entries L).get ⟨i, hi⟩ = (L[i], (idxs entries L[i]).reverse) := by
      simp [binsOf]
    have hidx : L.idxOf L[i] = i := hLnd.idxOf_getElem i hi'
    have hle := off_mono (c := (vals entries).count) (L := L) (show i + 1 ≤ L.length by omega)
    have hg := g4 L[i] hk (fun e => hmaj (e ▸ hk))
    rw [hidx] at hg
    refine bin_ok (start := off (vals entries).count L i) (stop := off (vals entries).count L (i + 1)) ?_ (hp i (by omega)) (hp (i + 1) (by omega)) ?_ ?_ ?_
    · rw [hbi]
      exact hval i hi'
    · rw [off_succ hi', hbi]
      simp [idxs_length]
    · simp only
      omega
    · intro j hj
      rw [hbi] at hj ⊢
      simp only [List.length_reverse, idxs_length] at hj ⊢
      exact hg j hj

end MLRL.FeatureType
