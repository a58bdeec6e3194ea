import Verif.Lemma.FeatureType
import Mathlib.Data.List.Count

/-!
# Lemmas about the creation of feature vectors: vectors represent columns
-/

namespace MLRL.FeatureType

open FeatureSpace (FeatureVector NominalKind readRange)
open Search (nominalExamples numericalExamples)

theorem sum_indicator (a : Int) (L : List Int) : (L.map (fun k => if a = k then 1 else 0)).sum = L.count a := by
  induction L with
  | nil => rfl
  | cons k L ih =>
    rw [List.map_cons, List.sum_cons, ih, List.count_cons]
    by_cases h : a = k
    · subst h
      simp
      omega
    · simp [h]
      exact fun e => h e.symm

/-- Each value is either the majority value or in the list. -/
theorem sum_count {L : List Int} {maj : Int} (hnd : L.Nodup) (hmaj : maj ∉ L) : ∀ l : List Int, (∀ k ∈ l, k ≠ maj → k ∈ L) →
    (L.map l.count).sum + l.count maj = l.length
  | [], _ => by
    have : ∀ L : List Int, (L.map (fun _ => 0)).sum = 0 := fun L => by
      induction L with
      | nil => rfl
      | cons a L ih => simp
    simp only [List.count_nil, List.length_nil, Nat.add_zero]
    exact this L
  | a :: l, h => by
    have ih := sum_count hnd hmaj l (fun k hk => h k (List.mem_cons_of_mem _ hk))
    have e1 : (L.map (a :: l).count).sum = (L.map l.count).sum + L.count a := by
      rw [← sum_indicator]
      clear ih hnd hmaj h
      induction L with
      | nil => rfl
      | cons k L ih =>
        rw [List.map_cons, List.map_cons, List.map_cons, List.sum_cons, List.sum_cons, List.sum_cons, ih, List.count_cons]
        simp only [beq_iff_eq]
        omega
    rw [e1, List.count_cons, List.length_cons]
    by_cases ha : a = maj
    · subst ha
      rw [List.count_eq_zero_of_not_mem hmaj]
      simp
      omega
    · rw [List.count_eq_one_of_mem hnd (h a (by simp) ha)]
      simp [ha]
      omega

/-- The values other than the majority value, in the order in which the mapping is iterated. -/
def rest (order : List Int → List Int) (m : Mapping) (maj : Int) : List Int := (order m.keys).filter (fun k => decide (k ≠ maj))

theorem rest_spec {order : List Int → List Int} (ho : IsOrder order) {m : Mapping} {l : List Int} (h : Counts m l) (maj : Int) :
    (rest order m maj).Nodup ∧ (∀ k, k ∈ rest order m maj ↔ k ∈ l ∧ k ≠ maj) ∧
      (rest order m maj).length = if maj ∈ l then m.length - 1 else m.length := by
  have hp := ho m.keys
  have hnd : (order m.keys).Nodup := hp.nodup_iff.2 h.nodup
  refine ⟨hnd.filter _, fun k => ?_, ?_⟩
  · unfold rest
    rw [List.mem_filter, hp.mem_iff, h.mem]
    simp
  · have hlen : m.keys.length = m.length := by simp [Mapping.keys]
    have hsub : (rest order m maj) = (order m.keys).erase maj := by
      rw [hnd.erase_eq_filter]
      unfold rest
      congr 1
      funext k
      simp [bne, BEq.beq]
    rw [hsub]
    split
    · rename_i hm
      rw [List.length_erase_of_mem (hp.mem_iff.2 ((h.mem _).2 hm)), hp.length_eq, hlen]
    · rename_i hm
      rw [List.erase_of_not_mem (fun hc => hm ((h.mem _).1 (hp.mem_iff.1 hc))), hp.length_eq, hlen]

theorem allocate_ok (n k : Nat) (maj : Int) : ∃ indptr, Compressed.allocate n k maj = .ok ⟨List.replicate n none, List.replicate k none, indptr, maj⟩ ∧
    indptr.length = n + 1 ∧ indptr[n]? = some (some k) ∧ (0 < n → indptr[0]? = some (some 0)) := by
  unfold Compressed.allocate
  rw [writeAt_of_lt (by simp), ok_bind, writeAt_of_lt (by simp), ok_bind]
  refine ⟨_, rfl, by simp, by simp, fun h => ?_⟩
  rw [List.getElem?_set_ne (by omega)]
  simp

theorem offsets_fill {entries : List Entry} {L : List Int} {m : Mapping} {maj : Int} (hr : InRange entries) (hnd : (entries.map Prod.fst).Nodup)
    (hlen : entries.length < 2 ^ 32) (hm : Counts m (vals entries)) (hL : L.Nodup) (hmem : ∀ k, k ∈ L ↔ k ∈ vals entries ∧ k ≠ maj) (kind : NominalKind) :
    ∃ v0 s v missing, Compressed.allocate L.length (L.map (vals entries).count).sum maj = .ok v0 ∧ L.foldlM offsetStep ⟨v0, m, 0, 0⟩ = .ok s ∧
      fill entries s = .ok (v, missing) ∧ (Created.nominal kind v missing).decode = .ok (.nominal kind (binsOf entries L) maj (absent entries)) := by
  obtain ⟨indptr, ha, h1, h2, -⟩ := allocate_ok L.length (L.map (vals entries).count).sum maj
  obtain ⟨s, g1, g2, g3, g4, g5, g6, g7, g8, g9⟩ := offsets_ok (v := ⟨List.replicate L.length none, List.replicate (L.map (vals entries).count).sum none, indptr, maj⟩)
    hm hL (fun k hk => ((hmem k).1 hk).1) (by simp) (by simp [h1])
  simp only at g2 g3 g4 g5 g8
  obtain ⟨v, missing, k1, k2⟩ := fill_decode (s := s) hr hnd hlen (by rw [g3]; exact fun h => ((hmem _).1 h).2 rfl)
    (fun k hk hne => (hmem k).2 ⟨hk, by rwa [g3] at hne⟩) (by simp [g4]) g6 (fun i hi => by
      by_cases h : i < L.length
      · exact g7 i h
      · obtain rfl : i = L.length := by omega
        rw [g8 _ (Nat.le_refl _), h2, off_length]) (by rw [off_length, g2]; simp) g9 hL kind
  exact ⟨_, s, v, missing, ha, g1, k1, by rw [k2, g3]⟩

theorem createNominal_ok {order : List Int → List Int} (ho : IsOrder order) {entries : List Entry} {m : Mapping} {maj : Int} (hr : InRange entries)
    (hnd : (entries.map Prod.fst).Nodup) (hlen : entries.length < 2 ^ 32) (hm : Counts m (vals entries)) :
    ∃ v missing, createNominal order entries m (rest order m maj).length ((vals entries).length - (vals entries).count maj) maj = .ok (v, missing) ∧
      (Created.nominal .nominal v missing).decode = .ok (.nominal .nominal (binsOf entries (rest order m maj)) maj (absent entries)) := by
  obtain ⟨r1, r2, -⟩ := rest_spec ho hm maj
  have hs := sum_count r1 (fun h => ((r2 _).1 h).2 rfl) (vals entries) (fun k hk hne => (r2 k).2 ⟨hk, hne⟩)
  obtain ⟨v0, s, v, missing, h1, h2, h3, h4⟩ := offsets_fill hr hnd hlen hm r1 r2 .nominal
  refine ⟨v, missing, ?_, h4⟩
  unfold createNominal
  rw [show (vals entries).length - (vals entries).count maj = ((rest order m maj).map (vals entries).count).sum by omega, h1, ok_bind, nominalOffsets_eq]
  rw [show ((order m.keys).filter (fun k => decide (k ≠ maj))) = rest order m maj from rfl, h2, ok_bind, h3]

theorem collect_ok (maj : Int) : ∀ (keys : List Int) (p : List Int),
    keys.foldlM (collectStep maj) ((p.map some ++ List.replicate (keys.filter (fun k => decide (k ≠ maj))).length none, p.length) : List (Option Int) × Nat) =
      .ok ((p ++ keys.filter (fun k => decide (k ≠ maj))).map some, p.length + (keys.filter (fun k => decide (k ≠ maj))).length)
  | [], p => by simp [pure_eq_ok]
  | k :: keys, p => by
    rw [List.foldlM_cons]
    rw [show ∀ s, collectStep maj s k = (match decide (k ≠ maj) with
      | true => do
        let values ← writeAt s.1 s.2 (some k)
        return (values, s.2 + 1)
      | false => .ok s) from fun _ => rfl]
    by_cases hk : k = maj
    · subst hk
      have := collect_ok k keys p
      simp only [ne_eq, not_true_eq_false, decide_false, List.filter_cons, Bool.false_eq_true, if_false] at this ⊢
      rw [ok_bind]
      exact this
    · have := collect_ok maj keys (p ++ [k])
      simp only [ne_eq, hk, not_false_eq_true, decide_true, List.filter_cons, if_true, List.length_cons] at this ⊢
      rw [writeAt_of_lt (by simp), ok_bind, pure_eq_ok, ok_bind]
      have e : (p.map some ++ List.replicate ((keys.filter (fun k => decide (¬ k = maj))).length + 1) none).set p.length (some k) =
          (p ++ [k]).map some ++ List.replicate (keys.filter (fun k => decide (¬ k = maj))).length none := by
        rw [List.set_append_right _ _ (by simp)]
        simp [List.replicate_succ]
      rw [e]
      simp only [List.length_append, List.length_singleton] at this
      rw [this]
      simp only [List.append_assoc, List.singleton_append]
      congr 2
      omega

theorem createOrdinal_ok {order sort : List Int → List Int} (ho : IsOrder order) (hsort : IsSort sort) {entries : List Entry} {m : Mapping} {maj : Int}
    (hr : InRange entries) (hnd : (entries.map Prod.fst).Nodup) (hlen : entries.length < 2 ^ 32) (hm : Counts m (vals entries)) :
    ∃ v missing, createOrdinal order sort entries m (rest order m maj).length ((vals entries).length - (vals entries).count maj) maj = .ok (v, missing) ∧
      (Created.nominal .ordinal v missing).decode = .ok (.nominal .ordinal (binsOf entries (sort (rest order m maj))) maj (absent entries)) := by
  obtain ⟨r1, r2, -⟩ := rest_spec ho hm maj
  obtain ⟨hp, -⟩ := hsort (rest order m maj)
  have q1 : (sort (rest order m maj)).Nodup := hp.nodup_iff.2 r1
  have q2 : ∀ k, k ∈ sort (rest order m maj) ↔ k ∈ vals entries ∧ k ≠ maj := fun k => hp.mem_iff.trans (r2 k)
  have hs := sum_count q1 (fun h => ((q2 _).1 h).2 rfl) (vals entries) (fun k hk hne => (q2 k).2 ⟨hk, hne⟩)
  obtain ⟨v0, s, v, missing, h1, h2, h3, h4⟩ := offsets_fill hr hnd hlen hm q1 q2 .ordinal
  refine ⟨v, missing, ?_, h4⟩
  unfold createOrdinal
  have hc := collect_ok maj (order m.keys) []
  simp only [List.map_nil, List.nil_append, List.length_nil] at hc
  rw [show ((order m.keys).filter (fun k => decide (k ≠ maj))) = rest order m maj from rfl] at hc
  rw [hc, ok_bind, mapM_useInit, ok_bind, ← hp.length_eq,
    show (vals entries).length - (vals entries).count maj = ((sort (rest order m maj)).map (vals entries).count).sum by omega, h1, ok_bind, h2, ok_bind, h3]

theorem createBinaryInternally_ok {entries : List Entry} {m : Mapping} {a b : Int} (hr : InRange entries) (hnd : (entries.map Prod.fst).Nodup)
    (hm : Counts m (vals entries)) (ha : a ∈ vals entries) :
    ∃ v missing, createBinaryInternally entries m a b = .ok (v, missing) ∧
      (Created.nominal .binary v missing).decode = .ok (.nominal .binary [(a, idxs entries a)] b (absent entries)) := by
  obtain ⟨t, ht, hc⟩ := hm.lookup ha
  obtain ⟨indptr, h0, h1, h2, h3⟩ := allocate_ok 1 t.2 b
  have hi := idxs_length entries a
  obtain ⟨r, g1, g2, g3, g4⟩ := foldlM_rule (f := binaryStep a) (fun p (r : BinaryState) =>
      r.indices = (idxs p a).map some ++ List.replicate (t.2 - (idxs p a).length) none ∧ r.n = (idxs p a).length ∧ r.missing = absent p)
    entries [] ⟨List.replicate t.2 none, 0, []⟩ ⟨by simp [idxs], rfl, rfl⟩ (by
      rintro p ⟨i, v⟩ q ⟨ind, n, mis⟩ hpq ⟨k1, k2, k3⟩
      rw [List.nil_append] at hpq
      simp only at k1 k2 k3
      cases v with
      | none =>
        refine ⟨⟨ind, n, setMissing mis i⟩, rfl, ?_, ?_, ?_⟩
        · simp only [idxs_append, idxs_none, List.append_nil]
          exact k1
        · simp only [idxs_append, idxs_none, List.append_nil]
          exact k2
        · simp only
          rw [k3]
          exact setMissing_absent (by rw [← hpq]; exact hnd)
      | some x =>
        have hx := hr (i, some x) (by rw [hpq]; simp) x rfl
        unfold binaryStep
        simp only
        rw [cast_ok hx, ok_bind]
        by_cases he : category x = a
        · simp only [he, decide_true]
          have hle : (idxs p a).length + 1 ≤ t.2 := by
            rw [hc, ← hi, hpq, show p ++ (i, some x) :: q = p ++ ([(i, some x)] ++ q) by simp, idxs_append, idxs_append, idxs_some, if_pos he]
            simp
          rw [writeAt_of_lt (by rw [k1, k2]; simp; omega), ok_bind]
          refine ⟨_, rfl, ?_, ?_, ?_⟩
          · simp only [idxs_append, idxs_some, if_pos he, k1, k2, List.length_append, List.length_singleton]
            rw [List.set_append_right _ _ (by simp)]
            rw [show t.2 - (idxs p a).length = (t.2 - ((idxs p a).length + 1)) + 1 by omega]
            simp [List.replicate_succ]
          · simp [idxs_append, idxs_some, if_pos he, k2]
          · simp only
            rw [absent_append, absent_some, List.append_nil]
            exact k3
        · simp only [he, decide_false]
          refine ⟨_, rfl, ?_, ?_, ?_⟩
          · simp only [idxs_append, idxs_some, if_neg he, List.append_nil]
            exact k1
          · simp only [idxs_append, idxs_some, if_neg he, List.append_nil]
            exact k2
          · simp only
            rw [absent_append, absent_some, List.append_nil]
            exact k3)
  rw [List.nil_append] at g2 g4
  refine ⟨_, _, by
    unfold createBinaryInternally
    rw [at_ok ht, ok_bind, h0, ok_bind, writeAt_of_lt (by simp), ok_bind, g1, ok_bind]
    rfl, ?_⟩
  have hind : r.indices = (idxs entries a).map some := by
    rw [g2, hi, ← hc]
    simp
  unfold Created.decode
  simp only [hind, g4, List.length_set, List.length_replicate]
  rw [show (1 : Nat) = [(a, idxs entries a)].length from rfl, mapM_range (l := [(a, idxs entries a)]) (fun i hi' => ?_), ok_bind]
  · rfl
  · obtain rfl : i = 0 := by simpa using hi'
    refine bin_ok (start := 0) (stop := t.2) (by simp) (h3 (by omega)) h2 (by simp [hi, hc]) (by simp [hi, hc]) (fun j hj => ?_)
    simp

/-! ### Columns -/

theorem mem_categories {column : List Entry} {i : Nat} {q : Rat} : (i, q) ∈ categories column ↔ ∃ k : Int, i ∈ idxs column k ∧ (k : Rat) = q := by
  unfold categories present
  simp only [List.mem_map, List.mem_filterMap, Option.map_eq_some_iff, Prod.mk.injEq, mem_idxs]
  constructor
  · rintro ⟨⟨j, x⟩, ⟨⟨l, v⟩, h1, y, hy, h2⟩, h4, h5⟩
    simp only at hy
    subst hy
    cases h2
    simp only at h4 h5
    subst h4
    exact ⟨_, ⟨x, h1, rfl⟩, h5⟩
  · rintro ⟨k, ⟨x, h1, rfl⟩, rfl⟩
    exact ⟨(i, x), ⟨(i, some x), h1, x, rfl, rfl⟩, rfl, rfl⟩

theorem present_fst_sublist (column : List Entry) : ((present column).map Prod.fst).Sublist (column.map Prod.fst) := by
  unfold present
  induction column with
  | nil => exact List.Sublist.refl _
  | cons e l ih =>
    obtain ⟨i, v⟩ := e
    cases v with
    | none =>
      simp only [List.filterMap_cons, Option.map_none, List.map_cons]
      exact ih.cons _
    | some x =>
      simp only [List.filterMap_cons, Option.map_some, List.map_cons]
      exact ih.cons_cons _

theorem categories_nodup {column : List Entry} (h : (column.map Prod.fst).Nodup) : (categories column).Nodup := by
  refine List.Nodup.of_map Prod.fst ?_
  unfold categories
  rw [List.map_map]
  exact h.sublist (present_fst_sublist column)

theorem idxs_nodup {column : List Entry} (h : (column.map Prod.fst).Nodup) (k : Int) : (idxs column k).Nodup := by
  unfold idxs
  exact h.sublist (List.filter_sublist.map _)

/-- An example has at most one value. -/
theorem idxs_disjoint {column : List Entry} (h : (column.map Prod.fst).Nodup) {i : Nat} {a b : Int} (ha : i ∈ idxs column a) (hb : i ∈ idxs column b) : a = b := by
  obtain ⟨x, hx, rfl⟩ := mem_idxs.1 ha
  obtain ⟨y, hy, rfl⟩ := mem_idxs.1 hb
  have := List.inj_on_of_nodup_map h hx hy rfl
  simp only [Prod.mk.injEq, Option.some.injEq, true_and] at this
  rw [this]

/-- The entries of a column, from which a vector is created, and the column itself agree on all values but the majority value. -/
structure Agree (entries column : List Entry) (maj : Int) : Prop where
  nodup : (column.map Prod.fst).Nodup
  value : ∀ i k, k ≠ maj → (i ∈ idxs entries k ↔ i ∈ idxs column k)
  missing : (absent entries).Perm (absent column)

theorem represents_of {entries column : List Entry} {maj : Int} {L : List Int} {f : Int → List Nat} (h : Agree entries column maj)
    (hnd : (entries.map Prod.fst).Nodup) (hL : L.Nodup) (hmem : ∀ k, k ∈ L ↔ k ∈ vals entries ∧ k ≠ maj) (hf : ∀ k, (f k).Perm (idxs entries k)) :
    Represents column (L.map (fun k => (k, f k))) maj (absent entries) := by
  have hne : maj ∉ L := fun hc => ((hmem _).1 hc).2 rfl
  refine ⟨⟨idxs column maj, (List.perm_ext_iff_of_nodup ?_ (categories_nodup h.nodup)).2 ?_⟩, h.missing, ?_, ?_⟩
  · unfold nominalExamples
    rw [List.nodup_append]
    refine ⟨?_, ?_, ?_⟩
    · rw [List.flatMap_map, List.nodup_flatMap]
      refine ⟨fun k _ => ?_, ?_⟩
      · exact ((hf k).nodup_iff.2 (idxs_nodup hnd k)).map (fun a b e => by simpa using e)
      · refine hL.imp (fun {a b} hab => ?_)
        intro e he he'
        simp only [List.mem_map] at he he'
        obtain ⟨i, -, rfl⟩ := he
        obtain ⟨j, -, e⟩ := he'
        simp only [Prod.mk.injEq, Rat.intCast_inj] at e
        exact hab e.2.symm
    · exact (idxs_nodup h.nodup maj).map (fun a b e => by simpa using e)
    · intro a ha b hb e
      subst e
      simp only [List.mem_flatMap, List.mem_map] at ha hb
      obtain ⟨-, ⟨k, hk, rfl⟩, i, -, rfl⟩ := ha
      obtain ⟨j, -, e⟩ := hb
      simp only [Prod.mk.injEq, Rat.intCast_inj] at e
      exact hne (e.2 ▸ hk)
  · rintro ⟨i, q⟩
    rw [mem_categories]
    unfold nominalExamples
    simp only [List.mem_append, List.mem_flatMap, List.mem_map, Prod.mk.injEq]
    constructor
    · rintro (⟨-, ⟨k, hk, rfl⟩, j, hj, rfl, rfl⟩ | ⟨j, hj, rfl, rfl⟩)
      · exact ⟨k, (h.value _ _ ((hmem k).1 hk).2).1 ((hf k).mem_iff.1 hj), rfl⟩
      · exact ⟨maj, hj, rfl⟩
    · rintro ⟨k, hk, rfl⟩
      by_cases hkm : k = maj
      · subst hkm
        exact Or.inr ⟨i, hk, rfl, rfl⟩
      · have hi := (h.value _ _ hkm).2 hk
        obtain ⟨x, hx, hxk⟩ := mem_idxs.1 hi
        exact Or.inl ⟨_, ⟨k, (hmem k).2 ⟨mem_vals.2 ⟨i, x, hx, hxk⟩, hkm⟩, rfl⟩, i, (hf k).mem_iff.2 hi, rfl, rfl⟩
  · rw [List.nodup_cons, List.map_map]
    exact ⟨by simpa [Function.comp_def] using hne, by simpa [Function.comp_def] using hL⟩
  · intro b hb
    rw [List.mem_map] at hb
    obtain ⟨k, hk, rfl⟩ := hb
    obtain ⟨i, x, hx, hxk⟩ := mem_vals.1 ((hmem k).1 hk).1
    have : i ∈ f k := (hf k).mem_iff.2 (mem_idxs.2 ⟨x, hx, hxk⟩)
    exact List.ne_nil_of_mem this

theorem binsOf_represents {entries column : List Entry} {maj : Int} {L : List Int} (h : Agree entries column maj)
    (hnd : (entries.map Prod.fst).Nodup) (hL : L.Nodup) (hmem : ∀ k, k ∈ L ↔ k ∈ vals entries ∧ k ≠ maj) :
    Represents column (binsOf entries L) maj (absent entries) :=
  represents_of (f := fun k => (idxs entries k).reverse) h hnd hL hmem (fun _ => List.reverse_perm _)

theorem binary_represents {entries column : List Entry} {a b : Int} (h : Agree entries column b) (hnd : (entries.map Prod.fst).Nodup) (hab : a ≠ b)
    (hmem : ∀ k, k = a ↔ k ∈ vals entries ∧ k ≠ b) : Represents column [(a, idxs entries a)] b (absent entries) :=
  represents_of (L := [a]) (f := fun k => idxs entries k) h hnd (by simp) (fun k => by rw [List.mem_singleton]; exact hmem k) (fun _ => List.Perm.refl _)

/-! ### Columns without values that are not stored -/

theorem agree_self {entries : List Entry} (hnd : (entries.map Prod.fst).Nodup) (maj : Int) : Agree entries entries maj :=
  ⟨hnd, fun _ _ _ => Iff.rfl, List.Perm.refl _⟩

theorem categories_snd (column : List Entry) : (categories column).map Prod.snd = (vals column).map (fun k : Int => (k : Rat)) := by
  unfold categories present vals
  induction column with
  | nil => rfl
  | cons e l ih =>
    obtain ⟨i, v⟩ := e
    cases v with
    | none => simpa using ih
    | some x => simpa using ih

theorem mostFrequent_of {column : List Entry} {maj : Int} (h : ∀ k, (vals column).count k ≤ (vals column).count maj) : MostFrequent column maj := by
  have hinj : Function.Injective (fun k : Int => (k : Rat)) := fun a b e => by simpa using e
  intro k
  rw [categories_snd]
  rw [List.count_map_of_injective _ _ hinj]
  by_cases hk : k ∈ (vals column).map (fun k : Int => (k : Rat))
  · obtain ⟨j, -, rfl⟩ := List.mem_map.1 hk
    rw [List.count_map_of_injective _ _ hinj]
    exact h j
  · rw [List.count_eq_zero_of_not_mem hk]
    exact Nat.zero_le _

theorem equal_of {column : List Entry} (h : ∀ a ∈ vals column, ∀ b ∈ vals column, a = b) : ∀ a ∈ categories column, ∀ b ∈ categories column, a.2 = b.2 := by
  intro a ha b hb
  have ha' : a.2 ∈ (categories column).map Prod.snd := List.mem_map_of_mem ha
  have hb' : b.2 ∈ (categories column).map Prod.snd := List.mem_map_of_mem hb
  rw [categories_snd, List.mem_map] at ha' hb'
  obtain ⟨j, hj, ej⟩ := ha'
  obtain ⟨k, hk, ek⟩ := hb'
  rw [← ej, ← ek, h j hj k hk]

theorem Counts.length_le {m : Mapping} {l : List Int} (h : Counts m l) : m.length ≤ l.length := by
  have : m.keys.length ≤ l.length := (List.subperm_of_subset h.nodup (fun k hk => (h.mem k).1 hk)).length_le
  simpa [Mapping.keys] using this

theorem vals_length_le (l : List Entry) : (vals l).length ≤ l.length := List.length_filterMap_le _ _

theorem Counts.all_eq {m : Mapping} {l : List Int} (h : Counts m l) (hlen : m.length ≤ 1) : ∀ a ∈ l, ∀ b ∈ l, a = b := by
  intro a ha b hb
  have ha' := (h.mem a).2 ha
  have hb' := (h.mem b).2 hb
  unfold Mapping.keys at ha' hb'
  match m, hlen, ha', hb' with
  | [], _, ha', _ => simp at ha'
  | [e], _, ha', hb' =>
    simp only [List.map_cons, List.map_nil, List.mem_singleton] at ha' hb'
    rw [ha', hb']

theorem selectMajority_ok {order : List Int → List Int} (ho : IsOrder order) {m : Mapping} {l : List Int} (hm : Counts m l) (hne : l ≠ []) (sv : Int) :
    ∃ maj, selectMajority order m false sv = .ok (maj, l.count maj) ∧ maj ∈ l ∧ ∀ k, l.count k ≤ l.count maj := by
  obtain ⟨v, h1, h2, h3⟩ := getMajorityValue_ok ho hm hne
  obtain ⟨t, ht, hc⟩ := hm.lookup h2
  refine ⟨v, ?_, h2, h3⟩
  unfold selectMajority
  rw [if_neg (by simp), h1, ok_bind, at_ok ht, ok_bind, hc]
  rfl

theorem binary_dense {order : List Int → List Int} (ho : IsOrder order) {entries : List Entry} {m : Mapping} (hr : InRange entries)
    (hnd : (entries.map Prod.fst).Nodup) (hm : Counts m (vals entries)) (hlen : m.length = 2) (kind : NominalKind) (sv : Int) :
    ∃ v missing, createBinary order entries m false sv = .ok (v, missing) ∧ (Created.nominal .binary v missing).Correct kind entries ∧
      (Created.nominal .binary v missing).Frequent entries := by
  obtain ⟨a, b, h1, h2, h3, h4⟩ := getMinorityAndMajorityValue_ok ho hm hlen
  obtain ⟨v, missing, h5, h6⟩ := createBinaryInternally_ok (b := b) hr hnd hm ((h3 a).2 (Or.inl rfl))
  refine ⟨v, missing, ?_, ⟨_, h6, ?_, Or.inl ⟨rfl, rfl⟩, fun h => by simp at h⟩, ?_⟩
  · unfold createBinary
    rw [if_neg (by simp), h1, ok_bind]
    exact h5
  · refine binary_represents (agree_self hnd b) hnd h2 (fun k => ?_)
    rw [h3]
    constructor
    · rintro rfl
      exact ⟨Or.inl rfl, h2⟩
    · rintro ⟨h | h, h'⟩
      · exact h
      · exact absurd h h'
  · intro k bins mv mis he
    rw [h6] at he
    injection he with he
    injection he with _ _ he _
    subst he
    refine mostFrequent_of (fun k => ?_)
    by_cases hk : k ∈ vals entries
    · rcases (h3 k).1 hk with rfl | rfl
      · exact h4
      · exact Nat.le_refl _
    · rw [List.count_eq_zero_of_not_mem hk]
      exact Nat.zero_le _

theorem nominal_dense {order : List Int → List Int} (ho : IsOrder order) {entries : List Entry} {m : Mapping} (hr : InRange entries)
    (hnd : (entries.map Prod.fst).Nodup) (hlen : entries.length < 2 ^ 32) (hm : Counts m (vals entries)) (sv : Int) :
    ∃ c, createNominalFor order entries m m.length (vals entries).length false sv = .ok c ∧ c.Correct .nominal entries ∧ c.Frequent entries := by
  have hle := hm.length_le
  have hle' := vals_length_le entries
  unfold createNominalFor
  split
  · rename_i h2
    obtain ⟨maj, g1, g2, g3⟩ := selectMajority_ok ho hm (by rintro e; rw [e, List.length_nil] at hle; omega) sv
    obtain ⟨r1, r2, r3⟩ := rest_spec ho hm maj
    rw [if_pos g2] at r3
    obtain ⟨v, missing, k1, k2⟩ := createNominal_ok ho (maj := maj) hr hnd hlen hm
    have hc : (vals entries).count maj ≤ (vals entries).length := List.count_le_length
    refine ⟨.nominal .nominal v missing, ?_, ⟨_, k2, binsOf_represents (agree_self hnd maj) hnd r1 r2, Or.inr ⟨rfl, ?_⟩, fun h => by simp at h⟩, ?_⟩
    · rw [g1, ok_bind]
      simp only
      rw [RuleList.sub32_of_le (by omega) (by omega), RuleList.sub32_of_le hc (by omega), ← r3, k1]
      rfl
    · simp only [binsOf, List.length_map]
      omega
    · intro k bins mv mis he
      rw [k2] at he
      injection he with he
      injection he with _ _ he _
      subst he
      exact mostFrequent_of g3
  · rename_i h2
    split
    · rename_i h1
      obtain ⟨v, missing, k1, k2, k3⟩ := binary_dense ho hr hnd hm (by omega) .nominal sv
      exact ⟨_, by rw [k1]; rfl, k2, k3⟩
    · rename_i h1
      exact ⟨.equal, rfl, ⟨.equal, rfl, equal_of (hm.all_eq (by omega))⟩, fun _ _ _ _ he => by simp [Created.decode] at he⟩

theorem sorted_strict {l : List Int} (h1 : l.Pairwise (· ≤ ·)) (h2 : l.Nodup) : l.Pairwise (· < ·) :=
  (h1.and h2).imp (fun h => by omega)

theorem binsOf_fst (entries : List Entry) (L : List Int) : (binsOf entries L).map Prod.fst = L := by
  unfold binsOf
  rw [List.map_map]
  exact List.map_id _

theorem ordinal_dense {order sort : List Int → List Int} (ho : IsOrder order) (hsort : IsSort sort) {entries : List Entry} {m : Mapping} (hr : InRange entries)
    (hnd : (entries.map Prod.fst).Nodup) (hlen : entries.length < 2 ^ 32) (hm : Counts m (vals entries)) (sv : Int) :
    ∃ c, createOrdinalFor order sort entries m m.length (vals entries).length false sv = .ok c ∧ c.Correct .ordinal entries ∧ c.Frequent entries := by
  have hle := hm.length_le
  have hle' := vals_length_le entries
  unfold createOrdinalFor
  split
  · rename_i h2
    obtain ⟨maj, g1, g2, g3⟩ := selectMajority_ok ho hm (by rintro e; rw [e, List.length_nil] at hle; omega) sv
    obtain ⟨r1, r2, r3⟩ := rest_spec ho hm maj
    rw [if_pos g2] at r3
    obtain ⟨hp, hs⟩ := hsort (rest order m maj)
    obtain ⟨v, missing, k1, k2⟩ := createOrdinal_ok ho hsort (maj := maj) hr hnd hlen hm
    have hc : (vals entries).count maj ≤ (vals entries).length := List.count_le_length
    refine ⟨.nominal .ordinal v missing, ?_, ⟨_, k2, binsOf_represents (agree_self hnd maj) hnd (hp.nodup_iff.2 r1) (fun k => hp.mem_iff.trans (r2 k)),
      Or.inr ⟨rfl, ?_⟩, fun _ => ?_⟩, ?_⟩
    · rw [g1, ok_bind]
      simp only
      rw [RuleList.sub32_of_le (by omega) (by omega), RuleList.sub32_of_le hc (by omega), ← r3, k1]
      rfl
    · simp only [binsOf, List.length_map, hp.length_eq]
      omega
    · rw [binsOf_fst]
      exact sorted_strict hs (hp.nodup_iff.2 r1)
    · intro k bins mv mis he
      rw [k2] at he
      injection he with he
      injection he with _ _ he _
      subst he
      exact mostFrequent_of g3
  · rename_i h2
    split
    · rename_i h1
      obtain ⟨v, missing, k1, k2, k3⟩ := binary_dense ho hr hnd hm (by omega) .ordinal sv
      exact ⟨_, by rw [k1]; rfl, k2, k3⟩
    · rename_i h1
      exact ⟨.equal, rfl, ⟨.equal, rfl, equal_of (hm.all_eq (by omega))⟩, fun _ _ _ _ he => by simp [Created.decode] at he⟩

/-! ### Columns with values that are not stored -/

/-- None of the values that are stored is the one that is not stored. -/
def NoneStored (entries : List Entry) (value : Int) : Prop := value ∉ vals entries

theorem binary_sparse {order : List Int → List Int} (ho : IsOrder order) {entries column : List Entry} {m : Mapping} {sv : Int} (hr : InRange entries)
    (hnd : (entries.map Prod.fst).Nodup) (hm : Counts m (vals entries)) (ha : Agree entries column sv) (hs : NoneStored entries sv) (hlen : m.length = 1)
    (kind : NominalKind) :
    ∃ v missing, createBinary order entries m true sv = .ok (v, missing) ∧ (Created.nominal .binary v missing).Correct kind column := by
  have hp := ho m.keys
  have hl : (order m.keys).length = 1 := by
    rw [hp.length_eq]
    simpa [Mapping.keys] using hlen
  obtain ⟨k, hk⟩ := List.length_eq_one_iff.1 hl
  have hmem : ∀ j, j ∈ vals entries ↔ j = k := fun j => by
    rw [← hm.mem, ← hp.mem_iff, hk, List.mem_singleton]
  have hks : k ≠ sv := fun e => hs (e ▸ (hmem k).2 rfl)
  obtain ⟨v, missing, h5, h6⟩ := createBinaryInternally_ok (b := sv) hr hnd hm ((hmem k).2 rfl)
  refine ⟨v, missing, ?_, ⟨_, h6, ?_, Or.inl ⟨rfl, rfl⟩, fun h => by simp at h⟩⟩
  · unfold createBinary
    rw [if_pos rfl, hk]
    exact h5
  · refine binary_represents ha hnd hks (fun j => ?_)
    rw [hmem]
    exact ⟨fun e => ⟨e, by rw [e]; exact hks⟩, fun h => h.1⟩

theorem nominal_sparse {order : List Int → List Int} (ho : IsOrder order) {entries column : List Entry} {m : Mapping} {sv : Int} (hr : InRange entries)
    (hnd : (entries.map Prod.fst).Nodup) (hlen : entries.length + 1 < 2 ^ 32) (hm : Counts m (vals entries)) (ha : Agree entries column sv)
    (hs : NoneStored entries sv) :
    ∃ c, createNominalFor order entries m (m.length + 1) (vals entries).length true sv = .ok c ∧ c.Correct .nominal column := by
  have hle := hm.length_le
  have hle' := vals_length_le entries
  unfold createNominalFor
  split
  · rename_i h2
    obtain ⟨r1, r2, r3⟩ := rest_spec ho hm sv
    rw [if_neg hs] at r3
    obtain ⟨v, missing, k1, k2⟩ := createNominal_ok ho (maj := sv) hr hnd (by omega) hm
    rw [List.count_eq_zero_of_not_mem hs, r3] at k1
    refine ⟨.nominal .nominal v missing, ?_, ⟨_, k2, binsOf_represents ha hnd r1 r2, Or.inr ⟨rfl, ?_⟩, fun h => by simp at h⟩⟩
    · unfold selectMajority
      rw [if_pos rfl, ok_bind]
      simp only
      rw [RuleList.sub32_of_le (by omega) (by omega), RuleList.sub32_of_le (by omega) (by omega), Nat.add_sub_cancel, k1]
      rfl
    · simp only [binsOf, List.length_map]
      omega
  · rename_i h2
    split
    · rename_i h1
      obtain ⟨v, missing, k1, k2⟩ := binary_sparse ho hr hnd hm ha hs (by omega) .nominal
      exact ⟨_, by rw [k1]; rfl, k2⟩
    · rename_i h1
      have hv : vals entries = [] := by
        cases h : vals entries with
        | nil => rfl
        | cons k l =>
          have := (hm.mem k).2 (by rw [h]; simp)
          rw [show m = [] from List.length_eq_zero_iff.1 (by omega)] at this
          simp [Mapping.keys] at this
      refine ⟨.equal, rfl, ⟨.equal, rfl, equal_of (fun a ha' b hb' => ?_)⟩⟩
      have key : ∀ k ∈ vals column, k = sv := by
        intro k hk
        by_contra hne
        obtain ⟨i, x, hx, hxk⟩ := mem_vals.1 hk
        obtain ⟨y, hy, hyk⟩ := mem_idxs.1 ((ha.value i k hne).2 (mem_idxs.2 ⟨x, hx, hxk⟩))
        have := mem_vals.2 ⟨i, y, hy, hyk⟩
        rw [hv] at this
        simp at this
      rw [key a ha', key b hb']

theorem ordinal_sparse {order sort : List Int → List Int} (ho : IsOrder order) (hsort : IsSort sort) {entries column : List Entry} {m : Mapping} {sv : Int}
    (hr : InRange entries) (hnd : (entries.map Prod.fst).Nodup) (hlen : entries.length + 1 < 2 ^ 32) (hm : Counts m (vals entries)) (ha : Agree entries column sv)
    (hs : NoneStored entries sv) :
    ∃ c, createOrdinalFor order sort entries m (m.length + 1) (vals entries).length true sv = .ok c ∧ c.Correct .ordinal column := by
  have hle := hm.length_le
  have hle' := vals_length_le entries
  unfold createOrdinalFor
  split
  · rename_i h2
    obtain ⟨r1, r2, r3⟩ := rest_spec ho hm sv
    rw [if_neg hs] at r3
    obtain ⟨hp, hs'⟩ := hsort (rest order m sv)
    obtain ⟨v, missing, k1, k2⟩ := createOrdinal_ok ho hsort (maj := sv) hr hnd (by omega) hm
    rw [List.count_eq_zero_of_not_mem hs, r3] at k1
    refine ⟨.nominal .ordinal v missing, ?_, ⟨_, k2, binsOf_represents ha hnd (hp.nodup_iff.2 r1) (fun k => hp.mem_iff.trans (r2 k)), Or.inr ⟨rfl, ?_⟩, fun _ => ?_⟩⟩
    · unfold selectMajority
      rw [if_pos rfl, ok_bind]
      simp only
      rw [RuleList.sub32_of_le (by omega) (by omega), RuleList.sub32_of_le (by omega) (by omega), Nat.add_sub_cancel, k1]
      rfl
    · simp only [binsOf, List.length_map, hp.length_eq]
      omega
    · rw [binsOf_fst]
      exact sorted_strict hs' (hp.nodup_iff.2 r1)
  · have := nominal_sparse ho hr hnd hlen hm ha hs
    rename_i h2
    split
    · rename_i h1
      obtain ⟨v, missing, k1, k2⟩ := binary_sparse ho hr hnd hm ha hs (by omega) .ordinal
      exact ⟨_, by rw [k1]; rfl, k2⟩
    · rename_i h1
      unfold createNominalFor at this
      rw [if_neg h2, if_neg h1] at this
      obtain ⟨c, hc, v, hv1, hv2⟩ := this
      injection hc with hc
      subst hc
      injection hv1 with hv1
      subst hv1
      exact ⟨.equal, rfl, .equal, rfl, hv2⟩

/-! ### Columns of sparse matrices -/

theorem lookup_iff {entries : List Entry} (hnd : (entries.map Prod.fst).Nodup) {i : Nat} {v : FVal} : entries.lookup i = some v ↔ (i, v) ∈ entries := by
  induction entries with
  | nil => simp
  | cons e l ih =>
    obtain ⟨j, w⟩ := e
    rw [List.map_cons, List.nodup_cons] at hnd
    rw [List.lookup_cons, List.mem_cons]
    by_cases h : i = j
    · subst h
      simp only [BEq.rfl, Option.some.injEq, Prod.mk.injEq, true_and]
      constructor
      · exact fun e => Or.inl e.symm
      · rintro (e | e)
        · exact e.symm
        · exact absurd (List.mem_map_of_mem e) hnd.1
    · have : (i == j) = false := by simpa using h
      simp only [this, Prod.mk.injEq, h, false_and, false_or]
      exact ih hnd.2

theorem mem_cscColumn {entries : List Entry} {numRows : Nat} {sv : FVal} {i : Nat} {v : FVal} :
    (i, v) ∈ cscColumn entries numRows sv ↔ i < numRows ∧ (entries.lookup i).getD sv = v := by
  unfold cscColumn
  simp only [List.mem_map, List.mem_range, Prod.mk.injEq]
  constructor
  · rintro ⟨j, hj, rfl, h⟩
    exact ⟨hj, h⟩
  · rintro ⟨h1, h2⟩
    exact ⟨i, h1, rfl, h2⟩

theorem cscColumn_nodup (entries : List Entry) (numRows : Nat) (sv : FVal) : ((cscColumn entries numRows sv).map Prod.fst).Nodup := by
  unfold cscColumn
  rw [List.map_map]
  exact (List.nodup_range).map (fun a b e => e)

theorem absent_nodup {l : List Entry} (h : (l.map Prod.fst).Nodup) : (absent l).Nodup := by
  unfold absent
  exact h.sublist (List.filter_sublist.map _)

theorem mem_absent {l : List Entry} {i : Nat} : i ∈ absent l ↔ (i, none) ∈ l := by
  unfold absent
  simp only [List.mem_map, List.mem_filter, Option.isNone_iff_eq_none]
  constructor
  · rintro ⟨⟨j, v⟩, ⟨h1, h2⟩, rfl⟩
    simp only at h2
    subst h2
    exact h1
  · exact fun h => ⟨_, ⟨h, rfl⟩, rfl⟩

theorem agree_csc {entries : List Entry} {numRows : Nat} (h : ValidCsc entries numRows) (x : Rat) :
    Agree entries (cscColumn entries numRows (some x)) (category x) := by
  have key : ∀ i v, v ≠ some x → ((i, v) ∈ cscColumn entries numRows (some x) ↔ (i, v) ∈ entries) := by
    intro i v hv
    rw [mem_cscColumn]
    constructor
    · rintro ⟨h1, h2⟩
      cases hl : entries.lookup i with
      | none =>
        rw [hl] at h2
        exact absurd h2.symm hv
      | some w =>
        rw [hl] at h2
        simp only [Option.getD_some] at h2
        subst h2
        exact (lookup_iff h.nodup).1 hl
    · intro he
      exact ⟨h.lt _ he, by rw [(lookup_iff h.nodup).2 he]; rfl⟩
  refine ⟨cscColumn_nodup _ _ _, fun i k hk => ?_, (List.perm_ext_iff_of_nodup (absent_nodup h.nodup) (absent_nodup (cscColumn_nodup _ _ _))).2 (fun i => ?_)⟩
  · rw [mem_idxs, mem_idxs]
    constructor
    · rintro ⟨y, hy, rfl⟩
      exact ⟨y, (key i _ (fun e => hk (by injection e with e; rw [e]))).2 hy, rfl⟩
    · rintro ⟨y, hy, rfl⟩
      exact ⟨y, (key i _ (fun e => hk (by injection e with e; rw [e]))).1 hy, rfl⟩
  · rw [mem_absent, mem_absent]
    exact (key i none (by simp)).symm

theorem cscColumn_full {entries : List Entry} {numRows : Nat} (h : ValidCsc entries numRows) (hlen : numRows ≤ entries.length) (sv : FVal) :
    entries.Perm (cscColumn entries numRows sv) := by
  have hp : (entries.map Prod.fst).Perm (List.range numRows) := by
    refine (List.subperm_of_subset h.nodup (fun i hi => ?_)).perm_of_length_le (by simpa using hlen)
    obtain ⟨e, he, rfl⟩ := List.mem_map.1 hi
    exact List.mem_range.2 (h.lt e he)
  refine (List.perm_ext_iff_of_nodup (h.nodup.of_map _) ((cscColumn_nodup _ _ _).of_map _)).2 ?_
  rintro ⟨i, v⟩
  rw [mem_cscColumn]
  constructor
  · intro he
    exact ⟨h.lt _ he, by rw [(lookup_iff h.nodup).2 he]; rfl⟩
  · rintro ⟨h1, h2⟩
    obtain ⟨⟨j, w⟩, he, hj⟩ := List.mem_map.1 (hp.mem_iff.2 (List.mem_range.2 h1))
    simp only at hj
    subst hj
    rw [(lookup_iff h.nodup).2 he] at h2
    simp only [Option.getD_some] at h2
    subst h2
    exact he

theorem present_perm {a b : List Entry} (h : a.Perm b) : (present a).Perm (present b) := h.filterMap _

theorem categories_perm {a b : List Entry} (h : a.Perm b) : (categories a).Perm (categories b) := (present_perm h).map _

theorem absent_perm {a b : List Entry} (h : a.Perm b) : (absent a).Perm (absent b) := (h.filter _).map _

theorem Created.Correct.perm {kind : NominalKind} {a b : List Entry} {c : Created} (h : c.Correct kind a) (hp : a.Perm b) : c.Correct kind b := by
  obtain ⟨v, h1, h2⟩ := h
  refine ⟨v, h1, ?_⟩
  cases v with
  | equal =>
    intro x hx y hy
    exact h2 x ((categories_perm hp).mem_iff.2 hx) y ((categories_perm hp).mem_iff.2 hy)
  | nominal k bins mv missing =>
    obtain ⟨⟨⟨r, g1⟩, g2, g3, g4⟩, h3, h4⟩ := h2
    exact ⟨⟨⟨r, g1.trans (categories_perm hp)⟩, g2.trans (absent_perm hp), g3, g4⟩, h3, h4⟩
  | numerical _ _ _ _ => exact h2

theorem Created.Frequent.perm {a b : List Entry} {c : Created} (h : c.Frequent a) (hp : a.Perm b) : c.Frequent b := by
  intro kind bins mv missing he k
  have := h kind bins mv missing he k
  rwa [((categories_perm hp).map Prod.snd).count_eq, ((categories_perm hp).map Prod.snd).count_eq] at this

theorem denseEntries_nodup (column : List FVal) : ((denseEntries column).map Prod.fst).Nodup := by
  unfold denseEntries
  rw [List.map_map]
  have : (Prod.fst ∘ fun p : FVal × Nat => (p.2, p.1)) = Prod.snd := rfl
  rw [this, List.zipIdx_map_snd]
  exact List.nodup_range'

theorem denseEntries_length (column : List FVal) : (denseEntries column).length = column.length := by
  simp [denseEntries]

/-! ### Numerical features -/

theorem createNumerical_ok {sort : List (Nat × Rat) → List (Nat × Rat)} {entries : List Entry} (hnd : (entries.map Prod.fst).Nodup) :
    createNumerical sort entries = .ok (sort (present entries), absent entries) := by
  have hle : ∀ l : List Entry, (present l).length ≤ l.length := fun l => List.length_filterMap_le _ _
  obtain ⟨r, g1, g2, g3, g4⟩ := foldlM_rule (f := numericalStep) (fun p (r : NumericalState) =>
      r.entries = (present p).map some ++ List.replicate (entries.length - (present p).length) none ∧ r.n = (present p).length ∧ r.missing = absent p)
    entries [] ⟨List.replicate entries.length none, 0, []⟩ ⟨by simp [present], rfl, rfl⟩ (by
      rintro p ⟨i, v⟩ q ⟨ent, n, mis⟩ hpq ⟨k1, k2, k3⟩
      rw [List.nil_append] at hpq
      simp only at k1 k2 k3
      cases v with
      | none =>
        have hpr : present (p ++ [(i, none)]) = present p := by simp [present]
        refine ⟨⟨ent, n, setMissing mis i⟩, rfl, by rw [hpr]; exact k1, by rw [hpr]; exact k2, ?_⟩
        simp only
        rw [k3]
        exact setMissing_absent (by rw [← hpq]; exact hnd)
      | some x =>
        have hpr : present (p ++ [(i, some x)]) = present p ++ [(i, x)] := by simp [present]
        have h1 := hle p
        have h2 : p.length + 1 ≤ entries.length := by
          rw [hpq]
          simp
        unfold numericalStep
        simp only
        rw [writeAt_of_lt (by rw [k1, k2]; simp; omega), ok_bind]
        refine ⟨_, rfl, ?_, by simp [hpr, k2], by simp only; rw [absent_append, absent_some, List.append_nil]; exact k3⟩
        simp only [hpr, k1, k2, List.length_append, List.length_singleton]
        rw [List.set_append_right _ _ (by simp), show entries.length - (present p).length = (entries.length - ((present p).length + 1)) + 1 by omega]
        simp [List.replicate_succ])
  rw [List.nil_append] at g2 g3 g4
  unfold createNumerical
  rw [g1, ok_bind, g2, g3, List.take_left' (by simp), mapM_useInit, ok_bind, g4]
  rfl

theorem mem_present {l : List Entry} {i : Nat} {x : Rat} : (i, x) ∈ present l ↔ (i, some x) ∈ l := by
  unfold present
  simp only [List.mem_filterMap, Option.map_eq_some_iff]
  constructor
  · rintro ⟨⟨j, v⟩, h1, y, hy, e⟩
    simp only at hy
    subst hy
    cases e
    exact h1
  · exact fun h => ⟨_, h, x, rfl, rfl⟩

/-- The rows without an entry have the sparse value. -/
theorem csc_present {entries : List Entry} {numRows : Nat} (h : ValidCsc entries numRows) (x : Rat) :
    (present entries ++ ((List.range numRows).filter (fun i => (entries.lookup i).isNone)).map (fun i => (i, x))).Perm
      (present (cscColumn entries numRows (some x))) := by
  have hinj : ∀ l : List Entry, (l.map Prod.fst).Nodup → (present l).Nodup := fun l hl => (hl.sublist (present_fst_sublist l)).of_map _
  refine (List.perm_ext_iff_of_nodup ?_ (hinj _ (cscColumn_nodup _ _ _))).2 ?_
  · rw [List.nodup_append]
    refine ⟨hinj _ h.nodup, (List.nodup_range.filter _).map (fun a b e => by simpa using e), ?_⟩
    rintro ⟨i, y⟩ ha b hb e
    subst e
    rw [mem_present] at ha
    simp only [List.mem_map, List.mem_filter, Prod.mk.injEq] at hb
    obtain ⟨j, ⟨-, hj⟩, rfl, -⟩ := hb
    rw [(lookup_iff h.nodup).2 ha] at hj
    simp at hj
  · rintro ⟨i, y⟩
    rw [List.mem_append, mem_present, mem_present, mem_cscColumn]
    simp only [List.mem_map, List.mem_filter, Prod.mk.injEq, List.mem_range]
    constructor
    · rintro (ha | ⟨j, ⟨hj, hl⟩, rfl, rfl⟩)
      · exact ⟨h.lt _ ha, by rw [(lookup_iff h.nodup).2 ha]; rfl⟩
      · refine ⟨hj, ?_⟩
        rw [Option.isNone_iff_eq_none] at hl
        rw [hl]
        rfl
    · rintro ⟨h1, h2⟩
      cases hl : entries.lookup i with
      | none =>
        rw [hl] at h2
        simp only [Option.getD_none, Option.some.injEq] at h2
        exact Or.inr ⟨i, ⟨h1, by simp [hl]⟩, rfl, h2⟩
      | some w =>
        rw [hl] at h2
        simp only [Option.getD_some] at h2
        subst h2
        exact Or.inl ((lookup_iff h.nodup).1 hl)

end MLRL.FeatureType
