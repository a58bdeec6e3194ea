import Verif.Lemma.OutputStrata
import Verif.Lemma.RuleList
import Mathlib.Data.List.Perm.Subperm

/-!
# Lemmas about output-wise stratification: the strata
-/

namespace MLRL.OutputStrata

open FeatureSpace (readRange)
open FeatureType (foldlM_rule mapM_useInit mapM_range)

/-! ### Vectors -/

/-- A vector. -/
def vec {α : Type} (n : Nat) (f : Nat → α) : List α := (List.range n).map f

theorem vec_get {α : Type} {n l : Nat} (f : Nat → α) (h : l < n) : (vec n f)[l]? = some (f l) := by
  unfold vec
  rw [List.getElem?_map, List.getElem?_range h]
  rfl

theorem vec_congr {α : Type} {n : Nat} {f g : Nat → α} (h : ∀ l < n, f l = g l) : vec n f = vec n g :=
  List.map_congr_left (fun l hl => h l (List.mem_range.1 hl))

theorem vec_write {α : Type} {n l : Nat} {v : α} {f g : Nat → α} (h : l < n) (hv : g l = v) (hg : ∀ k < n, k ≠ l → g k = f k) :
    writeAt (vec n f) l v = .ok (vec n g) := by
  rw [writeAt_of_lt (by unfold vec; simpa using h)]
  congr 1
  unfold vec
  refine List.ext_getElem? (fun k => ?_)
  rw [List.getElem?_set]
  simp only [List.length_map, List.length_range, h, if_true]
  split
  · rename_i hk
    subst hk
    rw [List.getElem?_map, List.getElem?_range h, Option.map_some, hv]
  · rename_i hk
    rw [List.getElem?_map, List.getElem?_map]
    by_cases hkn : k < n
    · rw [List.getElem?_range hkn, Option.map_some, Option.map_some, hg k hkn (fun e => hk e.symm)]
    · rw [List.getElem?_eq_none (by simpa using hkn)]
      rfl

theorem vec_const {α : Type} (n : Nat) (a : α) : List.replicate n a = vec n (fun _ => a) := by
  unfold vec
  rw [List.map_const', List.length_range]

/-! ### Affected labels -/

/-- The affected labels are those, the number of remaining examples of which is smaller than before. -/
structure Aff (n : Nat) (f0 f : Nat → Nat) (A : List (Nat × Nat)) : Prop where
  nodup : (A.map Prod.fst).Nodup
  mem : ∀ k v, (k, v) ∈ A ↔ k < n ∧ v = f0 k ∧ f k < f0 k
  le : ∀ k < n, f k ≤ f0 k

theorem Aff.congr {n : Nat} {f0 f g : Nat → Nat} {A : List (Nat × Nat)} (h : Aff n f0 f A) (hfg : ∀ k < n, f k = g k) : Aff n f0 g A where
  nodup := h.nodup
  mem := fun k v => by
    rw [h.mem]
    exact ⟨fun ⟨h1, h2, h3⟩ => ⟨h1, h2, by rw [← hfg k h1]; exact h3⟩, fun ⟨h1, h2, h3⟩ => ⟨h1, h2, by rw [hfg k h1]; exact h3⟩⟩
  le := fun k hk => by rw [← hfg k hk]; exact h.le k hk

theorem decrement_ok {n l : Nat} {f0 f g : Nat → Nat} {A : List (Nat × Nat)} (h : Aff n f0 f A) (hl : l < n) (h0 : 0 < f l) (h32 : f l < 2 ^ 32)
    (hgl : g l = f l - 1) (hg : ∀ k, k ≠ l → g k = f k) : ∃ A', decrement ⟨vec n f, A⟩ l = .ok ⟨vec n g, A'⟩ ∧ Aff n f0 g A' := by
  unfold decrement
  simp only
  rw [readAt_of_getElem? (vec_get f hl), ok_bind, RuleList.sub32_of_le h0 h32, vec_write hl hgl (fun k _ hk => hg k hk), ok_bind]
  have hle := h.le l hl
  refine ⟨_, rfl, ?_⟩
  by_cases hany : (A.any fun p => p.1 == l) = true
  · rw [if_pos hany]
    rw [List.any_eq_true] at hany
    obtain ⟨⟨k, v⟩, hm, hk⟩ := hany
    simp at hk
    subst hk
    have hf := ((h.mem k v).1 hm).2.2
    refine ⟨h.nodup, fun j w => ?_, fun j hj => ?_⟩
    · rw [h.mem]
      by_cases hj : j = k
      · subst hj
        rw [hgl]
        exact ⟨fun ⟨a, b, _⟩ => ⟨a, b, by omega⟩, fun ⟨a, b, _⟩ => ⟨a, b, hf⟩⟩
      · rw [hg j hj]
    · by_cases hjk : j = k
      · subst hjk
        rw [hgl]
        omega
      · rw [hg j hjk]
        exact h.le j hj
  · rw [if_neg hany]
    have hnot : ∀ v, (l, v) ∉ A := fun v hm => hany (List.any_eq_true.2 ⟨(l, v), hm, by simp⟩)
    have heq : f l = f0 l := by
      rcases Nat.lt_or_eq_of_le hle with h1 | h1
      · exact absurd ((h.mem l (f0 l)).2 ⟨hl, rfl, h1⟩) (hnot _)
      · exact h1
    refine ⟨?_, fun j w => ?_, fun j hj => ?_⟩
    · rw [List.map_append, List.nodup_append]
      refine ⟨h.nodup, by simp, fun a ha b hb => ?_⟩
      rw [List.mem_map] at ha
      obtain ⟨⟨k, v⟩, hm, rfl⟩ := ha
      simp only [List.map_singleton, List.mem_singleton] at hb
      subst hb
      intro e
      simp only at e
      subst e
      exact hnot v hm
    · rw [List.mem_append, h.mem, List.mem_singleton]
      by_cases hj : j = l
      · subst hj
        rw [hgl]
        constructor
        · rintro (⟨a, b, c⟩ | he)
          · exact ⟨a, b, by omega⟩
          · simp only [Prod.mk.injEq, true_and] at he
            exact ⟨hl, by rw [he, heq], by omega⟩
        · rintro ⟨a, b, _⟩
          exact .inr (by rw [b, heq])
      · rw [hg j hj]
        exact ⟨fun h => h.resolve_right (fun e => hj (Prod.mk.inj e).1), .inl⟩
    · by_cases hjk : j = l
      · subst hjk
        rw [hgl]
        omega
      · rw [hg j hjk]
        exact h.le j hj

theorem decRow_ok {n : Nat} {f0 : Nat → Nat} : ∀ {row : List Nat} {f : Nat → Nat} {A : List (Nat × Nat)}, row.Nodup → Aff n f0 f A → (∀ l ∈ row, l < n) →
    (∀ l ∈ row, 0 < f l) → (∀ l ∈ row, f l < 2 ^ 32) →
    ∃ A', row.foldlM decrement ⟨vec n f, A⟩ = .ok ⟨vec n (fun k => if k ∈ row then f k - 1 else f k), A'⟩ ∧ Aff n f0 (fun k => if k ∈ row then f k - 1 else f k) A'
  | [], f, A, _, h, _, _, _ => ⟨A, by simp; rfl, by simpa using h⟩
  | l :: row, f, A, hnd, h, hlt, hpos, h32 => by
    rw [List.nodup_cons] at hnd
    obtain ⟨A1, g1, g2⟩ := decrement_ok (g := fun k => if k = l then f k - 1 else f k) h (hlt l (by simp)) (hpos l (by simp)) (h32 l (by simp)) (by simp)
      (fun k hk => by simp [hk])
    have hne : ∀ k ∈ row, k ≠ l := fun k hk e => hnd.1 (e ▸ hk)
    obtain ⟨A2, k1, k2⟩ := decRow_ok hnd.2 g2 (fun k hk => hlt k (List.mem_cons_of_mem _ hk))
      (fun k hk => by rw [if_neg (hne k hk)]; exact hpos k (List.mem_cons_of_mem _ hk))
      (fun k hk => by rw [if_neg (hne k hk)]; exact h32 k (List.mem_cons_of_mem _ hk))
    have hfun : ∀ k, (if k ∈ row then (if k = l then f k - 1 else f k) - 1 else if k = l then f k - 1 else f k) = if k ∈ l :: row then f k - 1 else f k := by
      intro k
      by_cases hk : k ∈ row
      · simp [hk, hne k hk]
      · by_cases hkl : k = l
        · subst hkl
          simp [hk]
        · simp [hk, hkl]
    refine ⟨A2, ?_, k2.congr (fun k _ => hfun k)⟩
    rw [List.foldlM_cons, g1, ok_bind, k1, vec_congr (fun k _ => hfun k)]

/-! ### Sorted labels -/

/-- The set contains each label that is relevant to at least one remaining example. -/
structure Sorted (n : Nat) (f : Nat → Nat) (S : List (Nat × Nat)) : Prop where
  nodup : S.Nodup
  mem : ∀ l v, (l, v) ∈ S ↔ l < n ∧ v = f l ∧ 0 < v

theorem Sorted.keys {n : Nat} {f : Nat → Nat} {S : List (Nat × Nat)} (h : Sorted n f S) : (S.map Prod.fst).Nodup := by
  refine (List.nodup_map_iff_inj_on h.nodup).2 ?_
  rintro ⟨a, b⟩ h1 ⟨c, d⟩ h2 (rfl : a = c)
  rw [((h.mem _ _).1 h1).2.1, ((h.mem _ _).1 h2).2.1]

theorem firstEntry_none : ∀ {S : List (Nat × Nat)}, firstEntry S = none → S = []
  | [], _ => rfl
  | a :: S, h => by
    simp only [firstEntry] at h
    split at h
    · cases h
    · split at h <;> cases h

theorem firstEntry_some : ∀ {S : List (Nat × Nat)} {b : Nat × Nat}, firstEntry S = some b → b ∈ S ∧ ∀ a ∈ S, before a b = false
  | [], _, h => by cases h
  | a :: S, b, h => by
    have hirr : ∀ c : Nat × Nat, before c c = false := fun c => by simp [before]
    simp only [firstEntry] at h
    split at h
    · rename_i hn
      rw [firstEntry_none hn]
      cases h
      exact ⟨by simp, fun c hc => by simp at hc; rw [hc]; exact hirr _⟩
    · rename_i c hc
      obtain ⟨h1, h2⟩ := firstEntry_some hc
      split at h
      · rename_i hb
        cases h
        refine ⟨List.mem_cons_of_mem _ h1, fun d hd => ?_⟩
        rcases List.mem_cons.1 hd with rfl | hd
        · simp [before] at hb ⊢
          omega
        · exact h2 d hd
      · rename_i hb
        cases h
        refine ⟨by simp, fun d hd => ?_⟩
        rcases List.mem_cons.1 hd with rfl | hd
        · exact hirr _
        · have := h2 d hd
          simp [before] at hb this ⊢
          omega

theorem mem_emplace {S : List (Nat × Nat)} {a b : Nat × Nat} : b ∈ emplace S a ↔ b ∈ S ∨ b = a := by
  unfold emplace
  split
  · rename_i h
    exact ⟨.inl, fun hc => hc.elim id (fun e => e ▸ h)⟩
  · simp

theorem nodup_emplace {S : List (Nat × Nat)} {a : Nat × Nat} (h : S.Nodup) : (emplace S a).Nodup := by
  unfold emplace
  split
  · exact h
  · rename_i hn
    rw [List.nodup_append]
    exact ⟨h, by simp, fun x hx y hy e => hn (by rw [List.mem_singleton] at hy; rw [← hy, ← e]; exact hx)⟩

theorem reorder_ok {n label : Nat} {f g : Nat → Nat} {A order S : List (Nat × Nat)} (hA : Aff n f g A) (hp : order.Perm A) (hS : Sorted n f S)
    (hg : g label = 0) (hmem : (label, f label) ∈ S) :
    ∃ S', order.foldlM (reorderStep label (vec n g)) (S.erase (label, f label)) = .ok S' ∧ Sorted n g S' ∧ S'.length < S.length := by
  have hnd : (order.map Prod.fst).Nodup := (hp.map _).nodup_iff.2 hA.nodup
  obtain ⟨S', g1, g2, g3⟩ := foldlM_rule (f := reorderStep label (vec n g)) (fun P (T : List (Nat × Nat)) => T.Nodup ∧
      ∀ l v, (l, v) ∈ T ↔ l < n ∧ l ≠ label ∧ 0 < v ∧ v = if l ∈ P.map Prod.fst then g l else f l) order [] (S.erase (label, f label))
    ⟨hS.nodup.erase _, fun l v => by
      rw [hS.nodup.mem_erase_iff, hS.mem]
      simp only [List.map_nil, List.not_mem_nil, if_false, ne_eq, Prod.mk.injEq, not_and]
      constructor
      · rintro ⟨h1, h2, h3, h4⟩
        refine ⟨h2, fun e => h1 e (by rw [h3, e]), h4, h3⟩
      · rintro ⟨h1, h2, h3, h4⟩
        exact ⟨fun e => absurd e h2, h1, h4, h3⟩⟩ (by
      rintro P ⟨k, v⟩ Q T hpq ⟨t1, t2⟩
      rw [List.nil_append] at hpq
      have hm : (k, v) ∈ A := hp.mem_iff.1 (by rw [hpq]; simp)
      obtain ⟨m1, m2, m3⟩ := (hA.mem k v).1 hm
      have hkP : k ∉ P.map Prod.fst := by
        intro hc
        rw [hpq, List.map_append, List.nodup_append] at hnd
        exact hnd.2.2 k hc k (by simp) rfl
      unfold reorderStep
      by_cases hk : k = label
      · subst hk
        simp only [ne_eq, not_true_eq_false, decide_false]
        refine ⟨T, rfl, t1, fun l w => ?_⟩
        rw [t2]
        by_cases hl : l = k
        · simp [hl]
        · have e : (if l ∈ (P ++ [(k, v)]).map Prod.fst then g l else f l) = if l ∈ P.map Prod.fst then g l else f l := if_congr (by simp [hl]) rfl rfl
          rw [e]
      · simp only [ne_eq, hk, not_false_eq_true, decide_true]
        rw [readAt_of_getElem? (vec_get g m1), ok_bind]
        have hin : (k, v) ∈ T := by
          rw [t2, if_neg hkP]
          exact ⟨m1, hk, by omega, m2⟩
        simp only [hin, decide_true]
        refine ⟨_, rfl, ?_, fun l w => ?_⟩
        · refine List.Nodup.erase _ ?_
          split
          · exact nodup_emplace t1
          · exact t1
        · have hndT : (if g k > 0 then emplace T (k, g k) else T).Nodup := by
            split
            · exact nodup_emplace t1
            · exact t1
          rw [hndT.mem_erase_iff]
          have hmem' : (l, w) ∈ (if g k > 0 then emplace T (k, g k) else T) ↔ (l, w) ∈ T ∨ (0 < g k ∧ l = k ∧ w = g k) := by
            split
            · rename_i h0
              rw [mem_emplace]
              simp [h0]
            · rename_i h0
              simp [h0]
          rw [hmem', t2]
          simp only [List.map_append, List.map_cons, List.map_nil, List.mem_append, List.mem_singleton, ne_eq, Prod.mk.injEq, not_and]
          by_cases hl : l = k
          · subst hl
            simp only [hkP, if_false, true_implies, true_and, or_true, if_true]
            constructor
            · rintro ⟨h1, h2 | h2⟩
              · exact absurd (by rw [h2.2.2.2, m2]) h1
              · exact ⟨m1, hk, by omega, h2.2⟩
            · rintro ⟨_, _, h3, h4⟩
              exact ⟨by omega, .inr ⟨by omega, h4⟩⟩
          · have e : (if l ∈ P.map Prod.fst ∨ l = k then g l else f l) = if l ∈ P.map Prod.fst then g l else f l := if_congr (by simp [hl]) rfl rfl
            rw [e]
            simp [hl])
  rw [List.nil_append] at g3
  have hS' : Sorted n g S' := ⟨g2, fun l v => by
    rw [g3]
    constructor
    · rintro ⟨h1, h2, h3, h4⟩
      refine ⟨h1, ?_, h3⟩
      by_cases h : l ∈ order.map Prod.fst
      · rw [if_pos h] at h4
        exact h4
      · rw [if_neg h] at h4
        rcases Nat.lt_or_eq_of_le (hA.le l h1) with h5 | h5
        · exact absurd (List.mem_map.2 ⟨(l, f l), hp.mem_iff.2 ((hA.mem l (f l)).2 ⟨h1, rfl, h5⟩), rfl⟩) h
        · rw [h4, h5]
    · rintro ⟨h1, h2, h3⟩
      refine ⟨h1, fun e => by rw [h2, e, hg] at h3; omega, h3, ?_⟩
      by_cases h : l ∈ order.map Prod.fst
      · rw [if_pos h]
        exact h2
      · rw [if_neg h]
        rcases Nat.lt_or_eq_of_le (hA.le l h1) with h5 | h5
        · exact absurd (List.mem_map.2 ⟨(l, f l), hp.mem_iff.2 ((hA.mem l (f l)).2 ⟨h1, rfl, h5⟩), rfl⟩) h
        · rw [h2, h5]⟩
  refine ⟨S', g1, hS', ?_⟩
  have hsub : (label :: S'.map Prod.fst).Subperm (S.map Prod.fst) := by
    refine List.subperm_of_subset (List.nodup_cons.2 ⟨fun hc => ?_, hS'.keys⟩) (fun l hl => ?_)
    · obtain ⟨⟨a, b⟩, h1, h2⟩ := List.mem_map.1 hc
      simp only at h2
      subst h2
      exact ((g3 _ _).1 h1).2.1 rfl
    · rcases List.mem_cons.1 hl with rfl | hl
      · exact List.mem_map.2 ⟨_, hmem, rfl⟩
      · obtain ⟨⟨a, b⟩, h1, rfl⟩ := List.mem_map.1 hl
        obtain ⟨k1, k2, k3⟩ := (hS'.mem _ _).1 h1
        exact List.mem_map.2 ⟨(a, f a), (hS.mem _ _).2 ⟨k1, rfl, by have := hA.le a k1; omega⟩, rfl⟩
  have := hsub.length_le
  simp at this
  omega

/-! ### Assignment of examples -/

variable {labels : Labels} {numTotal numLabels : Nat}

/-- The number of examples a label is relevant to. -/
def cnt (labels : Labels) (R : List Nat) (l : Nat) : Nat := (members labels R l).length

theorem cnt_remove {R : List Nat} {e : Nat} (hnd : R.Nodup) (he : e ∈ R) (l : Nat) :
    cnt labels (R.filter (fun x => decide (x ≠ e))) l = if labels.relevant e l = true then cnt labels R l - 1 else cnt labels R l := by
  have h1 : R.filter (fun x => decide (x ≠ e)) = R.erase e := by
    rw [hnd.erase_eq_filter]
    congr 1
    funext k
    simp [bne, BEq.beq]
  have hperm := List.perm_cons_erase he
  have h2 : cnt labels R l = (if labels.relevant e l = true then 1 else 0) + cnt labels (R.erase e) l := by
    unfold cnt members
    rw [(hperm.filter _).length_eq, List.filter_cons]
    split <;> simp
    omega
  rw [h1, h2]
  split <;> omega

theorem cnt_pos {R : List Nat} {e l : Nat} (he : e ∈ R) (hr : labels.relevant e l = true) : 0 < cnt labels R l :=
  List.length_pos_of_mem (List.mem_filter.2 ⟨he, hr⟩)

theorem cnt_le (R : List Nat) (l : Nat) : cnt labels R l ≤ R.length := List.length_filter_le ..

theorem assign_ok (hv : labels.Valid numTotal numLabels) {R column D : List Nat} {sorted : List (Nat × Nat)} {ptr : List (Option Nat)} {size numCols : Nat}
    (hR : R.Nodup) (h32 : R.length < 2 ^ 32) (hcol : column.Nodup) (hcl : ∀ e ∈ column, e < numTotal)
    (hcap : (D ++ column.filter (fun e => decide (e ∈ R))).length ≤ size) :
    ∃ A, column.foldlM (assignStep labels numLabels)
        ⟨⟨vec numLabels (cnt labels R), []⟩, sorted, vec numTotal (fun e => decide (e ∈ R)), buf D size, D.length, ptr, numCols⟩ =
      .ok ⟨⟨vec numLabels (cnt labels (R.filter (fun e => decide (e ∉ column)))), A⟩, sorted,
        vec numTotal (fun e => decide (e ∈ R.filter (fun e => decide (e ∉ column)))), buf (D ++ column.filter (fun e => decide (e ∈ R))) size,
        (D ++ column.filter (fun e => decide (e ∈ R))).length, ptr, numCols⟩ ∧
      Aff numLabels (cnt labels R) (cnt labels (R.filter (fun e => decide (e ∉ column)))) A := by
  obtain ⟨s, g1, A, rfl, g2⟩ := foldlM_rule (f := assignStep labels numLabels) (fun p (s : State) => ∃ A,
      s = ⟨⟨vec numLabels (cnt labels (R.filter (fun e => decide (e ∉ p)))), A⟩, sorted,
        vec numTotal (fun e => decide (e ∈ R.filter (fun e => decide (e ∉ p)))), buf (D ++ p.filter (fun e => decide (e ∈ R))) size,
        (D ++ p.filter (fun e => decide (e ∈ R))).length, ptr, numCols⟩ ∧
      Aff numLabels (cnt labels R) (cnt labels (R.filter (fun e => decide (e ∉ p)))) A) column []
    ⟨⟨vec numLabels (cnt labels R), []⟩, sorted, vec numTotal (fun e => decide (e ∈ R)), buf D size, D.length, ptr, numCols⟩
    ⟨[], by simp, ⟨by simp, fun k v => by simp, fun k _ => by simp⟩⟩ (by
      rintro p e q s hpq ⟨A, rfl, hA⟩
      rw [List.nil_append] at hpq
      have he : e < numTotal := hcl e (by rw [hpq]; simp)
      have hep : e ∉ p := by
        intro hc
        rw [hpq, List.nodup_append] at hcol
        exact hcol.2.2 e hc e (by simp) rfl
      unfold assignStep
      simp only
      rw [readAt_of_getElem? (vec_get _ he), ok_bind]
      have hremove : R.filter (fun x => decide (x ∉ p ++ [e])) = (R.filter (fun x => decide (x ∉ p))).filter (fun x => decide (x ≠ e)) := by
        rw [List.filter_filter]
        refine List.filter_congr (fun x _ => ?_)
        simp [and_comm]
      by_cases heR : e ∈ R
      · have hin : e ∈ R.filter (fun x => decide (x ∉ p)) := List.mem_filter.2 ⟨heR, by simpa using hep⟩
        have hlen : (D ++ p.filter (fun e => decide (e ∈ R))).length < size := by
          have h1 : (D ++ (p ++ e :: q).filter (fun e => decide (e ∈ R))).length ≤ size := by rw [← hpq]; exact hcap
          rw [List.filter_append, List.filter_cons, if_pos (by simpa using heR)] at h1
          simp only [List.length_append, List.length_cons] at h1 ⊢
          omega
        simp only [hin, decide_true]
        rw [vec_write (g := fun x => decide (x ∈ R.filter (fun x => decide (x ∉ p ++ [e])))) he (by simp) (fun k _ hk => by
            rw [hremove]
            simp [List.mem_filter, hk]), ok_bind, push_ok hlen rfl, ok_bind, update_eq hv he]
        obtain ⟨A', k1, k2⟩ := decRow_ok (rowOf_nodup hv he) hA (fun l hl => ((mem_rowOf hv he).1 hl).1)
          (fun l hl => cnt_pos hin ((mem_rowOf hv he).1 hl).2) (fun l _ => Nat.lt_of_le_of_lt (cnt_le _ _) (Nat.lt_of_le_of_lt (List.length_filter_le ..) h32))
        have hfun : ∀ k < numLabels, (if k ∈ rowOf labels numLabels e then cnt labels (R.filter (fun x => decide (x ∉ p))) k - 1
            else cnt labels (R.filter (fun x => decide (x ∉ p))) k) = cnt labels (R.filter (fun x => decide (x ∉ p ++ [e]))) k := by
          intro k hk
          rw [hremove, cnt_remove (hR.filter _) hin]
          by_cases hr : labels.relevant e k = true
          · rw [if_pos ((mem_rowOf hv he).2 ⟨hk, hr⟩), if_pos hr]
          · rw [if_neg (fun hc => hr ((mem_rowOf hv he).1 hc).2), if_neg hr]
        rw [k1, ok_bind, vec_congr hfun]
        refine ⟨_, rfl, A', ?_, k2.congr hfun⟩
        have hdata : p.filter (fun e => decide (e ∈ R)) ++ [e] = (p ++ [e]).filter (fun e => decide (e ∈ R)) := by
          rw [List.filter_append, List.filter_singleton]
          simp [heR]
        rw [List.append_assoc, hdata, ← hdata]
        simp [Nat.add_assoc]
      · have hin : e ∉ R.filter (fun x => decide (x ∉ p)) := fun hc => heR (List.mem_filter.1 hc).1
        simp only [hin, decide_false]
        have hsame : R.filter (fun x => decide (x ∉ p ++ [e])) = R.filter (fun x => decide (x ∉ p)) := by
          refine List.filter_congr (fun x hx => ?_)
          have : x ≠ e := fun h => heR (h ▸ hx)
          simp [this]
        refine ⟨_, rfl, A, ?_, by rw [hsame]; exact hA⟩
        rw [hsame, List.filter_append, List.filter_singleton]
        simp [heR])
  exact ⟨A, g1, g2⟩

/-! ### The loop -/

/-- The state of the loop: remaining examples and the strata that have been created so far. -/
structure Inv (labels : Labels) (numTotal numLabels : Nat) (examples : List Nat) (size : Nat) (R : List Nat) (S : List (List Nat)) (s : State) : Prop where
  sub : R = examples.filter (fun e => decide (e ∈ R))
  counters : s.counters = ⟨vec numLabels (cnt labels R), []⟩
  sorted : Sorted numLabels (cnt labels R) s.sorted
  mask : s.mask = vec numTotal (fun e => decide (e ∈ R))
  indices : s.indices = buf S.flatten size
  n : s.n = S.flatten.length
  indptr : s.indptr = buf (offsets S) (numLabels + 1)
  numCols : s.numCols = S.length
  perm : (S.flatten ++ R).Perm examples
  relevant : ∀ e ∈ S.flatten, ∃ l < numLabels, labels.relevant e l = true
  cols : S.length + s.sorted.length ≤ numLabels

theorem filter_not_mem_members {R examples : List Nat} (hsub : R = examples.filter (fun e => decide (e ∈ R))) (l : Nat) :
    R.filter (fun e => decide (e ∉ members labels examples l)) = R.filter (fun e => !labels.relevant e l) := by
  refine List.filter_congr (fun e he => ?_)
  have : e ∈ examples := by rw [hsub] at he; exact (List.mem_filter.1 he).1
  unfold members
  simp [this]

theorem members_filter {R examples : List Nat} (hsub : R = examples.filter (fun e => decide (e ∈ R))) (l : Nat) :
    (members labels examples l).filter (fun e => decide (e ∈ R)) = members labels R l := by
  unfold members
  conv_rhs => rw [hsub]
  rw [List.filter_filter, List.filter_filter]
  refine List.filter_congr (fun e _ => Bool.and_comm _ _)

theorem members_perm (labels : Labels) (R : List Nat) (l : Nat) : (members labels R l ++ R.filter (fun e => !labels.relevant e l)).Perm R :=
  List.filter_append_perm _ _

theorem size_bound {examples L : List Nat} (hnd : L.Nodup) (hsub : ∀ e ∈ L, e ∈ examples) (hrel : ∀ e ∈ L, ∃ l < numLabels, labels.relevant e l = true) :
    L.length ≤ (columns labels numLabels examples).flatten.length := by
  refine (List.subperm_of_subset hnd (fun e he => ?_)).length_le
  obtain ⟨l, h1, h2⟩ := hrel e he
  exact List.mem_flatten.2 ⟨members labels examples l, List.mem_map.2 ⟨l, List.mem_range.2 h1, rfl⟩, List.mem_filter.2 ⟨hsub e he, h2⟩⟩

theorem labelStep_ok {order : List (Nat × Nat) → List (Nat × Nat)} (ho : IsOrder order) (hv : labels.Valid numTotal numLabels) {examples : List Nat}
    (he : ∀ e ∈ examples, e < numTotal) (hnd : examples.Nodup) (h32 : examples.length < 2 ^ 32) {c : Csc} (hc : Copied labels numLabels examples c)
    {R : List Nat} {S : List (List Nat)} {s : State} (hi : Inv labels numTotal numLabels examples (columns labels numLabels examples).flatten.length R S s)
    {l v : Nat} (hm : (l, v) ∈ s.sorted) :
    ∃ s', labelStep order labels numLabels c s (l, v) = .ok s' ∧
      Inv labels numTotal numLabels examples (columns labels numLabels examples).flatten.length (R.filter (fun e => !labels.relevant e l))
        (S ++ [members labels R l]) s' ∧ s'.sorted.length < s.sorted.length := by
  obtain ⟨⟨counts, aff⟩, sorted, mask, indices, n, indptr, numCols⟩ := s
  obtain ⟨sub, i1, i2, i3, i4, i5, i6, i7, i8, i9, i10⟩ := hi
  simp only [Counters.mk.injEq] at i1 i2 i3 i4 i5 i6 i7 i10 hm
  obtain ⟨rfl, rfl⟩ := i1
  subst i3 i4 i5 i6 i7
  obtain ⟨m1, rfl, m3⟩ := (i2.mem l v).1 hm
  have hRnd : R.Nodup := by rw [sub]; exact hnd.filter _
  have hRsub : ∀ e ∈ R, e ∈ examples := fun e h => by rw [sub] at h; exact (List.mem_filter.1 h).1
  have hSS : (S.flatten ++ members labels R l).Nodup ∧ (∀ e ∈ S.flatten ++ members labels R l, e ∈ examples) ∧
      (∀ e ∈ S.flatten ++ members labels R l, ∃ l < numLabels, labels.relevant e l = true) := by
    have hsl : (S.flatten ++ members labels R l).Sublist (S.flatten ++ R) := List.Sublist.append_left (List.filter_sublist ..) _
    refine ⟨(i8.nodup_iff.2 hnd).sublist hsl, fun e h => i8.mem_iff.1 (hsl.subset h), fun e h => ?_⟩
    rcases List.mem_append.1 h with h | h
    · exact i9 e h
    · exact ⟨l, m1, (List.mem_filter.1 h).2⟩
  have hpos : 0 < sorted.length := List.length_pos_of_mem hm
  unfold labelStep
  simp only
  rw [push_ok (by rw [offsets_length]; omega) (offsets_length S).symm, ok_bind, hc.column l m1, ok_bind]
  obtain ⟨A, a1, a2⟩ := assign_ok (sorted := sorted.erase (l, cnt labels R l)) (ptr := buf (offsets S ++ [S.flatten.length]) (numLabels + 1)) (numCols := S.length + 1)
    (D := S.flatten) (size := (columns labels numLabels examples).flatten.length) (column := members labels examples l) hv hRnd
    (Nat.lt_of_le_of_lt (by rw [← i8.length_eq]; simp) h32) (hnd.filter _) (fun e h => he e (List.mem_filter.1 h).1)
    (by rw [members_filter sub]; exact size_bound hSS.1 hSS.2.1 hSS.2.2)
  rw [filter_not_mem_members sub, members_filter sub] at a1
  rw [filter_not_mem_members sub] at a2
  rw [a1, ok_bind]
  simp only
  obtain ⟨S', r1, r2, r3⟩ := reorder_ok (label := l) a2 (ho A) i2 (by
    unfold cnt members
    rw [List.filter_filter, List.filter_eq_nil_iff.2 (fun e _ => by simp)]
    rfl) hm
  rw [r1, ok_bind]
  refine ⟨_, rfl, ⟨?_, rfl, r2, rfl, ?_, ?_, ?_, ?_, ?_, ?_, ?_⟩, r3⟩
  · conv_lhs => rw [sub]
    rw [List.filter_filter]
    refine List.filter_congr (fun e _ => ?_)
    simp [List.mem_filter, Bool.and_comm]
  · rw [List.flatten_append, List.flatten_singleton]
  · rw [List.flatten_append, List.flatten_singleton]
  · rw [offsets_append]
  · simp
  · rw [List.flatten_append, List.flatten_singleton, List.append_assoc]
    exact ((members_perm labels R l).append_left _).trans i8
  · rw [List.flatten_append, List.flatten_singleton]
    exact hSS.2.2
  · simp only [List.length_append, List.length_singleton]
    omega

theorem labelLoop_ok {order : List (Nat × Nat) → List (Nat × Nat)} (ho : IsOrder order) (hv : labels.Valid numTotal numLabels) {examples : List Nat}
    (he : ∀ e ∈ examples, e < numTotal) (hnd : examples.Nodup) (h32 : examples.length < 2 ^ 32) {c : Csc} (hc : Copied labels numLabels examples c) :
    ∀ (fuel : Nat) {R : List Nat} {S : List (List Nat)} {s : State},
      Inv labels numTotal numLabels examples (columns labels numLabels examples).flatten.length R S s → s.sorted.length < fuel →
      ∃ s' T R', labelLoop order labels numLabels c fuel s = Run.done s' ∧
        Inv labels numTotal numLabels examples (columns labels numLabels examples).flatten.length R' (S ++ T) s' ∧
        (∀ l < numLabels, members labels R' l = []) ∧ ∀ F, Iterative labels numLabels R' F → Iterative labels numLabels R (T ++ F)
  | 0, _, _, _, _, h => absurd h (Nat.not_lt_zero _)
  | fuel + 1, R, S, s, hi, h => by
    unfold labelLoop
    cases hf : firstEntry s.sorted with
    | none =>
      simp only
      refine ⟨s, [], R, rfl, by rw [List.append_nil]; exact hi, fun l hl => ?_, fun F hF => hF⟩
      by_contra hne
      have := (hi.sorted.mem l (cnt labels R l)).2 ⟨hl, rfl, List.length_pos_of_ne_nil hne⟩
      rw [firstEntry_none hf] at this
      cases this
    | some entry =>
      obtain ⟨l, v⟩ := entry
      simp only
      obtain ⟨h1, h2⟩ := firstEntry_some hf
      obtain ⟨s', g1, g2, g3⟩ := labelStep_ok ho hv he hnd h32 hc hi h1
      obtain ⟨m1, rfl, m3⟩ := (hi.sorted.mem l v).1 h1
      obtain ⟨s'', T, R', k1, k2, k3, k4⟩ := labelLoop_ok ho hv he hnd h32 hc fuel g2 (by omega)
      rw [g1]
      refine ⟨s'', members labels R l :: T, R', k1, by simpa using k2, k3, fun F hF => ?_⟩
      refine Iterative.next R l (T ++ F) m1 (List.ne_nil_of_length_pos m3) (fun k hk hne => ?_) (k4 F hF)
      have := h2 (k, cnt labels R k) ((hi.sorted.mem _ _).2 ⟨hk, rfl, List.length_pos_of_ne_nil hne⟩)
      unfold before cnt at this
      unfold Rarer
      simp at this
      omega

/-! ### Remaining examples -/

theorem rest_ok {R D : List Nat} {cap : Nat} (hcap : (D ++ (List.range numTotal).filter (fun e => decide (e ∈ R))).length ≤ cap) :
    (List.range numTotal).foldlM (restStep (vec numTotal (fun e => decide (e ∈ R)))) ⟨buf D cap, D.length⟩ =
      .ok ⟨buf (D ++ (List.range numTotal).filter (fun e => decide (e ∈ R))) cap, (D ++ (List.range numTotal).filter (fun e => decide (e ∈ R))).length⟩ := by
  obtain ⟨s, g1, rfl⟩ := foldlM_rule (f := restStep (vec numTotal (fun e => decide (e ∈ R)))) (fun p (s : Copy) =>
      s = ⟨buf (D ++ p.filter (fun e => decide (e ∈ R))) cap, (D ++ p.filter (fun e => decide (e ∈ R))).length⟩) (List.range numTotal) []
    ⟨buf D cap, D.length⟩ (by simp) (by
      rintro p e q s hpq rfl
      rw [List.nil_append] at hpq
      have he : e < numTotal := List.mem_range.1 (by rw [hpq]; simp)
      unfold restStep
      simp only
      rw [readAt_of_getElem? (vec_get _ he), ok_bind]
      by_cases heR : e ∈ R
      · simp only [heR, decide_true]
        rw [hpq, List.filter_append, List.filter_cons, if_pos (by simpa using heR)] at hcap
        simp only [List.length_append, List.length_cons] at hcap
        rw [push_ok (by simp only [List.length_append]; omega) rfl, ok_bind]
        refine ⟨_, rfl, ?_⟩
        rw [List.filter_append, List.filter_singleton]
        simp [heR, Nat.add_assoc]
      · simp only [heR, decide_false]
        refine ⟨_, rfl, ?_⟩
        rw [List.filter_append, List.filter_singleton]
        simp [heR])
  exact g1

theorem concat_strata (S : List (List Nat)) : (Csc.mk (S.flatten.map some) ((offsets S ++ [S.flatten.length]).map some)).strata = .ok S := by
  unfold Csc.strata
  simp only [List.length_map, List.length_append, offsets_length, List.length_singleton, Nat.add_sub_cancel]
  exact mapM_range (fun i hi => concat_column hi rfl rfl)

theorem finish_eq {numRows r : Nat} {s : State} (h : sub32 numRows s.n = r) : finish numRows numTotal s = finishWith numTotal s r := by
  rw [← h]
  rfl

theorem finish_ok {examples R : List Nat} {S : List (List Nat)} {s : State} (he : ∀ e ∈ examples, e < numTotal) (hnd : examples.Nodup) (h32 : examples.length < 2 ^ 32)
    {size : Nat} (hsize : S.flatten.length ≤ size) (hi : Inv labels numTotal numLabels examples size R S s) (hR : ∀ l < numLabels, members labels R l = []) :
    ∃ c F, finish examples.length numTotal s = .ok c ∧ c.strata = .ok (S ++ F) ∧ Iterative labels numLabels R F := by
  obtain ⟨sub, i1, i2, i3, i4, i5, i6, i7, i8, i9, i10⟩ := hi
  have hlen := i8.length_eq
  rw [List.length_append] at hlen
  have hr : sub32 examples.length s.n = R.length := by
    rw [i5, RuleList.sub32_of_le (by omega) h32]
    omega
  have hoff : (offsets S).length ≤ numLabels + 1 := by rw [offsets_length]; omega
  have hRnd : R.Nodup := by rw [sub]; exact hnd.filter _
  have hRsub : ∀ e ∈ R, e ∈ examples := fun e h => by rw [sub] at h; exact (List.mem_filter.1 h).1
  rw [finish_eq hr]
  unfold finishWith
  rw [i3, i4, i5, i6, i7]
  clear hr h32
  by_cases h0 : R = []
  · subst h0
    simp only [List.length_nil, gt_iff_lt, Nat.lt_irrefl, decide_false]
    rw [realloc_buf hoff (by rw [offsets_length]; omega), push_ok (by rw [offsets_length]; omega) (offsets_length S).symm, ok_bind,
      realloc_buf hsize (Nat.le_refl _), buf_full]
    refine ⟨_, [], rfl, ?_, Iterative.done⟩
    rw [List.append_nil, show S.length + 1 = (offsets S ++ [S.flatten.length]).length by simp [offsets_length], buf_full]
    exact concat_strata S
  · have hp : ((List.range numTotal).filter (fun e => decide (e ∈ R))).Perm R := by
      rw [List.perm_ext_iff_of_nodup (List.nodup_range.filter _) hRnd]
      intro e
      simp only [List.mem_filter, List.mem_range, decide_eq_true_eq]
      exact ⟨fun h => h.2, fun h => ⟨he e (hRsub e h), h⟩⟩
    have hpos : R.length > 0 := List.length_pos_of_ne_nil h0
    simp only [hpos, decide_true]
    have hcap : (S.flatten ++ (List.range numTotal).filter (fun e => decide (e ∈ R))).length = S.flatten.length + R.length := by
      rw [List.length_append, hp.length_eq]
    rw [realloc_buf hoff (by rw [offsets_length]; omega), push_ok (by rw [offsets_length]; omega) (offsets_length S).symm, ok_bind,
      realloc_buf hsize (by omega), rest_ok (by omega), ok_bind]
    simp only
    rw [push_ok (by simp [offsets_length]) (by simp [offsets_length]), ok_bind]
    refine ⟨_, [(List.range numTotal).filter (fun e => decide (e ∈ R))], rfl, ?_, Iterative.rest _ _ h0 hR hp⟩
    have hfl : (S ++ [(List.range numTotal).filter (fun e => decide (e ∈ R))]).flatten = S.flatten ++ (List.range numTotal).filter (fun e => decide (e ∈ R)) := by
      rw [List.flatten_append, List.flatten_singleton]
    rw [← hcap, buf_full, ← offsets_append, ← hfl,
      show S.length + 2 = (offsets (S ++ [(List.range numTotal).filter (fun e => decide (e ∈ R))]) ++
        [(S ++ [(List.range numTotal).filter (fun e => decide (e ∈ R))]).flatten.length]).length by simp [offsets_length], buf_full]
    exact concat_strata _

/-! ### The constructor -/

theorem init_ok {examples : List Nat} {c : Csc} (hc : Copied labels numLabels examples c) : ∃ sorted,
    (List.range numLabels).foldlM (initStep c) (List.replicate numLabels 0, []) = .ok (vec numLabels (cnt labels examples), sorted) ∧
      Sorted numLabels (cnt labels examples) sorted := by
  obtain ⟨⟨counts, sorted⟩, g1, g2, g3, g4⟩ := foldlM_rule (f := initStep c) (fun p (s : List Nat × List (Nat × Nat)) =>
      s.1 = vec numLabels (fun l => if l < p.length then cnt labels examples l else 0) ∧ s.2.Nodup ∧
        ∀ l v, (l, v) ∈ s.2 ↔ l < p.length ∧ v = cnt labels examples l ∧ 0 < v) (List.range numLabels) [] (List.replicate numLabels 0, [])
    ⟨by simp [vec_const], by simp, fun l v => by simp⟩ (by
      rintro p l q ⟨counts, sorted⟩ hpq ⟨i1, i2, i3⟩
      simp only at i1 i2 i3
      subst i1
      rw [List.nil_append] at hpq
      obtain ⟨rfl, hlt⟩ := range_prefix hpq
      unfold initStep
      simp only
      rw [hc.column _ hlt, ok_bind, vec_write (g := fun l => if l < p.length + 1 then cnt labels examples l else 0) hlt (by simp [cnt]) (fun k _ hk => by
        by_cases h : k < p.length
        · rw [if_pos h, if_pos (by omega)]
        · rw [if_neg h, if_neg (by omega)]), ok_bind]
      refine ⟨_, rfl, by simp, ?_, fun k v => ?_⟩
      · simp only
        split
        · exact nodup_emplace i2
        · exact i2
      · have hm : (k, v) ∈ (if (members labels examples p.length).length > 0 then emplace sorted (p.length, (members labels examples p.length).length) else sorted) ↔
            (k, v) ∈ sorted ∨ (k = p.length ∧ v = cnt labels examples k ∧ 0 < v) := by
          unfold cnt
          split
          · rw [mem_emplace, Prod.mk.injEq]
            rename_i h0
            constructor
            · rintro (h | ⟨rfl, rfl⟩)
              · exact .inl h
              · exact .inr ⟨rfl, rfl, h0⟩
            · rintro (h | ⟨rfl, rfl, -⟩)
              · exact .inl h
              · exact .inr ⟨rfl, rfl⟩
          · rename_i h0
            refine ⟨.inl, fun h => h.elim id ?_⟩
            rintro ⟨rfl, rfl, h⟩
            exact absurd h h0
        simp only
        rw [hm, i3, List.length_append, List.length_singleton]
        constructor
        · rintro (⟨a, b, c⟩ | ⟨a, b, c⟩)
          · exact ⟨by omega, b, c⟩
          · exact ⟨by omega, b, c⟩
        · rintro ⟨a, b, c⟩
          by_cases hk : k < p.length
          · exact .inl ⟨hk, b, c⟩
          · exact .inr ⟨by omega, b, c⟩)
  simp only [List.nil_append, List.length_range] at g2 g3 g4
  refine ⟨sorted, ?_, g3, g4⟩
  rw [g1, g2, vec_congr (g := cnt labels examples) (fun l hl => by rw [if_pos hl])]

theorem mask_ok {examples : List Nat} (he : ∀ e ∈ examples, e < numTotal) :
    examples.foldlM (fun mask e => writeAt mask e true) (List.replicate numTotal false) = .ok (vec numTotal (fun e => decide (e ∈ examples))) := by
  obtain ⟨s, g1, rfl⟩ := foldlM_rule (f := fun mask e => writeAt mask e true) (fun p (s : List Bool) => s = vec numTotal (fun e => decide (e ∈ p))) examples []
    (List.replicate numTotal false) (by rw [vec_const]; rfl) (by
      rintro p e q s hpq rfl
      rw [List.nil_append] at hpq
      have h : e < numTotal := he e (by rw [hpq]; simp)
      rw [vec_write (g := fun x => decide (x ∈ p ++ [e])) h (by simp) (fun k _ hk => by simp [hk])]
      exact ⟨_, rfl, rfl⟩)
  exact g1

theorem stratify_ok {order : List (Nat × Nat) → List (Nat × Nat)} (ho : IsOrder order) (hv : labels.Valid numTotal numLabels) {examples : List Nat}
    (he : ∀ e ∈ examples, e < numTotal) (hnd : examples.Nodup) (h32 : examples.length < 2 ^ 32) {c : Csc} (hcopy : copyLabels labels numLabels examples = .ok c)
    (hc : Copied labels numLabels examples c) {fuel : Nat} (hf : numLabels < fuel) :
    ∃ m strata, stratify order labels numLabels numTotal examples fuel = Run.done m ∧ m.strata = .ok strata ∧ Iterative labels numLabels examples strata := by
  obtain ⟨sorted, g1, g2⟩ := init_ok hc
  have hlen : sorted.length ≤ numLabels := by
    have := (List.subperm_of_subset g2.keys (l₂ := List.range numLabels) (fun l hl => by
      obtain ⟨⟨a, b⟩, h1, rfl⟩ := List.mem_map.1 hl
      exact List.mem_range.2 ((g2.mem _ _).1 h1).1)).length_le
    simpa using this
  have hi : Inv labels numTotal numLabels examples (columns labels numLabels examples).flatten.length examples []
      ⟨⟨vec numLabels (cnt labels examples), []⟩, sorted, vec numTotal (fun e => decide (e ∈ examples)),
        List.replicate (columns labels numLabels examples).flatten.length none, 0, List.replicate (numLabels + 1) none, 0⟩ := by
    refine ⟨?_, rfl, g2, rfl, by simp [buf_nil], by simp, by simp [offsets, buf_nil], rfl, by simp, by simp, by simpa using hlen⟩
    rw [List.filter_eq_self.2 (fun e h => by simpa using h)]
  obtain ⟨s, T, R, k1, k2, k3, k4⟩ := labelLoop_ok ho hv he hnd h32 hc fuel hi (Nat.lt_of_le_of_lt hlen hf)
  rw [List.nil_append] at k2
  have hsize : T.flatten.length ≤ (columns labels numLabels examples).flatten.length :=
    size_bound ((k2.perm.nodup_iff.2 hnd).sublist (List.sublist_append_left ..)) (fun e h => k2.perm.mem_iff.1 (List.mem_append_left _ h)) k2.relevant
  obtain ⟨m, F, f1, f2, f3⟩ := finish_ok he hnd h32 hsize k2 k3
  refine ⟨m, T ++ F, ?_, f2, k4 F f3⟩
  unfold stratify
  rw [hcopy, Run.lift_ok, Run.done_bind, hc.size, Run.lift_ok, Run.done_bind, g1, Run.lift_ok, Run.done_bind, mask_ok he, Run.lift_ok, Run.done_bind]
  simp only
  rw [k1, Run.done_bind, f1, Run.lift_ok]

end MLRL.OutputStrata
