import Verif.Spec.SparseSet
import Mathlib.Data.Fintype.Card
import Mathlib.Data.List.Nodup

namespace MLRL.SparseSet

open Spec

variable {T : Type}

/-- The row represents a map. -/
structure Rep (n : Nat) (s : SparseSet T) (m : Nat → Option T) : Prop where
  len : s.indices.length = n
  cols : ∀ k c v, s.values[k]? = some (c, v) → c < n ∧ s.indices[c]? = some k ∧ m c = some v
  absent : ∀ c, c < n → m c = none → s.indices[c]? = some maxIndex
  present : ∀ c v, c < n → m c = some v → ∃ k, s.indices[c]? = some k ∧ s.values[k]? = some (c, v)

theorem nodup_lt_length {l : List Nat} {n : Nat} (h : l.Nodup) (hl : ∀ x ∈ l, x < n) : l.length ≤ n := by
  have := (List.subperm_of_subset h (l₂ := List.range n) (fun x hx => by simpa using hl x hx)).length_le
  simpa using this

theorem Rep.nodup {n : Nat} {s : SparseSet T} {m : Nat → Option T} (h : Rep n s m) : (s.values.map Prod.fst).Nodup := by
  rw [List.nodup_iff_getElem?_ne_getElem?]
  intro i j hij hj e
  have hj' : j < s.values.length := by simpa using hj
  have hi' : i < s.values.length := by omega
  rw [List.getElem?_map, List.getElem?_map, List.getElem?_eq_getElem hi', List.getElem?_eq_getElem hj'] at e
  simp only [Option.map_some, Option.some.injEq] at e
  have h1 : s.indices[s.values[i].1]? = some i := (h.cols i _ _ (List.getElem?_eq_getElem hi')).2.1
  have h2 : s.indices[s.values[j].1]? = some j := (h.cols j _ _ (List.getElem?_eq_getElem hj')).2.1
  rw [e, h2] at h1
  simp only [Option.some.injEq] at h1
  omega

theorem Rep.length_le {n : Nat} {s : SparseSet T} {m : Nat → Option T} (h : Rep n s m) : s.values.length ≤ n := by
  have := nodup_lt_length h.nodup (n := n) (by
    intro x hx
    obtain ⟨⟨c, v⟩, he, rfl⟩ := List.mem_map.1 hx
    obtain ⟨k, hk⟩ := List.mem_iff_getElem?.1 he
    exact (h.cols k c v hk).1)
  simpa using this

theorem Rep.length_lt {n : Nat} {s : SparseSet T} {m : Nat → Option T} (h : Rep n s m) {c : Nat} (hc : c < n)
    (hm : m c = none) : s.values.length < n := by
  have := nodup_lt_length (l := c :: s.values.map Prod.fst) (n := n) (by
    rw [List.nodup_cons]
    refine ⟨?_, h.nodup⟩
    intro hmem
    obtain ⟨⟨c', v⟩, he, e⟩ := List.mem_map.1 hmem
    simp only at e
    subst e
    obtain ⟨k, hk⟩ := List.mem_iff_getElem?.1 he
    have := (h.cols k c' v hk).2.2
    rw [hm] at this
    cases this) (by
    intro x hx
    rcases List.mem_cons.1 hx with rfl | hx
    · exact hc
    · obtain ⟨⟨c, v⟩, he, rfl⟩ := List.mem_map.1 hx
      obtain ⟨k, hk⟩ := List.mem_iff_getElem?.1 he
      exact (h.cols k c v hk).1)
  simp only [List.length_cons, List.length_map] at this
  omega

theorem rep_init (n : Nat) : Rep n (init n : SparseSet T) (fun _ => none) where
  len := by simp [init]
  cols := by simp [init]
  absent := by intro c hc _; simp [init, hc]
  present := by simp

theorem Rep.pos_ne_max {n : Nat} {s : SparseSet T} {m : Nat → Option T} (h : Rep n s m) (hn : n ≤ maxIndex) {k : Nat}
    {e : Nat × T} (hk : s.values[k]? = some e) : k ≠ maxIndex := by
  have := (List.getElem?_eq_some_iff.1 hk).1
  have := h.length_le
  omega

theorem Rep.get {n : Nat} {s : SparseSet T} {m : Nat → Option T} (h : Rep n s m) (hn : n ≤ maxIndex) {c : Nat} (hc : c < n) :
    s.get c = .ok ((m c).map (fun v => (c, v))) := by
  unfold SparseSet.get
  cases hm : m c with
  | none => rw [readAt_of_getElem? (h.absent c hc hm), ok_bind]; rfl
  | some v =>
    obtain ⟨k, h1, h2⟩ := h.present c v hc hm
    rw [readAt_of_getElem? h1, ok_bind, if_neg (h.pos_ne_max hn h2), readAt_of_getElem? h2, ok_bind]; rfl

theorem Rep.modify {n : Nat} {s : SparseSet T} {m : Nat → Option T} (h : Rep n s m) (hn : n ≤ maxIndex) {c : Nat}
    (hc : c < n) (d : T) (f : T → T) :
    ∃ s', s.modify c d f = .ok s' ∧ Rep n s' (fun c' => if c' = c then some (f ((m c).getD d)) else m c') := by
  unfold SparseSet.modify emplace
  have hlen := h.len
  cases hm : m c with
  | none =>
    have hlt := h.length_lt hc hm
    have hmod : s.values.length % 2 ^ 32 = s.values.length := Nat.mod_eq_of_lt (by unfold maxIndex at hn; omega)
    rw [readAt_of_getElem? (h.absent c hc hm), ok_bind, if_pos rfl, writeAt_of_lt (by omega), hmod]
    simp only [ok_bind, pure_eq_ok]
    rw [readAt_of_getElem? (by simp : (s.values ++ [(c, d)])[s.values.length]? = some (c, d)), ok_bind,
      writeAt_of_lt (by simp), ok_bind]
    refine ⟨_, rfl, ?_⟩
    simp only [Option.getD_none]
    rw [List.set_append_right _ _ (Nat.le_refl _), Nat.sub_self, List.set_cons_zero]
    constructor
    · simp [hlen]
    · intro k c' v hk
      simp only at hk ⊢
      rw [List.getElem?_append] at hk
      split at hk
      · obtain ⟨a, b, e⟩ := h.cols k c' v hk
        have hne : c ≠ c' := by rintro rfl; rw [hm] at e; cases e
        refine ⟨a, ?_, ?_⟩
        · rw [List.getElem?_set_ne hne]; exact b
        · rw [if_neg (Ne.symm hne)]; exact e
      · rename_i hge
        have hk0 : k - s.values.length = 0 := by
          have := (List.getElem?_eq_some_iff.1 hk).1; simpa using this
        rw [hk0] at hk
        simp only [List.getElem?_cons_zero, Option.some.injEq, Prod.mk.injEq] at hk
        obtain ⟨rfl, rfl⟩ := hk
        have : k = s.values.length := by omega
        refine ⟨hc, ?_, by simp⟩
        simp [hlen, hc, this]
    · intro c' hc' hm'
      simp only at hm' ⊢
      by_cases e : c' = c
      · simp [e] at hm'
      · rw [if_neg e] at hm'
        rw [List.getElem?_set_ne (Ne.symm e)]
        exact h.absent c' hc' hm'
    · intro c' v hc' hm'
      simp only at hm' ⊢
      by_cases e : c' = c
      · subst e
        simp only [if_true, Option.some.injEq] at hm'
        subst hm'
        exact ⟨s.values.length, by simp [hlen, hc], by simp⟩
      · rw [if_neg e] at hm'
        obtain ⟨k, h1, h2⟩ := h.present c' v hc' hm'
        refine ⟨k, by rw [List.getElem?_set_ne (Ne.symm e)]; exact h1, ?_⟩
        rw [List.getElem?_append_left (List.getElem?_eq_some_iff.1 h2).1]
        exact h2
  | some v0 =>
    obtain ⟨k0, g1, g2⟩ := h.present c v0 hc hm
    have hklt := (List.getElem?_eq_some_iff.1 g2).1
    rw [readAt_of_getElem? g1, ok_bind, if_neg (h.pos_ne_max hn g2)]
    simp only [ok_bind, pure_eq_ok]
    rw [readAt_of_getElem? g2, ok_bind, writeAt_of_lt hklt, ok_bind]
    refine ⟨_, rfl, ?_⟩
    simp only [Option.getD_some]
    constructor
    · exact hlen
    · intro k c' v hk
      simp only at hk ⊢
      by_cases e : k0 = k
      · subst e
        simp only [List.getElem?_set_self hklt, Option.some.injEq, Prod.mk.injEq] at hk
        obtain ⟨rfl, rfl⟩ := hk
        exact ⟨hc, g1, by simp⟩
      · rw [List.getElem?_set_ne e] at hk
        obtain ⟨a, b, e'⟩ := h.cols k c' v hk
        refine ⟨a, b, ?_⟩
        rw [if_neg]
        · exact e'
        · rintro rfl
          rw [g1] at b
          exact e (Option.some.inj b)
    · intro c' hc' hm'
      simp only at hm' ⊢
      by_cases e : c' = c
      · simp [e] at hm'
      · rw [if_neg e] at hm'
        exact h.absent c' hc' hm'
    · intro c' v hc' hm'
      simp only at hm' ⊢
      by_cases e : c' = c
      · subst e
        simp only [if_true, Option.some.injEq] at hm'
        subst hm'
        exact ⟨k0, g1, by simp [hklt]⟩
      · rw [if_neg e] at hm'
        obtain ⟨k, h1, h2⟩ := h.present c' v hc' hm'
        refine ⟨k, h1, ?_⟩
        rw [List.getElem?_set_ne]
        · exact h2
        · rintro rfl
          rw [g2] at h2
          simp only [Option.some.injEq, Prod.mk.injEq] at h2
          exact e h2.1.symm

theorem Rep.erase {n : Nat} {s : SparseSet T} {m : Nat → Option T} (h : Rep n s m) (hn : n ≤ maxIndex) {c : Nat}
    (hc : c < n) : ∃ s', s.erase c = .ok s' ∧ Rep n s' (fun c' => if c' = c then none else m c') := by
  unfold SparseSet.erase
  have hlen := h.len
  cases hm : m c with
  | none =>
    rw [readAt_of_getElem? (h.absent c hc hm), ok_bind, if_pos rfl]
    refine ⟨s, rfl, ?_⟩
    have : (fun c' => if c' = c then none else m c') = m := by
      funext c'
      by_cases e : c' = c
      · simp [e, hm]
      · simp [e]
    rw [this]; exact h
  | some v0 =>
    obtain ⟨k0, g1, g2⟩ := h.present c v0 hc hm
    have hklt := (List.getElem?_eq_some_iff.1 g2).1
    rw [readAt_of_getElem? g1, ok_bind, if_neg (h.pos_ne_max hn g2)]
    have hne : s.values ≠ [] := by intro e; rw [e] at hklt; simp at hklt
    obtain ⟨init, ⟨cl, vl⟩, hv⟩ : ∃ init last, s.values = init ++ [last] :=
      ⟨_, _, (List.dropLast_concat_getLast hne).symm⟩
    have hlast : s.values.getLast? = some (cl, vl) := by rw [hv]; simp
    rw [hlast]
    simp only
    have hkl : s.values[init.length]? = some (cl, vl) := by rw [hv]; simp
    obtain ⟨hcl, hil, hml⟩ := h.cols _ _ _ hkl
    unfold moveLast
    by_cases e : cl = c
    · -- the last entry is removed
      subst e
      have hk0 : k0 = init.length := by rw [g1] at hil; exact Option.some.inj hil
      rw [if_neg (by simp)]
      simp only [pure_eq_ok, ok_bind]
      rw [writeAt_of_lt (by omega), ok_bind]
      refine ⟨_, rfl, ?_⟩
      rw [hv, List.dropLast_concat]
      constructor
      · simp [hlen]
      · intro k c' v hk
        simp only at hk ⊢
        have hlt := (List.getElem?_eq_some_iff.1 hk).1
        have hk' : s.values[k]? = some (c', v) := by rw [hv, List.getElem?_append_left hlt]; exact hk
        obtain ⟨a, b, e'⟩ := h.cols k c' v hk'
        have hne' : c' ≠ cl := by
          rintro rfl
          rw [g1] at b
          have := Option.some.inj b
          omega
        exact ⟨a, by rw [List.getElem?_set_ne (Ne.symm hne')]; exact b, by rw [if_neg hne']; exact e'⟩
      · intro c' hc' hm'
        simp only at hm' ⊢
        by_cases e : c' = cl
        · subst e; simp [hlen, hc]
        · rw [if_neg e] at hm'
          rw [List.getElem?_set_ne (Ne.symm e)]; exact h.absent c' hc' hm'
      · intro c' v hc' hm'
        simp only at hm' ⊢
        by_cases e : c' = cl
        · simp [e] at hm'
        · rw [if_neg e] at hm'
          obtain ⟨k, h1, h2⟩ := h.present c' v hc' hm'
          refine ⟨k, by rw [List.getElem?_set_ne (Ne.symm e)]; exact h1, ?_⟩
          have hlt := (List.getElem?_eq_some_iff.1 h2).1
          rw [hv, List.length_append, List.length_singleton] at hlt
          have hkne : k ≠ init.length := by
            rintro rfl
            rw [hkl] at h2
            simp only [Option.some.injEq, Prod.mk.injEq] at h2
            exact e h2.1.symm
          rw [hv, List.getElem?_append_left (by omega)] at h2
          exact h2
    · rw [if_pos e, writeAt_of_lt hklt, ok_bind, writeAt_of_lt (by omega)]
      simp only [ok_bind, pure_eq_ok]
      rw [writeAt_of_lt (by rw [List.length_set]; omega), ok_bind]
      have hk0 : k0 ≠ init.length := by
        rintro rfl
        rw [hkl] at g2
        simp only [Option.some.injEq, Prod.mk.injEq] at g2
        exact e g2.1
      have hk0' : k0 < init.length := by
        rw [hv, List.length_append, List.length_singleton] at hklt
        omega
      refine ⟨_, rfl, ?_⟩
      rw [hv, List.set_append_left _ _ hk0', List.dropLast_concat]
      constructor
      · simp [hlen]
      · intro k c' v hk
        simp only at hk ⊢
        by_cases ek : k0 = k
        · subst ek
          rw [List.getElem?_set_self hk0'] at hk
          simp only [Option.some.injEq, Prod.mk.injEq] at hk
          obtain ⟨rfl, rfl⟩ := hk
          refine ⟨hcl, ?_, ?_⟩
          · rw [List.getElem?_set_ne (Ne.symm e), List.getElem?_set_self (by omega)]
          · rw [if_neg e]; exact hml
        · rw [List.getElem?_set_ne ek] at hk
          have hlt := (List.getElem?_eq_some_iff.1 hk).1
          have hk' : s.values[k]? = some (c', v) := by rw [hv, List.getElem?_append_left hlt]; exact hk
          obtain ⟨a, b, e'⟩ := h.cols k c' v hk'
          have hne1 : c ≠ c' := by
            rintro rfl
            rw [g1] at b
            exact ek (Option.some.inj b)
          have hne2 : cl ≠ c' := by
            rintro rfl
            rw [hil] at b
            have := Option.some.inj b
            omega
          refine ⟨a, ?_, by rw [if_neg (Ne.symm hne1)]; exact e'⟩
          rw [List.getElem?_set_ne hne1, List.getElem?_set_ne hne2]; exact b
      · intro c' hc' hm'
        simp only at hm' ⊢
        by_cases e1 : c' = c
        · subst e1; rw [List.getElem?_set_self (by rw [List.length_set]; omega)]
        · rw [if_neg e1] at hm'
          have hne2 : cl ≠ c' := by rintro rfl; rw [hml] at hm'; cases hm'
          rw [List.getElem?_set_ne (Ne.symm e1), List.getElem?_set_ne hne2]
          exact h.absent c' hc' hm'
      · intro c' v hc' hm'
        simp only at hm' ⊢
        by_cases e1 : c' = c
        · simp [e1] at hm'
        · rw [if_neg e1] at hm'
          by_cases e2 : c' = cl
          · subst e2
            rw [hml] at hm'
            have := Option.some.inj hm'
            subst this
            refine ⟨k0, ?_, by rw [List.getElem?_set_self hk0']⟩
            rw [List.getElem?_set_ne (Ne.symm e1), List.getElem?_set_self (by omega)]
          · obtain ⟨k, h1, h2⟩ := h.present c' v hc' hm'
            refine ⟨k, ?_, ?_⟩
            · rw [List.getElem?_set_ne (Ne.symm e1), List.getElem?_set_ne (Ne.symm e2)]; exact h1
            · have hlt := (List.getElem?_eq_some_iff.1 h2).1
              rw [hv, List.length_append, List.length_singleton] at hlt
              have hkne : k ≠ init.length := by
                rintro rfl
                rw [hkl] at h2
                simp only [Option.some.injEq, Prod.mk.injEq] at h2
                exact e2 h2.1.symm
              have hkne0 : k0 ≠ k := by
                rintro rfl
                rw [g2] at h2
                simp only [Option.some.injEq, Prod.mk.injEq] at h2
                exact e1 h2.1.symm
              rw [hv, List.getElem?_append_left (by omega)] at h2
              rw [List.getElem?_set_ne hkne0]
              exact h2

theorem clearLoop_spec (n : Nat) : ∀ (es : List (Nat × T)) (indices : List Nat), indices.length = n → (∀ e ∈ es, e.1 < n) →
    ∃ r, clearLoop es indices = .ok r ∧ r.length = n ∧
      ∀ c : Nat, r[c]? = if c ∈ es.map Prod.fst then some maxIndex else indices[c]? := by
  intro es
  induction es with
  | nil => intro indices h _; exact ⟨indices, rfl, h, by simp⟩
  | cons e es ih =>
    intro indices h he
    have hlt : e.1 < indices.length := by rw [h]; exact he e (by simp)
    obtain ⟨r, h1, h2, h3⟩ := ih (indices.set e.1 maxIndex) (by simpa using h) (fun x hx => he x (List.mem_cons_of_mem _ hx))
    refine ⟨r, ?_, h2, ?_⟩
    · unfold clearLoop
      rw [writeAt_of_lt hlt, ok_bind, h1]
    · intro c
      rw [h3 c]
      by_cases h1 : c ∈ es.map Prod.fst
      · rw [if_pos h1, if_pos (by rw [List.map_cons]; exact List.mem_cons_of_mem _ h1)]
      · rw [if_neg h1]
        by_cases h2 : e.1 = c
        · subst h2; simp [hlt]
        · have : c ∉ (e :: es).map Prod.fst := by
            rw [List.map_cons]; intro hm
            rcases List.mem_cons.1 hm with hm | hm
            · exact h2 hm.symm
            · exact h1 hm
          rw [if_neg this, List.getElem?_set_ne h2]

theorem Rep.clear {n : Nat} {s : SparseSet T} {m : Nat → Option T} (h : Rep n s m) :
    ∃ s', s.clear = .ok s' ∧ Rep n s' (fun _ => none) := by
  obtain ⟨r, h1, h2, h3⟩ := clearLoop_spec n s.values.reverse s.indices h.len (by
    rintro ⟨c, v⟩ he
    obtain ⟨k, hk⟩ := List.mem_iff_getElem?.1 (List.mem_reverse.1 he)
    exact (h.cols k c v hk).1)
  unfold SparseSet.clear
  rw [h1, ok_bind]
  refine ⟨_, rfl, h2, by simp, ?_, by simp⟩
  intro c hc _
  show r[c]? = some maxIndex
  rw [h3 c]
  by_cases hmem : c ∈ s.values.reverse.map Prod.fst
  · rw [if_pos hmem]
  · rw [if_neg hmem]
    apply h.absent c hc
    cases hm : m c with
    | none => rfl
    | some v =>
      obtain ⟨k, _, g2⟩ := h.present c v hc hm
      exact absurd (by
        rw [List.map_reverse, List.mem_reverse]
        exact List.mem_map.2 ⟨(c, v), List.mem_of_getElem? g2, rfl⟩) hmem

theorem Rep.apply {n : Nat} {s : SparseSet T} {m : Nat → Option T} (h : Rep n s m) (hn : n ≤ maxIndex) (op : Op T)
    (hv : Valid n op) : ∃ s', s.apply op = .ok s' ∧ Rep n s' (Spec.apply m op) := by
  cases op with
  | modify index d f => exact h.modify hn hv d f
  | erase index => exact h.erase hn hv
  | clear => exact h.clear

end MLRL.SparseSet
