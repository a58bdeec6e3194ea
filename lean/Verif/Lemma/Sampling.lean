import Verif.Model.Sampling
import Verif.Spec.Sampling

/-!
# Lemmas about sampling
-/

namespace MLRL.Sampling

variable {S : Type} {rng : Rng S} {P : S → Prop}

theorem drawNew_spec (hr : rng.InRange P) {total selected : List Nat} (hne : 0 < total.length) (hlt : total.length < 2 ^ 32)
    (fuel : Nat) (s : S) (hs : P s) :
    drawNew rng total selected fuel s = Run.unfinished ∨
      ∃ x s', drawNew rng total selected fuel s = Run.done (x, s') ∧ x ∈ total ∧ x ∉ selected ∧ P s' := by
  induction fuel generalizing s with
  | zero => exact Or.inl rfl
  | succ fuel ih =>
    obtain ⟨r, s', h1, -, h3, h4⟩ := hr 0 total.length s hs hne hlt
    unfold drawNew
    rw [h1, Run.lift_ok, Run.done_bind]
    simp only
    rw [readAt_of_lt h3, Run.lift_ok, Run.done_bind]
    by_cases hx : total[r] ∈ selected
    · rw [if_pos hx]
      exact ih s' h4
    · rw [if_neg hx]
      exact Or.inr ⟨_, _, rfl, List.getElem_mem h3, hx, h4⟩

theorem trackingLoop_spec (hr : rng.InRange P) {total : List Nat} (hlt : total.length < 2 ^ 32) (fuel k : Nat)
    (selected sample : List Nat) (s : S) (hs : P s) (hsel : ∀ x, x ∈ selected ↔ x ∈ sample) (hnd : sample.Nodup)
    (hsub : ∀ x ∈ sample, x ∈ total) (hk : 0 < k → 0 < total.length) :
    trackingLoop rng fuel total k selected sample s = Run.unfinished ∨
      ∃ l s', trackingLoop rng fuel total k selected sample s = Run.done (l, s') ∧
        Spec.Drawn total (sample.length + k) l ∧ P s' := by
  induction k generalizing selected sample s with
  | zero => exact Or.inr ⟨sample, s, rfl, ⟨rfl, hnd, hsub⟩, hs⟩
  | succ k ih =>
    unfold trackingLoop
    rcases drawNew_spec hr (selected := selected) (hk (by omega)) hlt fuel s hs with h | ⟨x, s', h, hx, hx', hs'⟩
    · rw [h]; exact Or.inl rfl
    · rw [h, Run.done_bind]
      simp only
      have hxs : x ∉ sample := fun hc => hx' ((hsel x).mpr hc)
      rcases ih (x :: selected) (sample ++ [x]) s' hs'
        (by intro y; simp only [List.mem_cons, List.mem_append, List.not_mem_nil, or_false, hsel y]; exact Or.comm)
        (by
          rw [List.nodup_append]
          refine ⟨hnd, by simp, ?_⟩
          intro a ha b hb
          rw [List.mem_singleton] at hb
          subst hb
          exact fun e => hxs (e ▸ ha))
        (by
          intro y hy
          rcases List.mem_append.mp hy with hy | hy
          · exact hsub y hy
          · rw [List.mem_singleton] at hy; subst hy; exact hx)
        (fun _ => hk (by omega)) with h2 | ⟨l, s'', h2, h3, h4⟩
      · exact Or.inl h2
      · refine Or.inr ⟨l, s'', h2, ?_, h4⟩
        have : (sample ++ [x]).length + k = sample.length + (k + 1) := by simp; omega
        rw [this] at h3
        exact h3

theorem viaTracking_spec (hr : rng.InRange P) {total : List Nat} (hlt : total.length < 2 ^ 32) (fuel k : Nat) (s : S) (hs : P s)
    (hk : k ≤ total.length) :
    viaTracking rng fuel total k s = Run.unfinished ∨
      ∃ l s', viaTracking rng fuel total k s = Run.done (l, s') ∧ Spec.Drawn total k l ∧ P s' := by
  have := trackingLoop_spec hr hlt fuel k [] [] s hs (by simp) (by simp) (by simp) (by omega)
  simpa [viaTracking] using this

theorem copy_loop {total : List Nat} (start count : Nat) (acc : List Nat) (h : start + count ≤ total.length) :
    loopFrom (fun i sample => do let x ← readAt total i; return sample ++ [x]) start count acc =
      .ok (acc ++ (total.drop start).take count) := by
  induction count generalizing start acc with
  | zero => simp
  | succ k ih =>
    rw [loopFrom_succ, readAt_of_lt (show start < total.length by omega)]
    show loopFrom _ (start + 1) k (acc ++ [total[start]]) = _
    rw [ih (start + 1) _ (by omega), List.drop_eq_getElem_cons (show start < total.length by omega), List.take_succ_cons,
      List.append_assoc]
    rfl

theorem copyFirst_eq {total : List Nat} {k : Nat} (h : k ≤ total.length) : copyFirst total k = .ok (total.take k) := by
  unfold copyFirst loop
  rw [copy_loop 0 k [] (by omega)]
  simp

theorem mem_take_succ {total : List Nat} {i : Nat} (h : i < total.length) {x : Nat} :
    x ∈ total.take (i + 1) ↔ x ∈ total.take i ∨ x = total[i] := by
  rw [List.take_succ_eq_append_getElem h, List.mem_append, List.mem_singleton]

theorem getElem_not_mem_take {total : List Nat} (hnd : total.Nodup) {i : Nat} (h : i < total.length) : total[i] ∉ total.take i := by
  intro hm
  obtain ⟨j, hj, hji⟩ := List.getElem_of_mem hm
  rw [List.getElem_take] at hji
  have hj' : j < i := by
    rw [List.length_take] at hj
    omega
  exact List.pairwise_iff_getElem.mp hnd j i (by omega) h hj' hji

theorem nodup_set {l : List Nat} (hnd : l.Nodup) {r x : Nat} (hx : x ∉ l) : (l.set r x).Nodup := by
  induction l generalizing r with
  | nil => simp
  | cons a l ih =>
    rw [List.nodup_cons] at hnd
    rw [List.mem_cons, not_or] at hx
    cases r with
    | zero =>
      rw [List.set_cons_zero, List.nodup_cons]
      exact ⟨hx.2, hnd.2⟩
    | succ r =>
      rw [List.set_cons_succ, List.nodup_cons]
      refine ⟨?_, ih hnd.2 hx.2⟩
      intro hm
      rcases List.mem_or_eq_of_mem_set hm with h | h
      · exact hnd.1 h
      · exact hx.1 h.symm

theorem viaReservoir_spec (hr : rng.InRange P) {total : List Nat} (hnd : total.Nodup) (hlt : total.length < 2 ^ 32) (k : Nat) (s : S)
    (hs : P s) (hk : k ≤ total.length) :
    ∃ l s', viaReservoir rng total k s = .ok (l, s') ∧ Spec.Drawn total k l ∧ P s' := by
  unfold viaReservoir
  rw [copyFirst_eq hk, ok_bind]
  obtain ⟨t, h1, h2⟩ := loopFrom_rule (body := reservoirStep rng total k)
    (fun i t => t.1.length = k ∧ t.1.Nodup ∧ (∀ x ∈ t.1, x ∈ total.take i) ∧ P t.2) k (total.length - k) (total.take k, s)
    ⟨by rw [List.length_take]; omega, hnd.sublist (List.take_sublist k total), fun x hx => hx, hs⟩ (by
      rintro i ⟨l, s⟩ hi1 hi2 ⟨h1, h2, h3, h4⟩
      simp only at h1 h2 h3 h4
      have hi : i < total.length := by omega
      obtain ⟨r, s', e1, -, e3, e4⟩ := hr 0 (i + 1) s h4 (by omega) (by omega)
      unfold reservoirStep
      simp only
      rw [e1, ok_bind]
      simp only
      by_cases hc : r < k
      · rw [if_pos hc, readAt_of_lt hi, ok_bind, writeAt_of_lt (show r < l.length by omega), ok_bind]
        refine ⟨_, rfl, by simpa using h1, ?_, ?_, e4⟩
        · exact nodup_set h2 (fun hm => getElem_not_mem_take hnd hi (h3 _ hm))
        · intro x hx
          rw [mem_take_succ hi]
          rcases List.mem_or_eq_of_mem_set hx with h | h
          · exact Or.inl (h3 x h)
          · exact Or.inr h
      · rw [if_neg hc]
        exact ⟨_, rfl, h1, h2, fun x hx => (mem_take_succ hi).mpr (Or.inl (h3 x hx)), e4⟩)
  refine ⟨t.1, t.2, h1, ⟨h2.1, h2.2.1, ?_⟩, h2.2.2.2⟩
  intro x hx
  exact List.mem_of_mem_take (h2.2.2.1 x hx)

theorem readBoth_eq {f g : List Nat} {i : Nat} (hi : i < (f ++ g).length) :
    readBoth f.length (f, g) i = .ok (f ++ g)[i] := by
  unfold readBoth
  split
  · next h => rw [readAt_of_lt h, List.getElem_append_left h]
  · next h =>
    rw [List.length_append] at hi
    rw [readAt_of_lt (show i - f.length < g.length by omega), List.getElem_append_right (by omega)]

theorem writeBoth_eq {f g : List Nat} {i x : Nat} (hi : i < (f ++ g).length) :
    ∃ f' g', writeBoth f.length (f, g) i x = .ok (f', g') ∧ f' ++ g' = (f ++ g).set i x ∧ f'.length = f.length ∧
      g'.length = g.length := by
  unfold writeBoth
  rw [List.length_append] at hi
  split
  · next h =>
    rw [writeAt_of_lt h]
    refine ⟨f.set i x, g, rfl, ?_, by simp, rfl⟩
    rw [List.set_append, if_pos h]
  · next h =>
    rw [writeAt_of_lt (show i - f.length < g.length by omega)]
    refine ⟨f, g.set (i - f.length) x, rfl, ?_, rfl, by simp⟩
    rw [List.set_append, if_neg h]

/-- Two arrays are permuted as if they were one. -/
theorem randomPermutation_spec (hr : rng.InRange P) (f g : List Nat) (hlt : (f ++ g).length < 2 ^ 32) (n : Nat)
    (hn : n ≤ (f ++ g).length) (s : S) (hs : P s) :
    ∃ f' g' s', randomPermutation rng (f, g) f.length (f ++ g).length n s = .ok ((f', g'), s') ∧
      (f' ++ g').Perm (f ++ g) ∧ f'.length = f.length ∧ g'.length = g.length ∧ P s' := by
  unfold randomPermutation
  obtain ⟨⟨⟨f', g'⟩, s'⟩, h1, h2⟩ := loop_rule (body := permutationStep rng f.length (f ++ g).length)
    (fun _ t => (t.1.1 ++ t.1.2).Perm (f ++ g) ∧ t.1.1.length = f.length ∧ t.1.2.length = g.length ∧ P t.2) n ((f, g), s)
    ⟨List.Perm.refl _, rfl, rfl, hs⟩ (by
      rintro i ⟨⟨f1, g1⟩, s1⟩ hi ⟨h1, h2, h3, h4⟩
      simp only at h1 h2 h3 h4
      have hlen : (f1 ++ g1).length = (f ++ g).length := h1.length_eq
      obtain ⟨r, s', e1, e2, e3, e4⟩ := hr i (f ++ g).length s1 h4 (by omega) hlt
      unfold permutationStep
      simp only
      rw [e1, ok_bind]
      simp only
      rw [← h2, readBoth_eq (by omega), ok_bind, readBoth_eq (by omega), ok_bind]
      obtain ⟨f2, g2, w1, w2, w3, w4⟩ := writeBoth_eq (f := f1) (g := g1) (i := r) (x := (f1 ++ g1)[i]) (by omega)
      have hlen2 : (f2 ++ g2).length = (f1 ++ g1).length := by rw [w2, List.length_set]
      obtain ⟨f3, g3, v1, v2, v3, v4⟩ := writeBoth_eq (f := f2) (g := g2) (i := i) (x := (f1 ++ g1)[r]) (by omega)
      rw [w1, ok_bind, ← w3, v1, ok_bind]
      refine ⟨_, rfl, ?_, by simp only; omega, by simp only; omega, e4⟩
      show (f3 ++ g3).Perm (f ++ g)
      rw [v2, w2]
      exact (List.set_set_perm (by omega) (by omega)).trans h1)
  exact ⟨f', g', s', h1, h2.1, h2.2.1, h2.2.2.1, h2.2.2.2⟩

theorem viaPermutation_spec (hr : rng.InRange P) {total : List Nat} (hnd : total.Nodup) (hlt : total.length < 2 ^ 32) (k : Nat)
    (s : S) (hs : P s) (hk : k ≤ total.length) :
    ∃ l s', viaPermutation rng total k s = .ok (l, s') ∧ Spec.Drawn total k l ∧ P s' := by
  unfold viaPermutation
  rw [copyFirst_eq hk, ok_bind, copy_loop k _ [] (by omega), ok_bind]
  have hdrop : [] ++ (total.drop k).take (total.length - k) = total.drop k := by
    rw [List.nil_append, List.take_of_length_le (by simp)]
  rw [hdrop]
  have hcat : total.take k ++ total.drop k = total := List.take_append_drop k total
  have hl : (total.take k).length = k := by rw [List.length_take]; omega
  obtain ⟨f', g', s', h1, h2, h3, h4, h5⟩ :=
    randomPermutation_spec hr (total.take k) (total.drop k) (by rw [hcat]; exact hlt) k (by rw [hcat]; exact hk) s hs
  rw [hcat, hl] at h1
  rw [hcat] at h2
  rw [h1, ok_bind]
  refine ⟨f', s', rfl, ⟨by omega, ?_, ?_⟩, h5⟩
  · exact (h2.nodup_iff.mpr hnd).sublist (List.sublist_append_left f' g')
  · intro x hx
    exact h2.subset (List.mem_append_left g' hx)

theorem ratio_lt_imp {n k : Nat} (h : ratio n k < 6 / 100) : 0 < n := by
  unfold ratio at h
  split at h
  · assumption
  · exact absurd h (by decide +kernel)

end MLRL.Sampling
