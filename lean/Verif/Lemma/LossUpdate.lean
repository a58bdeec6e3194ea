import Verif.Model.LossUpdate
import Verif.Props.Iterators
import Verif.Lemma.SparseSet
import Mathlib.Algebra.BigOperators.Group.Finset.Basic
import Mathlib.Tactic.Ring
import Mathlib.Tactic.FieldSimp
import Mathlib.Data.List.Sort

/-!
# Lemmas about updates of statistics and evaluation measures
-/

set_option linter.unusedSectionVars false

namespace MLRL.LossUpdate

open RuleEval Iterators Iterators.Spec Finset

variable {K T S V : Type}

/-! ### Dense matrices -/

theorem updateComplete_ok {update : T → K → Stat K} {scores : List K} {fwd : Forward S T} {it : S} {st : List (Stat K)} {n : Nat}
    {y : Nat → T} {s : Nat → K} (hn : n ≤ st.length) (hs : ∀ c < n, scores[c]? = some (s c))
    (hy : ∀ c < n, fwd.deref (iterate fwd.next c it) = .ok (y c)) :
    ∃ st', updateComplete update scores fwd it st n = .ok st' ∧ st'.length = st.length ∧
      ∀ c, st'[c]? = if c < n then some (update (y c) (s c)) else st[c]? := by
  unfold updateComplete
  obtain ⟨r, h1, h2, h3, h4⟩ := loop_rule (body := fun i (r : S × List (Stat K)) => do
      let groundTruth ← fwd.deref r.1
      let predictedScore ← readAt scores i
      let statistics ← writeAt r.2 i (update groundTruth predictedScore)
      return (fwd.next r.1, statistics))
    (fun i r => r.1 = iterate fwd.next i it ∧ r.2.length = st.length ∧ ∀ c, r.2[c]? = if c < i then some (update (y c) (s c)) else st[c]?)
    n (it, st) ⟨rfl, rfl, by simp⟩ (by
    rintro i ⟨a, b⟩ hi ⟨g1, g2, g3⟩
    simp only at g1 g2 g3
    subst g1
    refine ⟨(iterate fwd.next (i + 1) it, b.set i (update (y i) (s i))), ?_, rfl, by simpa using g2, fun c => ?_⟩
    · rw [hy i hi, ok_bind, readAt_of_getElem? (hs i hi), ok_bind]
      simp only
      rw [writeAt_of_lt (by omega), ok_bind]
      rfl
    · simp only
      by_cases e : i = c
      · subst e
        rw [List.getElem?_set_self (by omega), if_pos (by omega)]
      · rw [List.getElem?_set_ne e, g3]
        split_ifs <;> first | rfl | omega)
  exact ⟨r.2, by rw [h1]; rfl, h3, h4⟩

theorem mem_take_succ {l : List Nat} {i x : Nat} (h : l[i]? = some x) (c : Nat) : c ∈ l.take (i + 1) ↔ c ∈ l.take i ∨ c = x := by
  rw [List.take_add_one, h]
  simp

/-- Writing the values of a function to some positions. -/
theorem getElem?_set_take {A : Type} {b st : List A} {f : Nat → A} {l : List Nat} {i x : Nat} (h : l[i]? = some x) (hx : x < b.length)
    (g : ∀ c, b[c]? = if c ∈ l.take i then some (f c) else st[c]?) (c : Nat) :
    (b.set x (f x))[c]? = if c ∈ l.take (i + 1) then some (f c) else st[c]? := by
  have hm := mem_take_succ h c
  by_cases e : x = c
  · subst e
    rw [List.getElem?_set_self hx, if_pos (hm.2 (Or.inr rfl))]
  · rw [List.getElem?_set_ne e, g]
    by_cases h' : c ∈ l.take i
    · rw [if_pos h', if_pos (hm.2 (Or.inl h'))]
    · rw [if_neg h', if_neg (fun hh => (hm.1 hh).elim h' (fun hc => e hc.symm))]

theorem updatePartial_ok {update : T → K → Stat K} {scores : List K} {truth : List T} {indices : List Nat} {st : List (Stat K)}
    {y : Nat → T} {s : Nat → K} (hi : ∀ c ∈ indices, c < st.length) (hs : ∀ c < st.length, scores[c]? = some (s c))
    (hy : ∀ c < st.length, truth[c]? = some (y c)) :
    ∃ st', updatePartial update scores truth indices st = .ok st' ∧ st'.length = st.length ∧
      ∀ c, st'[c]? = if c ∈ indices then some (update (y c) (s c)) else st[c]? := by
  unfold updatePartial
  obtain ⟨r, h1, h2, h3⟩ := loop_rule (body := fun i statistics => do
      let index ← readAt indices i
      let groundTruth ← readAt truth index
      let predictedScore ← readAt scores index
      writeAt statistics index (update groundTruth predictedScore))
    (fun i r => r.length = st.length ∧ ∀ c, r[c]? = if c ∈ indices.take i then some (update (y c) (s c)) else st[c]?)
    indices.length st ⟨rfl, by simp⟩ (by
    rintro i b hil ⟨g2, g3⟩
    have hx := List.getElem?_eq_getElem hil
    have hlt : indices[i] < st.length := hi _ (List.getElem_mem hil)
    refine ⟨b.set indices[i] (update (y indices[i]) (s indices[i])), ?_, by simpa using g2, ?_⟩
    · rw [readAt_of_lt hil, ok_bind, readAt_of_getElem? (hy _ hlt), ok_bind, readAt_of_getElem? (hs _ hlt), ok_bind,
        writeAt_of_lt (by omega)]
    · exact getElem?_set_take (f := fun c => update (y c) (s c)) hx (by omega) g3)
  refine ⟨r, h1, h2, ?_⟩
  rw [List.take_length] at h3
  exact h3

theorem takeWhile_spec {A : Type} (q : A → Bool) (d : List A) : (∀ k < (d.takeWhile q).length, ∀ v, d[k]? = some v → q v = true) ∧
    ∀ v, d[(d.takeWhile q).length]? = some v → q v = false := by
  induction d with
  | nil => simp
  | cons a d ih =>
    by_cases h : q a = true
    · rw [List.takeWhile_cons_of_pos h]
      refine ⟨fun k hk v hv => ?_, fun v hv => ?_⟩
      · cases k with
        | zero =>
          simp only [List.getElem?_cons_zero, Option.some.injEq] at hv
          exact hv ▸ h
        | succ k =>
          simp only [List.length_cons] at hk
          exact ih.1 k (by omega) v (by simpa using hv)
      · exact ih.2 v (by simpa using hv)
    · rw [List.takeWhile_cons_of_neg h]
      refine ⟨by simp, fun v hv => ?_⟩
      simp only [List.length_nil, List.getElem?_cons_zero, Option.some.injEq] at hv
      subst hv
      simpa using h

theorem lowerBound_spec {l : List Nat} {p x : Nat} (hs : l.Pairwise (· < ·)) (hp : ∀ k < p, ∀ v, l[k]? = some v → v < x) :
    (l[lowerBound l p x]? = some x ↔ x ∈ l) ∧ ∀ k < lowerBound l p x, ∀ v, l[k]? = some v → v < x := by
  obtain ⟨h1, h2⟩ := takeWhile_spec (fun i => decide (i < x)) (l.drop p)
  have hbefore : ∀ k < lowerBound l p x, ∀ v, l[k]? = some v → v < x := by
    intro k hk v hv
    by_cases hkp : k < p
    · exact hp k hkp v hv
    · have := h1 (k - p) (by unfold lowerBound at hk; omega) v (by
        rw [List.getElem?_drop, show p + (k - p) = k by omega]
        exact hv)
      simpa using this
  refine ⟨⟨fun h => List.mem_of_getElem? h, fun h => ?_⟩, hbefore⟩
  obtain ⟨k, hk⟩ := List.mem_iff_getElem?.1 h
  have hge : lowerBound l p x ≤ k := by
    by_contra hlt
    have := hbefore k (by omega) x hk
    omega
  rcases Nat.lt_or_eq_of_le hge with hlt | heq
  · have hkl := (List.getElem?_eq_some_iff.1 hk).1
    have hx := (List.getElem?_eq_some_iff.1 hk).2
    have hlb : lowerBound l p x < l.length := by omega
    have := h2 l[lowerBound l p x] (by
      rw [List.getElem?_drop]
      exact List.getElem?_eq_getElem hlb)
    have h3 : x ≤ l[lowerBound l p x] := by simpa using this
    have h4 := List.pairwise_iff_getElem.1 hs _ _ hlb hkl hlt
    omega
  · rw [heq]
    exact hk

/-- The loop over increasing indices with a running binary search. -/
theorem running_lowerBound {B : Type} {l indices : List Nat} (hl : l.Pairwise (· < ·)) (hi : indices.Pairwise (· < ·))
    {body : Nat → Nat → B → Res B} (P : Nat → B → Prop) {b : B} (h0 : P 0 b)
    (step : ∀ i b x, indices[i]? = some x → P i b → ∃ b', body x (if x ∈ l then 1 else 0) b = .ok b' ∧ P (i + 1) b')
    {body' : Nat → Nat × B → Res (Nat × B)}
    (hbody : ∀ i st x, indices[i]? = some x → (l[lowerBound l st.1 x]? = some x ↔ x ∈ l) →
      ∀ b', body x (if x ∈ l then 1 else 0) st.2 = .ok b' → body' i st = .ok (lowerBound l st.1 x, b')) :
    ∃ r, loop indices.length body' (0, b) = .ok r ∧ P indices.length r.2 := by
  obtain ⟨r, h1, h2, h3⟩ := loop_rule (body := body')
    (fun i st => P i st.2 ∧ ∀ x, indices[i]? = some x → ∀ k < st.1, ∀ v, l[k]? = some v → v < x) indices.length (0, b)
    ⟨h0, by simp⟩ (by
    rintro i ⟨p, b⟩ hil ⟨g1, g2⟩
    have hx := List.getElem?_eq_getElem hil
    obtain ⟨e1, e2⟩ := lowerBound_spec hl (g2 _ hx)
    obtain ⟨b', k1, k2⟩ := step i b _ hx g1
    refine ⟨_, hbody i (p, b) _ hx e1 b' k1, k2, fun x' hx' k hk v hv => ?_⟩
    have h5 := e2 k hk v hv
    have hl' := (List.getElem?_eq_some_iff.1 hx').1
    have h6 := List.pairwise_iff_getElem.1 hi i (i + 1) hil hl' (by omega)
    rw [(List.getElem?_eq_some_iff.1 hx').2] at h6
    omega)
  exact ⟨r, h1, h2⟩

theorem updatePartialCsr_ok {update : Bool → K → Stat K} {scores : List K} {labels indices : List Nat} {st : List (Stat K)} {s : Nat → K}
    (hi : ∀ c ∈ indices, c < st.length) (hs : ∀ c < st.length, scores[c]? = some (s c)) (hl : labels.Pairwise (· < ·))
    (hsorted : indices.Pairwise (· < ·)) :
    ∃ st', updatePartialCsr update scores labels indices st = .ok st' ∧ st'.length = st.length ∧
      ∀ c, st'[c]? = if c ∈ indices then some (update (decide (c ∈ labels)) (s c)) else st[c]? := by
  unfold updatePartialCsr
  obtain ⟨r, h1, h2, h3⟩ := running_lowerBound hl hsorted
    (body := fun x _ b => writeAt b x (update (decide (x ∈ labels)) (s x)))
    (fun i r => r.length = st.length ∧ ∀ c, r[c]? = if c ∈ indices.take i then some (update (decide (c ∈ labels)) (s c)) else st[c]?)
    (b := st) ⟨rfl, by simp⟩ (by
      rintro i b x hx ⟨g1, g2⟩
      have hlt := hi x (List.mem_of_getElem? hx)
      exact ⟨_, writeAt_of_lt (by omega) _, by simpa using g1,
        getElem?_set_take (f := fun c => update (decide (c ∈ labels)) (s c)) hx (by omega) g2⟩)
    (body' := fun i (s : Nat × List (Stat K)) => do
      let index ← readAt indices i
      let position := lowerBound labels s.1 index
      let trueLabel := decide (labels[position]? = some index)
      let predictedScore ← readAt scores index
      let statistics ← writeAt s.2 index (update trueLabel predictedScore)
      return (position, statistics)) (by
      intro i p x hx he b' hb
      have hlt := hi x (List.mem_of_getElem? hx)
      rw [readAt_of_getElem? hx, ok_bind]
      simp only [he]
      rw [readAt_of_getElem? (hs _ hlt), ok_bind, hb]
      rfl)
  rw [List.take_length] at h3
  exact ⟨r.2, by rw [h1]; rfl, h2, h3⟩

theorem valueAt_of_position [Zero T] {truth : List (Nat × T)} (ht : (truth.map Prod.fst).Pairwise (· < ·)) {k x : Nat}
    (h : (truth.map Prod.fst)[k]? = some x) : (truth.map Prod.snd)[k]? = some (valueAt truth 0 x) := by
  rw [List.getElem?_map] at h ⊢
  cases he : truth[k]? with
  | none => rw [he] at h; cases h
  | some e =>
    rw [he] at h
    simp only [Option.map_some, Option.some.injEq] at h ⊢
    unfold valueAt
    have hmem := List.mem_of_getElem? he
    cases hf : truth.find? (fun e => decide (e.1 = x)) with
    | none =>
      have := List.find?_eq_none.1 hf e hmem
      simp [h] at this
    | some e' =>
      have h1 := List.find?_some hf
      simp only [decide_eq_true_eq] at h1
      have h2 := List.mem_of_find?_eq_some hf
      have hnd : (truth.map Prod.fst).Nodup := ht.imp (fun h => by omega)
      have := List.inj_on_of_nodup_map hnd hmem h2 (by rw [h, h1])
      rw [this]

theorem valueAt_absent [Zero T] {truth : List (Nat × T)} {x : Nat} (h : x ∉ truth.map Prod.fst) : valueAt truth 0 x = 0 := by
  unfold valueAt
  have : truth.find? (fun e => decide (e.1 = x)) = none := by
    rw [List.find?_eq_none]
    intro e he
    simp only [decide_eq_true_eq]
    rintro rfl
    exact h (List.mem_map_of_mem he)
  rw [this]

theorem updatePartialRegressionCsr_ok [Zero T] {update : T → K → Stat K} {scores : List K} {truth : List (Nat × T)} {indices : List Nat}
    {st : List (Stat K)} {s : Nat → K} (hi : ∀ c ∈ indices, c < st.length) (hs : ∀ c < st.length, scores[c]? = some (s c))
    (ht : (truth.map Prod.fst).Pairwise (· < ·)) (hsorted : indices.Pairwise (· < ·)) :
    ∃ st', updatePartialRegressionCsr update scores truth indices st = .ok st' ∧ st'.length = st.length ∧
      ∀ c, st'[c]? = if c ∈ indices then some (update (valueAt truth 0 c) (s c)) else st[c]? := by
  unfold updatePartialRegressionCsr
  obtain ⟨r, h1, h2, h3⟩ := running_lowerBound ht hsorted
    (body := fun x _ b => writeAt b x (update (valueAt truth 0 x) (s x)))
    (fun i r => r.length = st.length ∧ ∀ c, r[c]? = if c ∈ indices.take i then some (update (valueAt truth 0 c) (s c)) else st[c]?)
    (b := st) ⟨rfl, by simp⟩ (by
      rintro i b x hx ⟨g1, g2⟩
      have hlt := hi x (List.mem_of_getElem? hx)
      exact ⟨_, writeAt_of_lt (by omega) _, by simpa using g1,
        getElem?_set_take (f := fun c => update (valueAt truth 0 c) (s c)) hx (by omega) g2⟩)
    (body' := fun i (s : Nat × List (Stat K)) => do
      let index ← readAt indices i
      let position := lowerBound (truth.map Prod.fst) s.1 index
      let groundTruth ← groundTruthAt truth position index
      let predictedScore ← readAt scores index
      let statistics ← writeAt s.2 index (update groundTruth predictedScore)
      return (position, statistics)) (by
      intro i p x hx he b' hb
      have hlt := hi x (List.mem_of_getElem? hx)
      have hv : groundTruthAt truth (lowerBound (truth.map Prod.fst) p.1 x) x = .ok (valueAt truth 0 x) := by
        unfold groundTruthAt
        split_ifs with hh
        · exact readAt_of_getElem? (valueAt_of_position ht hh)
        · rw [valueAt_absent (fun h => hh (he.2 h))]
      rw [readAt_of_getElem? hx, ok_bind]
      simp only
      rw [hv, ok_bind, readAt_of_getElem? (hs _ hlt), ok_bind, hb]
      rfl)
  rw [List.take_length] at h3
  exact ⟨r.2, by rw [h1]; rfl, h2, h3⟩

theorem evaluateInternally_ok [Field K] [CharZero K] {evaluate : T → K → K} {scores : List K} {fwd : Forward S T} {it : S} {n : Nat}
    {y : Nat → T} {s : Nat → K} (hs : ∀ c < n, scores[c]? = some (s c)) (hy : ∀ c < n, fwd.deref (iterate fwd.next c it) = .ok (y c)) :
    evaluateInternally evaluate scores fwd it n = .ok ((∑ c ∈ range n, evaluate (y c) (s c)) / (n : K)) := by
  unfold evaluateInternally
  obtain ⟨r, h1, h2, h3, h4⟩ := loop_rule (body := fun i (r : S × K) => do
      let predictedScore ← readAt scores i
      let groundTruth ← fwd.deref r.1
      let score := evaluate groundTruth predictedScore
      return (fwd.next r.1, Stopping.iterativeArithmeticMean (i + 1) score r.2))
    (fun i r => r.1 = iterate fwd.next i it ∧ r.2 * (i : K) = ∑ c ∈ range i, evaluate (y c) (s c) ∧ (i = 0 → r.2 = 0)) n (it, 0)
    ⟨rfl, by simp, by simp⟩ (by
    rintro i ⟨a, m⟩ hi ⟨g1, g2, g3⟩
    simp only at g1 g2 g3
    subst g1
    refine ⟨(iterate fwd.next (i + 1) it, Stopping.iterativeArithmeticMean (i + 1) (evaluate (y i) (s i)) m), ?_, rfl, ?_, by simp⟩
    · rw [readAt_of_getElem? (hs i hi), ok_bind, hy i hi, ok_bind]
      rfl
    · simp only
      rw [sum_range_succ, ← g2]
      unfold Stopping.iterativeArithmeticMean
      have : ((i : K) + 1) ≠ 0 := by exact_mod_cast Nat.succ_ne_zero i
      push_cast
      field_simp
      ring)
  rw [h1, ok_bind]
  refine congrArg Except.ok ?_
  rw [← h3]
  by_cases hn : n = 0
  · subst hn
    rw [h4 rfl]
    simp
  · have : (n : K) ≠ 0 := by exact_mod_cast hn
    field_simp

/-! ### Merging labels and scores -/

/-- The iterator visits the given indices. -/
def Represents (ops : IndexIterator S) : S → List Nat → Prop
  | it, [] => ops.current it = none
  | it, i :: l => ops.current it = some i ∧ ∃ it', ops.next it = .ok it' ∧ Represents ops it' l

theorem represents_csr (l : List Nat) : Represents csrIndices l l := by
  induction l with
  | nil => rfl
  | cons i l ih => exact ⟨rfl, l, rfl, ih⟩

theorem represents_nonZeroFrom (isZero : T → Bool) (row : List T) (i : Nat) :
    Represents (nonZeroIndices isZero) (NonZeroIndex.skip isZero row i) (nonZeroFrom isZero row i) := by
  induction row generalizing i with
  | nil => rfl
  | cons v row ih =>
    by_cases h : isZero v = true
    · simp only [NonZeroIndex.skip, nonZeroFrom, h, Bool.not_true, Bool.false_eq_true, if_false]
      exact ih (i + 1)
    · have h' : isZero v = false := by simpa using h
      simp only [NonZeroIndex.skip, nonZeroFrom, h', Bool.not_false, if_true]
      exact ⟨rfl, _, rfl, ih (i + 1)⟩

theorem represents_nonZero (isZero : T → Bool) (row : List T) :
    Represents (nonZeroIndices isZero) (NonZeroIndex.create isZero row) (nonZeroColumns isZero row) := by
  have := represents_nonZeroFrom isZero row 0
  rw [nonZeroFrom_eq] at this
  simpa [NonZeroIndex.create] using this

/-- The indices that are visited, together with the label and the score. -/
def merged [Zero K] : List Nat → List (Nat × K) → List (Nat × Bool × K)
  | [], [] => []
  | [], (i, x) :: s => (i, false, x) :: merged [] s
  | l :: ls, [] => (l, true, 0) :: merged ls []
  | l :: ls, (i, x) :: s =>
    if i < l then (i, false, x) :: merged (l :: ls) s
    else if l < i then (l, true, 0) :: merged ls ((i, x) :: s)
    else (l, true, x) :: merged ls s
termination_by l s => l.length + s.length

theorem fetchNext_ok [Zero K] (f : Bool → K → V) {ops : IndexIterator S} {it : S} {l : List Nat} {s : List (Nat × K)}
    (hr : Represents ops it l) (hl : ∀ i ∈ l, i < SparseSet.maxIndex) (hs : ∀ e ∈ s, e.1 < SparseSet.maxIndex) :
    (merged l s = [] ∧ fetchNext f ops it s = .ok none) ∨
    ∃ c b x it' l' s', merged l s = (c, b, x) :: merged l' s' ∧ fetchNext f ops it s = .ok (some (c, f b x, it', s')) ∧
      Represents ops it' l' ∧ (∀ i ∈ l', i ∈ l) ∧ ∀ e ∈ s', e ∈ s := by
  unfold fetchNext
  cases l with
  | nil =>
    have hc : ops.current it = none := hr
    rw [hc]
    cases s with
    | nil =>
      left
      exact ⟨by rw [merged], by simp⟩
    | cons e s =>
      right
      have := hs e (List.mem_cons_self)
      refine ⟨e.1, false, e.2, it, [], s, by rw [merged], ?_, hr, by simp, fun e' h => List.mem_cons_of_mem _ h⟩
      simp only
      rw [if_pos this]
  | cons i l =>
    obtain ⟨hc, it', hn, hr'⟩ := hr
    rw [hc]
    have hi := hl i (List.mem_cons_self)
    right
    cases s with
    | nil =>
      refine ⟨i, true, 0, it', l, [], by rw [merged], ?_, hr', fun _ h => List.mem_cons_of_mem _ h, by simp⟩
      simp only
      rw [if_neg (by omega), if_pos hi, hn]
      rfl
    | cons e s =>
      by_cases h1 : e.1 < i
      · refine ⟨e.1, false, e.2, it, i :: l, s, by rw [merged, if_pos h1], ?_, ⟨hc, it', hn, hr'⟩, fun _ h => h,
          fun e' h => List.mem_cons_of_mem _ h⟩
        simp only
        rw [if_pos h1]
      · by_cases h2 : i < e.1
        · refine ⟨i, true, 0, it', l, e :: s, by rw [merged, if_neg h1, if_pos h2], ?_, hr', fun _ h => List.mem_cons_of_mem _ h,
            fun _ h => h⟩
          simp only
          rw [if_neg h1, if_pos h2, hn]
          rfl
        · refine ⟨i, true, e.2, it', l, s, by rw [merged, if_neg h1, if_neg h2], ?_, hr', fun _ h => List.mem_cons_of_mem _ h,
            fun e' h => List.mem_cons_of_mem _ h⟩
          simp only
          rw [if_neg h1, if_neg h2, if_pos hi, hn]
          rfl

/-- The entries whose value is not zero. -/
def nonZero (f : Bool → K → V) (isZero : V → Bool) (entries : List (Nat × Bool × K)) : List (Nat × Bool × K) :=
  entries.filter (fun e => !isZero (f e.2.1 e.2.2))

theorem fetchNextNonZero_ok [Zero K] (f : Bool → K → V) (isZero : V → Bool) {ops : IndexIterator S} (fuel : Nat) :
    ∀ {it : S} {l : List Nat} {s : List (Nat × K)}, Represents ops it l → (∀ i ∈ l, i < SparseSet.maxIndex) →
    (∀ e ∈ s, e.1 < SparseSet.maxIndex) → (merged l s).length < fuel →
    (nonZero f isZero (merged l s) = [] ∧ fetchNextNonZero f isZero ops fuel it s = Run.done none) ∨
    ∃ c b x it' l' s', nonZero f isZero (merged l s) = (c, b, x) :: nonZero f isZero (merged l' s') ∧
      fetchNextNonZero f isZero ops fuel it s = Run.done (some (c, f b x, it', s')) ∧ (merged l' s').length < (merged l s).length ∧
      Represents ops it' l' ∧ (∀ i ∈ l', i ∈ l) ∧ ∀ e ∈ s', e ∈ s := by
  induction fuel with
  | zero =>
    intro it l s _ _ _ h
    omega
  | succ fuel ih =>
    intro it l s hr hl hs hf
    unfold fetchNextNonZero
    rcases fetchNext_ok f hr hl hs with ⟨h1, h2⟩ | ⟨c, b, x, it', l', s', h1, h2, h3, h4, h5⟩
    · left
      rw [h1, h2]
      exact ⟨rfl, rfl⟩
    · rw [h2, Run.lift_ok, Run.done_bind]
      simp only
      rw [h1] at hf
      simp only [List.length_cons] at hf
      by_cases hz : isZero (f b x) = true
      · rw [if_pos hz]
        have hnz : nonZero f isZero (merged l s) = nonZero f isZero (merged l' s') := by
          rw [h1]
          unfold nonZero
          rw [List.filter_cons_of_neg (by simp [hz])]
        rw [hnz, h1]
        rcases ih h3 (fun i hi => hl i (h4 i hi)) (fun e he => hs e (h5 e he)) (by omega) with
          ⟨k1, k2⟩ | ⟨c', b', x', it'', l'', s'', k1, k2, k3, k4, k5, k6⟩
        · left
          exact ⟨k1, k2⟩
        · right
          exact ⟨c', b', x', it'', l'', s'', k1, k2, by simp only [List.length_cons]; omega, k4, fun i hi => h4 i (k5 i hi),
            fun e he => h5 e (k6 e he)⟩
      · right
        rw [if_neg hz]
        refine ⟨c, b, x, it', l', s', ?_, rfl, by rw [h1]; simp, h3, h4, h5⟩
        rw [h1]
        unfold nonZero
        rw [List.filter_cons_of_pos (by simpa using hz)]

/-- The loop visits the entries in order. -/
def visit {B : Type} (f : Bool → K → V) (body : Nat → V → B → Res B) : List (Nat × Bool × K) → B → Res B
  | [], b => .ok b
  | (c, y, x) :: es, b => do
    let b ← body c (f y x) b
    visit f body es b

theorem whileNext_ok {B : Type} [Zero K] (f : Bool → K → V) (isZero : V → Bool) {ops : IndexIterator S} (body : Nat → V → B → Res B)
    (fuel : Nat) : ∀ {it : S} {l : List Nat} {s : List (Nat × K)} (b : B), Represents ops it l → (∀ i ∈ l, i < SparseSet.maxIndex) →
    (∀ e ∈ s, e.1 < SparseSet.maxIndex) → (merged l s).length < fuel → ∀ {b'}, visit f body (nonZero f isZero (merged l s)) b = .ok b' →
    whileNext f isZero ops body fuel it s b = Run.done b' := by
  induction fuel with
  | zero =>
    intro it l s b _ _ _ h
    omega
  | succ fuel ih =>
    intro it l s b hr hl hs hf b' hv
    unfold whileNext
    rcases fetchNextNonZero_ok f isZero (fuel + 1) hr hl hs hf with ⟨k1, k2⟩ | ⟨c', y', x', it'', l'', s'', k1, k2, k3, k4, k5, k6⟩
    · rw [k2, Run.done_bind]
      rw [k1] at hv
      simp only [visit, Except.ok.injEq] at hv
      rw [hv]
    · rw [k2, Run.done_bind]
      simp only
      rw [k1] at hv
      simp only [visit] at hv
      cases hb : body c' (f y' x') b with
      | error e =>
        rw [hb] at hv
        cases hv
      | ok b1 =>
        rw [hb, ok_bind] at hv
        rw [Run.lift_ok, Run.done_bind]
        exact ih b1 k4 (fun i hi => hl i (k5 i hi)) (fun e he => hs e (k6 e he)) (by omega) hv

theorem merged_length [Zero K] (l : List Nat) (s : List (Nat × K)) : (merged l s).length ≤ l.length + s.length := by
  induction l, s using merged.induct with
  | case1 => simp [merged]
  | case2 i x s ih =>
    rw [merged]
    simp only [List.length_cons] at ih ⊢
    omega
  | case3 l ls ih =>
    rw [merged]
    simp only [List.length_cons] at ih ⊢
    omega
  | case4 l ls i x s h ih =>
    rw [merged, if_pos h]
    simp only [List.length_cons] at ih ⊢
    omega
  | case5 l ls i x s h1 h2 ih =>
    rw [merged, if_neg h1, if_pos h2]
    simp only [List.length_cons] at ih ⊢
    omega
  | case6 l ls i x s h1 h2 ih =>
    rw [merged, if_neg h1, if_neg h2]
    simp only [List.length_cons] at ih ⊢
    omega

/-! ### Sorted rows -/

/-- Both rows are sorted. -/
def Sorted (l : List Nat) (s : List (Nat × K)) : Prop := l.Pairwise (· < ·) ∧ (s.map Prod.fst).Pairwise (· < ·)

theorem merged_keys [Zero K] (l : List Nat) (s : List (Nat × K)) : ∀ c, c ∈ (merged l s).map Prod.fst ↔ c ∈ l ∨ c ∈ s.map Prod.fst := by
  induction l, s using merged.induct with
  | case1 => simp [merged]
  | case2 i x s ih =>
    intro c
    rw [merged]
    simp only [List.map_cons, List.mem_cons, ih]
    simp
  | case3 l ls ih =>
    intro c
    rw [merged]
    simp only [List.map_cons, List.mem_cons, ih]
    tauto
  | case4 l ls i x s h ih =>
    intro c
    rw [merged, if_pos h]
    simp only [List.map_cons, List.mem_cons, ih]
    tauto
  | case5 l ls i x s h1 h2 ih =>
    intro c
    rw [merged, if_neg h1, if_pos h2]
    simp only [List.map_cons, List.mem_cons, ih]
    tauto
  | case6 l ls i x s h1 h2 ih =>
    intro c
    rw [merged, if_neg h1, if_neg h2]
    have : l = i := by omega
    subst this
    simp only [List.map_cons, List.mem_cons, ih]
    tauto

theorem valueAt_cons [Zero K] (i : Nat) (x : K) (s : List (Nat × K)) (c : Nat) :
    valueAt ((i, x) :: s) 0 c = if c = i then x else valueAt s 0 c := by
  unfold valueAt
  by_cases h : c = i
  · subst h
    simp
  · rw [List.find?_cons_of_neg (by simpa using fun h' => h h'.symm), if_neg h]

theorem merged_sorted [Zero K] (l : List Nat) (s : List (Nat × K)) (h : Sorted l s) :
    ((merged l s).map Prod.fst).Pairwise (· < ·) ∧ ∀ e ∈ merged l s, e.2 = (decide (e.1 ∈ l), valueAt s 0 e.1) := by
  induction l, s using merged.induct with
  | case1 => simp [merged]
  | case2 i x s ih =>
    obtain ⟨h1, h2⟩ := h
    rw [List.map_cons, List.pairwise_cons] at h2
    obtain ⟨i1, i2⟩ := ih ⟨h1, h2.2⟩
    have hlt : ∀ c ∈ (merged [] s).map Prod.fst, i < c := fun c hc => by
      rcases (merged_keys [] s c).1 hc with h' | h'
      · cases h'
      · exact h2.1 c h'
    rw [merged]
    refine ⟨by rw [List.map_cons, List.pairwise_cons]; exact ⟨hlt, i1⟩, fun e he => ?_⟩
    rcases List.mem_cons.1 he with rfl | he
    · simp [valueAt_cons]
    · have := hlt e.1 (List.mem_map_of_mem he)
      rw [i2 e he, valueAt_cons, if_neg (by omega)]
  | case3 l ls ih =>
    obtain ⟨h1, h2⟩ := h
    rw [List.pairwise_cons] at h1
    obtain ⟨i1, i2⟩ := ih ⟨h1.2, h2⟩
    have hlt : ∀ c ∈ (merged ls ([] : List (Nat × K))).map Prod.fst, l < c := fun c hc => by
      rcases (merged_keys ls [] c).1 hc with h' | h'
      · exact h1.1 c h'
      · cases h'
    rw [merged]
    refine ⟨by rw [List.map_cons, List.pairwise_cons]; exact ⟨hlt, i1⟩, fun e he => ?_⟩
    rcases List.mem_cons.1 he with rfl | he
    · simp [valueAt]
    · have := hlt e.1 (List.mem_map_of_mem he)
      rw [i2 e he]
      simp [show e.1 ≠ l by omega]
  | case4 l ls i x s h' ih =>
    obtain ⟨h1, h2⟩ := h
    rw [List.map_cons, List.pairwise_cons] at h2
    obtain ⟨i1, i2⟩ := ih ⟨h1, h2.2⟩
    have hl : ∀ c ∈ l :: ls, i < c := fun c hc => by
      rcases List.mem_cons.1 hc with rfl | hc
      · exact h'
      · have := (List.pairwise_cons.1 h1).1 c hc
        omega
    have hlt : ∀ c ∈ (merged (l :: ls) s).map Prod.fst, i < c := fun c hc => by
      rcases (merged_keys (l :: ls) s c).1 hc with h'' | h''
      · exact hl c h''
      · exact h2.1 c h''
    rw [merged, if_pos h']
    refine ⟨by rw [List.map_cons, List.pairwise_cons]; exact ⟨hlt, i1⟩, fun e he => ?_⟩
    rcases List.mem_cons.1 he with rfl | he
    · have : i ∉ l :: ls := fun hm => by have := hl i hm; omega
      simp only [valueAt_cons, if_true]
      rw [decide_eq_false this]
    · have := hlt e.1 (List.mem_map_of_mem he)
      rw [i2 e he, valueAt_cons, if_neg (by omega)]
  | case5 l ls i x s h1' h2' ih =>
    obtain ⟨h1, h2⟩ := h
    rw [List.pairwise_cons] at h1
    obtain ⟨i1, i2⟩ := ih ⟨h1.2, h2⟩
    have hs : ∀ c ∈ ((i, x) :: s).map Prod.fst, l < c := fun c hc => by
      rw [List.map_cons] at hc
      rcases List.mem_cons.1 hc with rfl | hc
      · exact h2'
      · rw [List.map_cons, List.pairwise_cons] at h2
        have := h2.1 c hc
        simp only at this
        omega
    have hlt : ∀ c ∈ (merged ls ((i, x) :: s)).map Prod.fst, l < c := fun c hc => by
      rcases (merged_keys ls _ c).1 hc with h'' | h''
      · exact h1.1 c h''
      · exact hs c h''
    rw [merged, if_neg h1', if_pos h2']
    refine ⟨by rw [List.map_cons, List.pairwise_cons]; exact ⟨hlt, i1⟩, fun e he => ?_⟩
    rcases List.mem_cons.1 he with rfl | he
    · have : l ∉ ((i, x) :: s).map Prod.fst := fun hm => by have := hs l hm; omega
      rw [valueAt_absent this]
      simp
    · have := hlt e.1 (List.mem_map_of_mem he)
      rw [i2 e he]
      simp [show e.1 ≠ l by omega]
  | case6 l ls i x s h1' h2' ih =>
    obtain ⟨h1, h2⟩ := h
    have hli : l = i := by omega
    subst hli
    rw [List.pairwise_cons] at h1
    rw [List.map_cons, List.pairwise_cons] at h2
    obtain ⟨i1, i2⟩ := ih ⟨h1.2, h2.2⟩
    have hlt : ∀ c ∈ (merged ls s).map Prod.fst, l < c := fun c hc => by
      rcases (merged_keys ls _ c).1 hc with h'' | h''
      · exact h1.1 c h''
      · exact h2.1 c h''
    rw [merged, if_neg h1', if_neg h2']
    refine ⟨by rw [List.map_cons, List.pairwise_cons]; exact ⟨hlt, i1⟩, fun e he => ?_⟩
    rcases List.mem_cons.1 he with rfl | he
    · simp [valueAt_cons]
    · have := hlt e.1 (List.mem_map_of_mem he)
      rw [i2 e he, valueAt_cons, if_neg (by omega)]
      simp [show e.1 ≠ l by omega]

theorem sorted_ext {l l' : List Nat} (h : l.Pairwise (· < ·)) (h' : l'.Pairwise (· < ·)) (he : ∀ x, x ∈ l ↔ x ∈ l') : l = l' := by
  have hp : l.Perm l' := (List.perm_ext_iff_of_nodup (h.imp (fun h => Nat.ne_of_lt h)) (h'.imp (fun h => Nat.ne_of_lt h))).2 he
  exact hp.eq_of_pairwise (fun a b _ _ h1 h2 => by omega) h h'

theorem merged_eq [Zero K] {n : Nat} {l : List Nat} {s : List (Nat × K)} (h : Sorted l s) (hl : ∀ i ∈ l, i < n) (hs : ∀ i ∈ s.map Prod.fst, i < n) :
    merged l s = ((List.range n).filter (fun c => decide (c ∈ l ∨ c ∈ s.map Prod.fst))).map (fun c => (c, decide (c ∈ l), valueAt s 0 c)) := by
  obtain ⟨h1, h2⟩ := merged_sorted l s h
  have hk : (merged l s).map Prod.fst = (List.range n).filter (fun c => decide (c ∈ l ∨ c ∈ s.map Prod.fst)) := by
    refine sorted_ext h1 (List.pairwise_lt_range.filter _) (fun c => ?_)
    rw [merged_keys, List.mem_filter, List.mem_range, decide_eq_true_eq]
    exact ⟨fun hc => ⟨hc.elim (hl c) (hs c), hc⟩, fun hc => hc.2⟩
  rw [← hk, List.map_map]
  conv_lhs => rw [← List.map_id (merged l s)]
  refine List.map_congr_left (fun e he => ?_)
  have := h2 e he
  simp only [id, Function.comp]
  rw [← this]

theorem rep_visit [Zero K] {n : Nat} (hn : n ≤ SparseSet.maxIndex) (update : Bool → K → Stat K) (es : List (Nat × Bool × K)) :
    ∀ {R : SparseSet (Stat K)} {m : Nat → Option (Stat K)}, SparseSet.Rep n R m → (es.map Prod.fst).Nodup → (∀ e ∈ es, e.1 < n) →
    ∃ R', visit update (fun index tuple row => put row index tuple) es R = .ok R' ∧
      SparseSet.Rep n R' (fun c => match es.find? (fun e => decide (e.1 = c)) with
        | some e => some (update e.2.1 e.2.2)
        | none => m c) := by
  induction es with
  | nil =>
    intro R m h _ _
    exact ⟨R, rfl, by simpa using h⟩
  | cons e es ih =>
    intro R m h hnd hlt
    obtain ⟨c, y, x⟩ := e
    rw [List.map_cons, List.nodup_cons] at hnd
    obtain ⟨R1, k1, k2⟩ := h.modify hn (hlt _ List.mem_cons_self) ⟨0, 0⟩ (fun _ => update y x)
    obtain ⟨R2, j1, j2⟩ := ih k2 hnd.2 (fun e he => hlt e (List.mem_cons_of_mem _ he))
    refine ⟨R2, ?_, ?_⟩
    · simp only [visit, put]
      simp only at k1
      rw [k1, ok_bind]
      exact j1
    · convert j2 using 1
      funext c'
      by_cases hc : c = c'
      · subst hc
        rw [List.find?_cons_of_pos (by simp)]
        have : es.find? (fun e => decide (e.1 = c)) = none := by
          rw [List.find?_eq_none]
          intro e he
          simp only [decide_eq_true_eq]
          rintro rfl
          exact hnd.1 (List.mem_map.2 ⟨e, he, rfl⟩)
        rw [this]
        simp
      · rw [List.find?_cons_of_neg (by simpa using hc)]
        cases es.find? (fun e => decide (e.1 = c')) with
        | none => simp [show c' ≠ c from fun h => hc h.symm]
        | some e => rfl

theorem visit_mean [Field K] [CharZero K] (evaluate : Bool → K → K) (es : List (Nat × Bool × K)) : ∀ (i : Nat) (mean : K),
    ∃ mean', visit evaluate (fun _ score (r : Nat × K) => .ok (r.1 + 1, Stopping.iterativeArithmeticMean (r.1 + 1) score r.2)) es (i, mean) =
      .ok (i + es.length, mean') ∧ mean' * ((i + es.length : Nat) : K) = mean * (i : K) + (es.map (fun e => evaluate e.2.1 e.2.2)).sum := by
  induction es with
  | nil =>
    intro i mean
    exact ⟨mean, rfl, by simp⟩
  | cons e es ih =>
    intro i mean
    obtain ⟨c, y, x⟩ := e
    obtain ⟨mean', h1, h2⟩ := ih (i + 1) (Stopping.iterativeArithmeticMean (i + 1) (evaluate y x) mean)
    refine ⟨mean', ?_, ?_⟩
    · simp only [visit]
      rw [ok_bind, h1]
      simp only [List.length_cons]
      rw [show i + 1 + es.length = i + (es.length + 1) by omega]
    · simp only [List.length_cons, List.map_cons, List.sum_cons]
      rw [show i + (es.length + 1) = i + 1 + es.length by omega, h2]
      unfold Stopping.iterativeArithmeticMean
      have : ((i : K) + 1) ≠ 0 := by exact_mod_cast Nat.succ_ne_zero i
      push_cast
      field_simp
      ring

theorem list_sum_filter_range {M : Type} [AddCommMonoid M] (n : Nat) (p : Nat → Bool) (g : Nat → M) :
    (((List.range n).filter p).map g).sum = ∑ c ∈ range n, if p c = true then g c else 0 := by
  induction n with
  | zero => simp
  | succ n ih =>
    rw [List.range_succ, List.filter_append, List.map_append, List.sum_append, ih, sum_range_succ]
    congr 1
    by_cases h : p n = true
    · simp [h]
    · simp [h]

end MLRL.LossUpdate
