import Verif.Model.Partition
import Verif.Lemma.Weights
import Verif.Lemma.RuleList
import Mathlib.Algebra.Order.Floor.Semiring
import Mathlib.Tactic.Linarith
import Mathlib.Tactic.Positivity
import Mathlib.Tactic.FieldSimp

/-!
# Lemmas about the partitioning of examples and about stratified sampling
-/

namespace MLRL.Stratification

open RuleList (sub32_of_le)

variable {S T : Type} {rng : Rng S} {P : S → Prop}

theorem tiebreak_ok (hr : rng.InRange P) (a b : Nat) (s : S) (hs : P s) : ∃ up s', tiebreak rng a b s = .ok (up, s') ∧ P s' := by
  unfold tiebreak
  split
  · exact ⟨_, _, rfl, hs⟩
  · split
    · exact ⟨_, _, rfl, hs⟩
    · obtain ⟨r, s', h, -, -, hs'⟩ := hr 0 2 s hs (by omega) (by omega)
      rw [h, ok_bind]
      exact ⟨_, _, rfl, hs'⟩

theorem drawLoop_eq (hr : rng.InRange P) (emit : Nat → T → Res T) (count : Nat) :
    ∀ (i : Nat) (l : List Nat) (s : S), i + count ≤ l.length → l.length < 2 ^ 32 → P s →
      ∃ l' s', l'.Perm l ∧ l'.take i = l.take i ∧ P s' ∧
        ∀ out, loopFrom (drawStep rng emit l.length) i count (l, out, s) =
          (do let out ← ((l'.drop i).take count).foldlM (fun o x => emit x o) out; return (l', out, s')) := by
  induction count with
  | zero =>
    intro i l s _ _ hs
    exact ⟨l, s, List.Perm.refl _, rfl, hs, fun out => by simp; rfl⟩
  | succ c ih =>
    intro i l s hl hlt hs
    obtain ⟨r, s1, e1, e2, e3, e4⟩ := hr i l.length s hs (by omega) hlt
    have hi : i < l.length := by omega
    let l1 := (l.set r l[i]).set i l[r]
    have hlen : l1.length = l.length := by simp [l1]
    have hp : l1.Perm l := List.set_set_perm e3 hi
    obtain ⟨l', s', h1, h2, h3, h4⟩ := ih (i + 1) l1 s1 (by omega) (by omega) e4
    have htake : l1.take i = l.take i := by
      show ((l.set r l[i]).set i l[r]).take i = _
      rw [List.take_set_of_le (Nat.le_refl i), List.take_set_of_le e2]
    have hi1 : l1[i]? = some l[r] := by
      show ((l.set r l[i]).set i l[r])[i]? = _
      rw [List.getElem?_set_self (by simpa using hi)]
    have hl'len : l'.length = l.length := by rw [h1.length_eq, hlen]
    have hi' : l'[i]? = some l[r] := by
      rw [← hi1]
      have := congrArg (fun m => m[i]?) h2
      simpa [List.getElem?_take] using this
    refine ⟨l', s', h1.trans hp, ?_, h3, ?_⟩
    · have := congrArg (List.take i) h2
      rw [List.take_take, List.take_take, Nat.min_eq_left (by omega)] at this
      rw [this, htake]
    · intro out
      rw [loopFrom_succ]
      unfold drawStep
      simp only
      rw [e1, ok_bind]
      simp only
      rw [readAt_of_lt e3, ok_bind, readAt_of_lt hi, ok_bind, writeAt_of_lt e3, ok_bind, writeAt_of_lt (by simpa using hi), ok_bind]
      have hdrop : (l'.drop i).take (c + 1) = l[r] :: (l'.drop (i + 1)).take c := by
        have hi2 : i < l'.length := by omega
        rw [List.drop_eq_getElem_cons hi2, List.take_succ_cons]
        congr 1
        have := List.getElem?_eq_getElem hi2
        rw [this] at hi'
        exact Option.some.inj hi'
      rw [hdrop, List.foldlM_cons]
      cases he : emit l[r] out with
      | error e => rfl
      | ok o =>
        rw [ok_bind, ok_bind]
        show loopFrom (drawStep rng emit l.length) (i + 1) c (l1, o, s1) = _
        rw [← hlen, h4 o]

theorem restLoop_eq (emit : Nat → T → Res T) (l : List Nat) (count : Nat) :
    ∀ (i : Nat) (out : T), i + count ≤ l.length →
      loopFrom (restStep emit l) i count out = ((l.drop i).take count).foldlM (fun o x => emit x o) out := by
  induction count with
  | zero => intro i out _; simp; rfl
  | succ c ih =>
    intro i out h
    have hi : i < l.length := by omega
    rw [loopFrom_succ, List.drop_eq_getElem_cons hi, List.take_succ_cons, List.foldlM_cons]
    unfold restStep
    rw [readAt_of_lt hi, ok_bind]
    cases emit l[i] out with
    | error e => rfl
    | ok o =>
      rw [ok_bind, ok_bind]
      exact ih (i + 1) o (by omega)

/-- Drawing from a stratum: the stratum is permuted, the first `numSamples` examples are selected. -/
theorem drawStratum_eq (hr : rng.InRange P) (emit1 emit2 : Nat → T → Res T) (stratum : List Nat) (hlt : stratum.length < 2 ^ 32)
    (k : Nat) (hk : k ≤ stratum.length) (s : S) (hs : P s) :
    ∃ l s', l.Perm stratum ∧ P s' ∧ ∀ out, drawStratum rng emit1 emit2 stratum k out s =
      (do
        let out ← (l.take k).foldlM (fun o x => emit1 x o) out
        let out ← (l.drop k).foldlM (fun o x => emit2 x o) out
        return (l, out, s')) := by
  obtain ⟨l, s', h1, -, h3, h4⟩ := drawLoop_eq hr emit1 k 0 stratum s (by omega) hlt hs
  refine ⟨l, s', h1, h3, fun out => ?_⟩
  unfold drawStratum loop
  rw [h4 out, List.drop_zero]
  cases (l.take k).foldlM (fun o x => emit1 x o) out with
  | error e => rfl
  | ok o =>
    rw [ok_bind, ok_bind]
    show (loopFrom (restStep emit2 l) k (stratum.length - k) o >>= fun out => (pure (l, out, s') : Res _)) = _
    rw [restLoop_eq emit2 l _ k o (by rw [h1.length_eq]; omega), List.take_of_length_le (by
      rw [List.length_drop, h1.length_eq])]

theorem foldlM_push_first (xs : List Nat) (a : Arrays) (h : a.firstPos + xs.length ≤ a.first.length) :
    xs.foldlM (fun o x => Arrays.pushFirst x o) a =
      .ok { a with first := a.first.take a.firstPos ++ xs ++ a.first.drop (a.firstPos + xs.length),
                   firstPos := a.firstPos + xs.length } := by
  induction xs generalizing a with
  | nil =>
    simp only [List.foldlM_nil, List.append_nil, List.length_nil, Nat.add_zero, List.take_append_drop]
    rfl
  | cons x xs ih =>
    rw [List.length_cons] at h
    rw [List.foldlM_cons]
    have : Arrays.pushFirst x a = .ok { a with first := a.first.set a.firstPos x, firstPos := a.firstPos + 1 } := by
      unfold Arrays.pushFirst
      rw [writeAt_of_lt (by omega)]
      rfl
    rw [this, ok_bind, ih _ (by simp only [List.length_set]; omega)]
    simp only [List.length_cons]
    congr 2
    · rw [List.take_succ_eq_append_getElem (by simp only [List.length_set]; omega), List.take_set_of_le (Nat.le_refl _),
        List.getElem_set_self, List.drop_set_of_lt (by omega), show a.firstPos + 1 + xs.length = a.firstPos + (xs.length + 1) by omega]
      simp
    · omega

theorem foldlM_push_second (xs : List Nat) (a : Arrays) (h : a.secondPos + xs.length ≤ a.second.length) :
    xs.foldlM (fun o x => Arrays.pushSecond x o) a =
      .ok { a with second := a.second.take a.secondPos ++ xs ++ a.second.drop (a.secondPos + xs.length),
                   secondPos := a.secondPos + xs.length } := by
  induction xs generalizing a with
  | nil =>
    simp only [List.foldlM_nil, List.append_nil, List.length_nil, Nat.add_zero, List.take_append_drop]
    rfl
  | cons x xs ih =>
    rw [List.length_cons] at h
    rw [List.foldlM_cons]
    have : Arrays.pushSecond x a = .ok { a with second := a.second.set a.secondPos x, secondPos := a.secondPos + 1 } := by
      unfold Arrays.pushSecond
      rw [writeAt_of_lt (by omega)]
      rfl
    rw [this, ok_bind, ih _ (by simp only [List.length_set]; omega)]
    simp only [List.length_cons]
    congr 2
    · rw [List.take_succ_eq_append_getElem (by simp only [List.length_set]; omega), List.take_set_of_le (Nat.le_refl _),
        List.getElem_set_self, List.drop_set_of_lt (by omega), show a.secondPos + 1 + xs.length = a.secondPos + (xs.length + 1) by omega]
      simp
    · omega

theorem numSamples_le {q : Rat} (hq : q ≤ 1) (n : Nat) (up : Bool) :
    (if up then ⌈q * n⌉₊ else ⌊q * n⌋₊) ≤ n := by
  have hn : (0 : Rat) ≤ n := by positivity
  have hle : q * n ≤ n := by nlinarith
  have h1 : ⌈q * n⌉₊ ≤ n := Nat.ceil_le.mpr hle
  have h2 : ⌊q * n⌋₊ ≤ n := (Nat.floor_le_ceil _).trans h1
  cases up
  · simpa using h2
  · simpa using h1

theorem clampSamples_spec {numFirst numSecond numExamples k : Nat} (hk : k ≤ numExamples) (hlt : numExamples < 2 ^ 32)
    (htot : numExamples ≤ numFirst + numSecond) :
    clampSamples numFirst numSecond numExamples k ≤ numFirst ∧ clampSamples numFirst numSecond numExamples k ≤ numExamples ∧
      numExamples - clampSamples numFirst numSecond numExamples k ≤ numSecond := by
  unfold clampSamples
  rw [sub32_of_le hk hlt]
  split
  · omega
  · split
    · rw [sub32_of_le (by omega) hlt]
      omega
    · omega

/-- The part of the arrays that has been written so far. -/
structure Inv (numFirst0 numSecond0 : Nat) (done : List Nat) (remaining : Nat) (t : PartitionState S) : Prop where
  lenFirst : t.arrays.first.length = numFirst0
  lenSecond : t.arrays.second.length = numSecond0
  posFirst : t.arrays.firstPos + t.numFirst = numFirst0
  posSecond : t.arrays.secondPos + t.numSecond = numSecond0
  remains : t.numFirst + t.numSecond = remaining
  perm : (t.arrays.first.take t.arrays.firstPos ++ t.arrays.second.take t.arrays.secondPos).Perm done

theorem take_pushed {l xs : List Nat} {p : Nat} (h : p + xs.length ≤ l.length) :
    (l.take p ++ xs ++ l.drop (p + xs.length)).take (p + xs.length) = l.take p ++ xs := by
  rw [List.take_append_of_le_length (by simp; omega), List.take_of_length_le (by simp)]

theorem length_pushed {l xs : List Nat} {p : Nat} (h : p + xs.length ≤ l.length) :
    (l.take p ++ xs ++ l.drop (p + xs.length)).length = l.length := by
  simp
  omega

theorem partitionStep_spec (hr : rng.InRange P) {f0 g0 : Nat} {done : List Nat} {rem : Nat} (stratum : List Nat)
    (hne : 0 < stratum.length) (t : PartitionState S) (hs : P t.rngState) (hlt : f0 + g0 < 2 ^ 32)
    (hinv : Inv f0 g0 done (stratum.length + rem) t) :
    ∃ l t', partitionStep rng stratum t = .ok (l, t') ∧ l.Perm stratum ∧ P t'.rngState ∧ Inv f0 g0 (done ++ stratum) rem t' := by
  obtain ⟨i1, i2, i3, i4, i5, i6⟩ := hinv
  obtain ⟨up, s1, h1, h2⟩ := tiebreak_ok hr t.numFirst t.numSecond t.rngState hs
  unfold partitionStep
  simp only
  rw [h1, ok_bind]
  simp only
  rw [if_neg (by omega)]
  have hq : (t.numFirst : Rat) / ((t.numFirst + t.numSecond : Nat) : Rat) ≤ 1 := by
    rw [div_le_one (by exact_mod_cast (show 0 < t.numFirst + t.numSecond by omega))]
    exact_mod_cast (show t.numFirst ≤ t.numFirst + t.numSecond by omega)
  have hk := numSamples_le hq stratum.length up
  generalize (if up = true then ⌈(t.numFirst : Rat) / ((t.numFirst + t.numSecond : Nat) : Rat) * stratum.length⌉₊
    else ⌊(t.numFirst : Rat) / ((t.numFirst + t.numSecond : Nat) : Rat) * stratum.length⌋₊) = k at hk
  obtain ⟨c1, c2, c3⟩ := clampSamples_spec (numFirst := t.numFirst) (numSecond := t.numSecond) hk (by omega) (by omega)
  generalize clampSamples t.numFirst t.numSecond stratum.length k = m at c1 c2 c3 ⊢
  obtain ⟨l, s2, d1, d2, d3⟩ := drawStratum_eq hr Arrays.pushFirst Arrays.pushSecond stratum (by omega) m c2 s1 h2
  have hl := d1.length_eq
  have e1 : (l.take m).length = m := by rw [List.length_take]; omega
  have e2 : (l.drop m).length = stratum.length - m := by rw [List.length_drop]; omega
  rw [d3, foldlM_push_first _ _ (by rw [e1]; omega), ok_bind, foldlM_push_second _ _ (by rw [e2]; simp only; omega), ok_bind]
  refine ⟨l, _, rfl, d1, d2, ?_⟩
  rw [e1, e2]
  have hf : t.arrays.firstPos + (l.take m).length ≤ t.arrays.first.length := by rw [e1]; omega
  have hg : t.arrays.secondPos + (l.drop m).length ≤ t.arrays.second.length := by rw [e2]; omega
  have t1 := take_pushed hf
  have t2 := take_pushed hg
  have l1 := length_pushed hf
  have l2 := length_pushed hg
  rw [e1] at t1 l1
  rw [e2] at t2 l2
  refine ⟨?_, ?_, ?_, ?_, ?_, ?_⟩
  · exact l1.trans i1
  · exact l2.trans i2
  · simp only
    rw [sub32_of_le c1 (by omega)]
    omega
  · simp only
    rw [sub32_of_le c2 (by omega), sub32_of_le c3 (by omega)]
    omega
  · simp only
    rw [sub32_of_le c1 (by omega), sub32_of_le c2 (by omega), sub32_of_le c3 (by omega)]
    omega
  · simp only
    rw [t1, t2]
    have hld : (l.take m ++ l.drop m).Perm stratum := by rw [List.take_append_drop]; exact d1
    have a1 : (t.arrays.first.take t.arrays.firstPos ++ l.take m ++ (t.arrays.second.take t.arrays.secondPos ++ l.drop m)).Perm
        ((t.arrays.first.take t.arrays.firstPos ++ t.arrays.second.take t.arrays.secondPos) ++ (l.take m ++ l.drop m)) := by
      rw [List.append_assoc, List.append_assoc]
      apply List.Perm.append_left
      rw [← List.append_assoc, ← List.append_assoc]
      exact List.Perm.append_right _ List.perm_append_comm
    exact a1.trans (i6.append hld)

theorem partitionLoop_spec (hr : rng.InRange P) {f0 g0 : Nat} (hlt : f0 + g0 < 2 ^ 32) (strata : List (List Nat)) :
    ∀ (done : List Nat) (t : PartitionState S), (∀ l ∈ strata, 0 < l.length) → P t.rngState →
      Inv f0 g0 done strata.flatten.length t →
      ∃ strata' t', partitionLoop rng strata t = .ok (strata', t') ∧ List.Forall₂ List.Perm strata' strata ∧ P t'.rngState ∧
        Inv f0 g0 (done ++ strata.flatten) 0 t' := by
  induction strata with
  | nil =>
    intro done t _ hs hinv
    exact ⟨[], t, rfl, .nil, hs, by simpa using hinv⟩
  | cons l strata ih =>
    intro done t hne hs hinv
    rw [List.flatten_cons, List.length_append] at hinv
    obtain ⟨l', t1, h1, h2, h3, h4⟩ := partitionStep_spec hr l (hne l (by simp)) t hs hlt hinv
    obtain ⟨strata', t2, h5, h6, h7, h8⟩ := ih (done ++ l) t1 (fun x hx => hne x (List.mem_cons_of_mem _ hx)) h3 h4
    refine ⟨l' :: strata', t2, ?_, .cons h2 h6, h7, ?_⟩
    · unfold partitionLoop
      rw [h1, ok_bind]
      simp only
      rw [h5, ok_bind]
      rfl
    · rw [List.flatten_cons, ← List.append_assoc]
      exact h8

/-! ### Weights -/

open BitVector in
theorem foldlM_set (n : Nat) (value : Bool) (xs : List Nat) (hx : ∀ x ∈ xs, x < n) (v : BitVector) (b : Nat → Bool)
    (h : Rep n v b) :
    ∃ v', xs.foldlM (fun v x => v.set x value) v = .ok v' ∧ Rep n v' (fun p => if p ∈ xs then value else b p) := by
  induction xs generalizing v b with
  | nil => exact ⟨v, rfl, by simpa using h⟩
  | cons x xs ih =>
    obtain ⟨v1, h1, h2⟩ := h.apply (.set x value) (hx x (by simp))
    have h1' : v.set x value = .ok v1 := h1
    obtain ⟨v2, h3, h4⟩ := ih (fun y hy => hx y (List.mem_cons_of_mem _ hy)) v1 _ h2
    refine ⟨v2, ?_, ?_⟩
    · rw [List.foldlM_cons, h1', ok_bind]
      exact h3
    · have : (fun p => if p ∈ xs then value else Spec.apply b (.set x value) p) =
          (fun p => if p ∈ x :: xs then value else b p) := by
        funext p
        simp only [Spec.apply, List.mem_cons]
        by_cases h1 : p ∈ xs <;> by_cases h2 : p = x <;> simp [h1, h2]
      rwa [this] at h4

/-- What holds after the weights of the examples in `done` have been set: `sel` are the examples with non-zero weights. -/
structure WInv (n : Nat) (b0 : Nat → Bool) (done sel : List Nat) (t : WeightState S) : Prop where
  num : t.numNonZeroWeights = sel.length
  sub : ∀ x ∈ sel, x ∈ done
  nodup : sel.Nodup
  rep : BitVector.Rep n t.vector (fun p => if p ∈ done then decide (p ∈ sel) else b0 p)

theorem weightStep_spec (hr : rng.InRange P) {n : Nat} {b0 : Nat → Bool} {done sel : List Nat} {q : Rat} (hq : q ≤ 1)
    (a b : Nat) (stratum : List Nat) (hlt : stratum.length < 2 ^ 32) (hn : ∀ x ∈ stratum, x < n) (hnd : stratum.Nodup)
    (hdisj : ∀ x ∈ stratum, x ∉ done) (t : WeightState S) (hs : P t.rngState) (hinv : WInv n b0 done sel t) :
    ∃ l t' k, weightStep rng q a b stratum t = .ok (l, t') ∧ l.Perm stratum ∧ P t'.rngState ∧
      (k = ⌈q * stratum.length⌉₊ ∨ k = ⌊q * stratum.length⌋₊) ∧ k ≤ l.length ∧
      WInv n b0 (done ++ stratum) (sel ++ l.take k) t' := by
  obtain ⟨i1, i2, i3, i4⟩ := hinv
  obtain ⟨up, s1, h1, h2⟩ := tiebreak_ok hr (sub32 a t.numNonZeroWeights) (sub32 b t.numZeroWeights) t.rngState hs
  unfold weightStep
  simp only
  rw [h1, ok_bind]
  simp only
  have hk := numSamples_le hq stratum.length up
  have hk2 : (if up then ⌈q * stratum.length⌉₊ else ⌊q * stratum.length⌋₊) = ⌈q * stratum.length⌉₊ ∨
      (if up then ⌈q * stratum.length⌉₊ else ⌊q * stratum.length⌋₊) = ⌊q * stratum.length⌋₊ := by
    cases up
    · exact Or.inr rfl
    · exact Or.inl rfl
  generalize (if up = true then ⌈q * stratum.length⌉₊ else ⌊q * stratum.length⌋₊) = k at hk hk2 ⊢
  obtain ⟨l, s2, d1, d2, d3⟩ := drawStratum_eq hr (fun x (v : BitVector) => v.set x true) (fun x (v : BitVector) => v.set x false)
    stratum hlt k hk s1 h2
  have hl := d1.length_eq
  have hmem : ∀ x ∈ l, x ∈ stratum := fun x hx => d1.subset hx
  obtain ⟨v1, f1, r1⟩ := foldlM_set n true (l.take k) (fun x hx => hn x (hmem x (List.mem_of_mem_take hx))) t.vector _ i4
  obtain ⟨v2, f2, r2⟩ := foldlM_set n false (l.drop k) (fun x hx => hn x (hmem x (List.mem_of_mem_drop hx))) v1 _ r1
  rw [d3, f1, ok_bind, f2, ok_bind]
  have hndl : (l.take k ++ l.drop k).Nodup := by rw [List.take_append_drop]; exact d1.nodup_iff.mpr hnd
  have hsplit : ∀ p, p ∈ stratum ↔ p ∈ l.take k ∨ p ∈ l.drop k := by
    intro p
    rw [← d1.mem_iff, ← List.mem_append, List.take_append_drop]
  refine ⟨l, _, k, rfl, d1, d2, hk2, by omega, ?_, ?_, ?_, ?_⟩
  · simp only [List.length_append, List.length_take]
    omega
  · intro x hx
    rcases List.mem_append.mp hx with hx | hx
    · exact List.mem_append_left _ (i2 x hx)
    · exact List.mem_append_right _ (hmem x (List.mem_of_mem_take hx))
  · rw [List.nodup_append]
    refine ⟨i3, (List.nodup_append.mp hndl).1, ?_⟩
    intro x hx y hy e
    subst e
    exact hdisj x (hmem x (List.mem_of_mem_take hy)) (i2 x hx)
  · have : (fun p => if p ∈ l.drop k then false else if p ∈ l.take k then true
        else if p ∈ done then decide (p ∈ sel) else b0 p) =
        (fun p => if p ∈ done ++ stratum then decide (p ∈ sel ++ l.take k) else b0 p) := by
      funext p
      by_cases hd : p ∈ l.drop k
      · have hnt : p ∉ l.take k := fun hc => (List.nodup_append.mp hndl).2.2 p hc p hd rfl
        have hst : p ∈ stratum := (hsplit p).mpr (Or.inr hd)
        have hns : p ∉ sel := fun hc => hdisj p hst (i2 p hc)
        simp [hd, hst, hns, hnt]
      · by_cases ht : p ∈ l.take k
        · have hst : p ∈ stratum := (hsplit p).mpr (Or.inl ht)
          simp [hd, ht, hst]
        · have hst : p ∉ stratum := by rw [hsplit p]; simp [hd, ht]
          simp [hd, ht, hst]
    have r3 := r2
    rw [this] at r3
    exact r3

/-- The examples that are selected from the strata: the first `ks[i]` examples of the `i`-th stratum after it has been permuted. -/
theorem weightLoop_spec (hr : rng.InRange P) {n : Nat} {b0 : Nat → Bool} {q : Rat} (hq : q ≤ 1) (a b : Nat)
    (strata : List (List Nat)) :
    ∀ (done sel : List Nat) (t : WeightState S), strata.flatten.length < 2 ^ 32 → (∀ x ∈ strata.flatten, x < n) →
      strata.flatten.Nodup → (∀ x ∈ strata.flatten, x ∉ done) → P t.rngState → WInv n b0 done sel t →
      ∃ strata' t' sel', weightLoop rng q a b strata t = .ok (strata', t') ∧ List.Forall₂ List.Perm strata' strata ∧
        P t'.rngState ∧ WInv n b0 (done ++ strata.flatten) (sel ++ sel') t' ∧ (∀ x ∈ sel', x ∈ strata.flatten) ∧
        ∀ l ∈ strata, sel'.countP (fun x => decide (x ∈ l)) = ⌈q * l.length⌉₊ ∨
          sel'.countP (fun x => decide (x ∈ l)) = ⌊q * l.length⌋₊ := by
  induction strata with
  | nil =>
    intro done sel t _ _ _ _ hs hinv
    exact ⟨[], t, [], rfl, .nil, hs, by simpa using hinv, by simp, by simp⟩
  | cons l strata ih =>
    intro done sel t hlen hn hnd hdisj hs hinv
    rw [List.flatten_cons] at hlen hn hnd hdisj
    rw [List.length_append] at hlen
    obtain ⟨nd1, nd2, nd3⟩ := List.nodup_append.mp hnd
    obtain ⟨l', t1, k, h1, h2, h3, h4, h4', h5⟩ := weightStep_spec hr hq a b l (by omega)
      (fun x hx => hn x (List.mem_append_left _ hx)) nd1 (fun x hx => hdisj x (List.mem_append_left _ hx)) t hs hinv
    obtain ⟨strata', t2, sel', h6, h7, h8, h9, h10, h11⟩ := ih (done ++ l) (sel ++ l'.take k) t1 (by omega)
      (fun x hx => hn x (List.mem_append_right _ hx)) nd2
      (by
        intro x hx hc
        rcases List.mem_append.mp hc with hc | hc
        · exact hdisj x (List.mem_append_right _ hx) hc
        · exact nd3 x hc x hx rfl) h3 h5
    refine ⟨l' :: strata', t2, l'.take k ++ sel', ?_, .cons h2 h7, h8, ?_, ?_, ?_⟩
    · unfold weightLoop
      rw [h1, ok_bind]
      simp only
      rw [h6, ok_bind]
      rfl
    · rw [List.flatten_cons, ← List.append_assoc, ← List.append_assoc]
      exact h9
    · intro x hx
      rw [List.flatten_cons]
      rcases List.mem_append.mp hx with hx | hx
      · exact List.mem_append_left _ (h2.subset (List.mem_of_mem_take hx))
      · exact List.mem_append_right _ (h10 x hx)
    · intro m hm
      rw [List.countP_append]
      rcases List.mem_cons.mp hm with rfl | hm
      · have e1 : (l'.take k).countP (fun x => decide (x ∈ m)) = k := by
          rw [List.countP_eq_length.mpr, List.length_take, Nat.min_eq_left h4']
          intro x hx
          simpa using h2.subset (List.mem_of_mem_take hx)
        have e2 : sel'.countP (fun x => decide (x ∈ m)) = 0 := by
          rw [List.countP_eq_zero]
          intro x hx hc
          simp only [decide_eq_true_eq] at hc
          exact nd3 x hc x (h10 x hx) rfl
        rw [e1, e2, Nat.add_zero]
        exact h4
      · have e1 : (l'.take k).countP (fun x => decide (x ∈ m)) = 0 := by
          rw [List.countP_eq_zero]
          intro x hx hc
          simp only [decide_eq_true_eq] at hc
          exact nd3 x (h2.subset (List.mem_of_mem_take hx)) x (List.mem_flatten.mpr ⟨m, hm, hc⟩) rfl
        rw [e1, Nat.zero_add]
        exact h11 m hm

/-! ### Groups of examples with equal label vectors -/

theorem insertExample_spec {K : Type} [DecidableEq K] (row : Nat → K) (e : Nat) (m : List (K × List Nat))
    (h1 : (m.map Prod.fst).Nodup) (h2 : ∀ p ∈ m, p.2 ≠ [] ∧ ∀ x ∈ p.2, row x = p.1) :
    ((insertExample (row e) e m).map Prod.fst).Nodup ∧
      (∀ p ∈ insertExample (row e) e m, p.2 ≠ [] ∧ ∀ x ∈ p.2, row x = p.1) ∧
      ((insertExample (row e) e m).map Prod.snd).flatten.Perm ((m.map Prod.snd).flatten ++ [e]) ∧
      ∀ k, k ∈ (insertExample (row e) e m).map Prod.fst ↔ k ∈ m.map Prod.fst ∨ k = row e := by
  induction m with
  | nil =>
    simp only [insertExample]
    refine ⟨by simp, ?_, by simp, by simp⟩
    intro p hp
    rw [List.mem_singleton] at hp
    subst hp
    simp
  | cons p m ih =>
    obtain ⟨k, l⟩ := p
    simp only [List.map_cons, List.nodup_cons] at h1
    obtain ⟨i1, i2, i3, i4⟩ := ih h1.2 (fun p hp => h2 p (List.mem_cons_of_mem _ hp))
    have hkl := h2 (k, l) (by simp)
    simp only [insertExample]
    by_cases hk : k = row e
    · rw [if_pos hk]
      refine ⟨by simpa using h1, ?_, ?_, ?_⟩
      · intro p hp
        rcases List.mem_cons.mp hp with rfl | hp
        · refine ⟨by simp, ?_⟩
          intro x hx
          rcases List.mem_append.mp hx with hx | hx
          · exact hkl.2 x hx
          · rw [List.mem_singleton] at hx
            rw [hx]; exact hk.symm
        · exact h2 p (List.mem_cons_of_mem _ hp)
      · simp only [List.map_cons, List.flatten_cons, List.append_assoc]
        apply List.Perm.append_left
        exact List.perm_append_comm
      · intro k'
        simp only [List.map_cons, List.mem_cons, hk]
        constructor
        · exact fun h => Or.inl h
        · rintro (h | h)
          · exact h
          · exact Or.inl h
    · rw [if_neg hk]
      refine ⟨?_, ?_, ?_, ?_⟩
      · simp only [List.map_cons, List.nodup_cons]
        refine ⟨?_, i1⟩
        rw [i4]
        rintro (h | h)
        · exact h1.1 h
        · exact hk h
      · intro p hp
        rcases List.mem_cons.mp hp with rfl | hp
        · exact hkl
        · exact i2 p hp
      · simp only [List.map_cons, List.flatten_cons, List.append_assoc]
        exact List.Perm.append_left _ i3
      · intro k'
        simp only [List.map_cons, List.mem_cons, i4, or_assoc]

theorem groupExamples_spec {K : Type} [DecidableEq K] (row : Nat → K) (examples : List Nat) :
    ((groupExamples row examples).map Prod.fst).Nodup ∧
      (∀ p ∈ groupExamples row examples, p.2 ≠ [] ∧ ∀ x ∈ p.2, row x = p.1) ∧
      ((groupExamples row examples).map Prod.snd).flatten.Perm examples := by
  have main : ∀ (ex : List Nat) (m : List (K × List Nat)), (m.map Prod.fst).Nodup →
      (∀ p ∈ m, p.2 ≠ [] ∧ ∀ x ∈ p.2, row x = p.1) →
      ((ex.foldl (fun m e => insertExample (row e) e m) m).map Prod.fst).Nodup ∧
        (∀ p ∈ ex.foldl (fun m e => insertExample (row e) e m) m, p.2 ≠ [] ∧ ∀ x ∈ p.2, row x = p.1) ∧
        ((ex.foldl (fun m e => insertExample (row e) e m) m).map Prod.snd).flatten.Perm ((m.map Prod.snd).flatten ++ ex) := by
    intro ex
    induction ex with
    | nil => intro m h1 h2; exact ⟨h1, h2, by simp⟩
    | cons e ex ih =>
      intro m h1 h2
      obtain ⟨i1, i2, i3, -⟩ := insertExample_spec row e m h1 h2
      obtain ⟨j1, j2, j3⟩ := ih _ i1 i2
      refine ⟨j1, j2, j3.trans ?_⟩
      have : (m.map Prod.snd).flatten ++ e :: ex = ((m.map Prod.snd).flatten ++ [e]) ++ ex := by simp
      rw [this]
      exact List.Perm.append_right _ i3
  have := main examples [] (by simp) (by simp)
  simpa [groupExamples] using this

end MLRL.Stratification
