import Verif.Lemma.OutputStrataLoop
import Verif.Props.Partition

/-!
# C70: strata for output-wise stratified sampling
-/

namespace MLRL.OutputStrata

variable {labels : Labels} {numTotal numLabels : Nat}

/-! ### Properties of iterative stratification -/

/-- **C70.** Each example belongs to exactly one stratum. -/
theorem Iterative.perm {examples : List Nat} {strata : List (List Nat)} (h : Iterative labels numLabels examples strata) : strata.flatten.Perm examples := by
  induction h with
  | done => exact .refl _
  | rest examples last _ _ hp => simpa using hp
  | next examples label strata _ _ _ _ ih =>
    rw [List.flatten_cons]
    exact (ih.append_left _).trans (members_perm labels examples label)

/-- **C70.** No stratum is empty. -/
theorem Iterative.nonempty {examples : List Nat} {strata : List (List Nat)} (h : Iterative labels numLabels examples strata) : ∀ l ∈ strata, 0 < l.length := by
  induction h with
  | done => exact fun l hl => by cases hl
  | rest examples last hne _ hp =>
    intro l hl
    rw [List.mem_singleton] at hl
    subst hl
    rw [hp.length_eq]
    exact List.length_pos_of_ne_nil hne
  | next examples label strata _ hne _ _ ih =>
    intro l hl
    rcases List.mem_cons.1 hl with rfl | hl
    · exact List.length_pos_of_ne_nil hne
    · exact ih l hl

/-- **C70.** There are at most as many strata as labels, and one more. -/
theorem Iterative.length_le {examples : List Nat} {strata : List (List Nat)} (h : Iterative labels numLabels examples strata) :
    strata.length ≤ ((List.range numLabels).filter (fun l => decide (members labels examples l ≠ []))).length + 1 := by
  induction h with
  | done => simp
  | rest examples last _ _ _ => simp
  | next examples label strata hl hne _ _ ih =>
    have hsub : (label :: (List.range numLabels).filter (fun l => decide (members labels (examples.filter (fun e => !labels.relevant e label)) l ≠ []))).Subperm
        ((List.range numLabels).filter (fun l => decide (members labels examples l ≠ []))) := by
      refine List.subperm_of_subset (List.nodup_cons.2 ⟨fun hc => ?_, List.nodup_range.filter _⟩) (fun l h => ?_)
      · have := (List.mem_filter.1 hc).2
        simp [members, List.filter_filter] at this
      · rcases List.mem_cons.1 h with rfl | h
        · exact List.mem_filter.2 ⟨List.mem_range.2 hl, by simpa using hne⟩
        · obtain ⟨h1, h2⟩ := List.mem_filter.1 h
          refine List.mem_filter.2 ⟨h1, ?_⟩
          simp only [decide_eq_true_eq] at h2 ⊢
          intro hn
          refine h2 (List.filter_eq_nil_iff.2 (fun e he => ?_))
          exact List.filter_eq_nil_iff.1 hn e (List.mem_filter.1 he).1
    have := hsub.length_le
    rw [List.length_cons] at this ⊢
    omega

/-- **C70.** The strata are determined by the labels and the order of the examples, except for the order of the examples without labels. -/
theorem Iterative.unique {examples : List Nat} {strata strata' : List (List Nat)} (h : Iterative labels numLabels examples strata)
    (h' : Iterative labels numLabels examples strata') : List.Forall₂ List.Perm strata strata' := by
  induction h generalizing strata' with
  | done =>
    cases h' with
    | done => exact .nil
    | rest _ _ hne _ _ => exact absurd rfl hne
    | next _ _ _ _ hne _ _ => exact absurd rfl hne
  | rest examples last hne hn hp =>
    cases h' with
    | done => exact absurd rfl hne
    | rest _ last' _ _ hp' => exact .cons (hp.trans hp'.symm) .nil
    | next _ label _ hl hne' _ _ => exact absurd (hn label hl) hne'
  | next examples label strata hl hne hr _ ih =>
    cases h' with
    | done => exact absurd rfl hne
    | rest _ _ _ hn _ => exact absurd (hn label hl) hne
    | next _ label' strata' hl' hne' hr' hi' =>
      have h1 := hr label' hl' hne'
      have h2 := hr' label hl hne
      unfold Rarer at h1 h2
      obtain rfl : label = label' := by omega
      exact .cons (.refl _) (ih hi')

/-! ### The code -/

/-- The size of the array that is allocated for a dense matrix fits into 32 bits. -/
def Fits (labels : Labels) (numLabels : Nat) (examples : List Nat) : Prop :=
  match labels with
  | .dense _ => examples.length * numLabels < 2 ^ 32
  | .csr _ => True

/-- **C70.** The strata are those of iterative stratification. In particular, the loop terminates after at most one iteration per label, no array is left and no
element is used that has not been initialised, whatever the order in which hash maps are iterated. -/
theorem stratify_iterative_partial {order : List (Nat × Nat) → List (Nat × Nat)} (ho : IsOrder order) (hv : labels.Valid numTotal numLabels) {examples : List Nat}
    (he : ∀ e ∈ examples, e < numTotal) (hnd : examples.Nodup) (hn : numTotal < 2 ^ 32) (hfit : Fits labels numLabels examples) {fuel : Nat} (hf : numLabels < fuel) :
    ∃ m strata, stratify order labels numLabels numTotal examples fuel = Run.done m ∧ m.strata = .ok strata ∧ Iterative labels numLabels examples strata := by
  have h32 : examples.length < 2 ^ 32 := by
    have := (List.subperm_of_subset hnd (l₂ := List.range numTotal) (fun e h => List.mem_range.2 (he e h))).length_le
    rw [List.length_range] at this
    omega
  have hc : ∃ c, copyLabels labels numLabels examples = .ok c ∧ Copied labels numLabels examples c := by
    cases labels with
    | dense rows => exact copyDense_ok hv he hfit
    | csr rows => exact copyCsr_ok hv he hnd
  obtain ⟨c, h1, h2⟩ := hc
  exact stratify_ok ho hv he hnd h32 h1 h2 hf

/-- **C70.** The dense and the sparse representation of the same labels result in the same strata, for all orders of iteration, except for the order of the examples
without labels. -/
theorem stratify_dense_sparse {order order' : List (Nat × Nat) → List (Nat × Nat)} (ho : IsOrder order) (ho' : IsOrder order') {labels' : Labels}
    (hv : labels.Valid numTotal numLabels) (hv' : labels'.Valid numTotal numLabels) (hrel : ∀ e l, labels.relevant e l = labels'.relevant e l) {examples : List Nat}
    (he : ∀ e ∈ examples, e < numTotal) (hnd : examples.Nodup) (hn : numTotal < 2 ^ 32) (hfit : Fits labels numLabels examples)
    (hfit' : Fits labels' numLabels examples) {fuel : Nat} (hf : numLabels < fuel) :
    ∃ m m' strata strata', stratify order labels numLabels numTotal examples fuel = Run.done m ∧ stratify order' labels' numLabels numTotal examples fuel = Run.done m' ∧
      m.strata = .ok strata ∧ m'.strata = .ok strata' ∧ List.Forall₂ List.Perm strata strata' := by
  obtain ⟨m, strata, h1, h2, h3⟩ := stratify_iterative_partial ho hv he hnd hn hfit hf
  obtain ⟨m', strata', k1, k2, k3⟩ := stratify_iterative_partial ho' hv' he hnd hn hfit' hf
  refine ⟨m, m', strata, strata', h1, k1, h2, k2, h3.unique ?_⟩
  have hmem : ∀ R l, members labels' R l = members labels R l := fun R l => by
    unfold members
    simp only [hrel]
  clear h1 h2 h3 k1 k2 hfit hfit' he hnd
  induction k3 with
  | done => exact .done
  | rest examples last hne hn hp => exact .rest _ _ hne (fun l hl => by rw [← hmem]; exact hn l hl) hp
  | next examples label strata hl hne hr _ ih =>
    rw [hmem]
    refine .next _ _ _ hl (by rw [← hmem]; exact hne) (fun l h1 h2 => ?_) ?_
    · have := hr l h1 (by rw [hmem]; exact h2)
      unfold Rarer at this ⊢
      rw [hmem, hmem] at this
      exact this
    · simp only [hrel]
      exact ih

/-- **C70, C14.** Output-wise stratification partitions all examples into two sets of the requested sizes. -/
theorem partition_correct_partial {S : Type} {rng : Rng S} {P : S → Prop} (hr : rng.InRange P) {order : List (Nat × Nat) → List (Nat × Nat)} (ho : IsOrder order)
    (hv : labels.Valid numTotal numLabels) (p : BiPartition) (hp : p.first.length + p.second.length = numTotal) (hn : numTotal < 2 ^ 32)
    (hfit : Fits labels numLabels (List.range numTotal)) {fuel : Nat} (hf : numLabels < fuel) (s : S) (hs : P s) :
    ∃ strata p' s', partition rng order labels numLabels numTotal p fuel s = Run.done (strata, p', s') ∧ Spec.IsPartition numTotal p'.first p'.second ∧
      p'.first.length = p.first.length ∧ p'.second.length = p.second.length ∧ P s' := by
  obtain ⟨m, strata, h1, h2, h3⟩ := stratify_iterative_partial ho hv (examples := List.range numTotal) (fun e h => List.mem_range.1 h) List.nodup_range hn hfit hf
  obtain ⟨strata', p', s', g1, g2, g3, g4, -, g5⟩ := Stratification.sampleBiPartition_spec hr strata p (by rw [hp]; exact h3.perm) h3.nonempty (by omega) s hs
  refine ⟨strata', p', s', ?_, by rw [← hp]; exact g2, g3, g4, g5⟩
  unfold partition
  rw [h1, Run.done_bind, h2, Run.lift_ok, Run.done_bind, g1, Run.lift_ok]

/-- **C70, C13.** Output-wise stratified sampling: the examples in `sel` have the weight 1, and from each stratum of the iterative stratification, the given fraction is
selected, rounded up or down. The weights of examples that do not belong to the training set are not changed. -/
theorem sample_correct_partial {S : Type} {rng : Rng S} {P : S → Prop} (hr : rng.InRange P) {order : List (Nat × Nat) → List (Nat × Nat)} (ho : IsOrder order)
    (hv : labels.Valid numTotal numLabels) {examples : List Nat} (he : ∀ e ∈ examples, e < numTotal) (hnd : examples.Nodup) (hn : numTotal < 2 ^ 32)
    (hfit : Fits labels numLabels examples) {fuel : Nat} (hf : numLabels < fuel) {b0 : Nat → Bool} (w : Sampling.BitWeights) (hw : BitVector.Rep numTotal w.vector b0)
    {q : Rat} (hq : q ≤ 1) (minSamples maxSamples : Nat) (s : S) (hs : P s) :
    ∃ (strata strata' : List (List Nat)) (w' : Sampling.BitWeights) (s' : S) (sel : List Nat),
      sample rng order labels numLabels numTotal examples w q minSamples maxSamples fuel s = Run.done (strata', w', s') ∧
      Iterative labels numLabels examples strata ∧ w'.numNonZeroWeights = sel.length ∧ sel.Nodup ∧ (∀ x ∈ sel, x ∈ examples) ∧
      (∀ e < numTotal, w'.vector.get e = .ok (if e ∈ examples then decide (e ∈ sel) else b0 e)) ∧
      (∀ l ∈ strata, sel.countP (fun x => decide (x ∈ l)) = ⌈q * l.length⌉₊ ∨ sel.countP (fun x => decide (x ∈ l)) = ⌊q * l.length⌋₊) ∧ P s' := by
  obtain ⟨m, strata, h1, h2, h3⟩ := stratify_iterative_partial ho hv he hnd hn hfit hf
  have hperm := h3.perm
  have hlen : strata.flatten.length < 2 ^ 32 := by
    have := (List.subperm_of_subset hnd (l₂ := List.range numTotal) (fun e h => List.mem_range.2 (he e h))).length_le
    rw [List.length_range] at this
    rw [hperm.length_eq]
    omega
  obtain ⟨strata', w', s', sel, g1, g2, g3, g4, g5, g6, -, g7⟩ := Stratification.sampleWeights_spec hr strata w hq minSamples maxSamples hw hlen
    (fun x hx => he x (hperm.mem_iff.1 hx)) (hperm.nodup_iff.2 hnd) s hs
  refine ⟨strata, strata', w', s', sel, ?_, h3, g2, g3, fun x hx => hperm.mem_iff.1 (g4 x hx), fun e h => ?_, g6, g7⟩
  · unfold sample
    rw [h1, Run.done_bind, h2, Run.lift_ok, Run.done_bind, g1, Run.lift_ok]
  · rw [g5 e h]
    simp only [hperm.mem_iff]

/-- **C70.** The size of the array is computed with 32 bits: with 65536 examples that are all associated with 65536 labels, an empty array is allocated, and the first
write is out of bounds. -/
theorem copyDense_overflow : ∃ (rows : List (List Bool)) (numLabels : Nat) (examples : List Nat), (Labels.dense rows).Valid rows.length numLabels ∧ examples.Nodup ∧
    (∀ e ∈ examples, e < rows.length) ∧ rows.length < 2 ^ 32 ∧ numLabels < 2 ^ 32 ∧ copyDense rows numLabels examples = .error .outOfBounds := by
  have key : ∀ n, 0 < n → n * n % 2 ^ 32 = 0 → copyDense (List.replicate n (List.replicate n true)) n (List.range n) = .error .outOfBounds := by
    intro n h0 hmod
    unfold copyDense
    rw [List.length_range, hmod, List.replicate_zero]
    obtain ⟨k, rfl⟩ : ∃ k, n = k + 1 := ⟨n - 1, by omega⟩
    rw [List.range_succ_eq_map, List.foldlM_cons]
    have hstep : denseLabelStep (List.replicate (k + 1) (List.replicate (k + 1) true)) (0 :: (List.range k).map Nat.succ) (⟨[], 0⟩, List.replicate (k + 1 + 1) none) 0 =
        .error .outOfBounds := by
      unfold denseLabelStep
      simp only
      rw [writeAt_of_lt (by simp), ok_bind, List.foldlM_cons]
      have : denseStep (List.replicate (k + 1) (List.replicate (k + 1) true)) 0 ⟨[], 0⟩ 0 = .error .outOfBounds := by
        unfold denseStep
        have e1 : (List.replicate (k + 1) (List.replicate (k + 1) true))[0]? = some (List.replicate (k + 1) true) := by simp
        have e2 : (List.replicate (k + 1) true)[0]? = some true := by simp
        rw [readAt_of_getElem? e1, ok_bind, readAt_of_getElem? e2, ok_bind]
        rfl
      rw [this]
      rfl
    rw [hstep]
    rfl
  refine ⟨List.replicate 65536 (List.replicate 65536 true), 65536, List.range 65536, ⟨rfl, fun row h => ?_⟩, List.nodup_range, fun e h => ?_, ?_, by omega, key _ (by omega) (by omega)⟩
  · rw [List.eq_of_mem_replicate h, List.length_replicate]
  · rw [List.length_replicate]
    exact List.mem_range.1 h
  · rw [List.length_replicate]
    omega

/-! ### Examples -/

/-- Six examples with three labels, the last two of which have no relevant labels. -/
def exampleRows : List (List Bool) := [[true, false, true], [true, true, false], [false, false, true], [true, false, false], [false, false, false], [false, false, false]]

/-- The same labels. -/
def exampleSparse : List (List Nat) := [[0, 2], [0, 1], [2], [0], [], []]

/-- The hypotheses are met. -/
example : (Labels.dense exampleRows).Valid 6 3 ∧ Fits (.dense exampleRows) 3 [0, 1, 2, 3, 4, 5] := by
  refine ⟨⟨rfl, ?_⟩, ?_⟩
  · decide
  · unfold Fits
    decide

/-- The hypotheses are met. -/
example : (Labels.csr exampleSparse).Valid 6 3 := ⟨rfl, by decide⟩

/-- Label 1 is the rarest one, followed by label 0, which is as rare as label 2 then. Only example 2 is left for label 2, and the others have no labels. -/
example : (stratify id (.dense exampleRows) 3 6 [0, 1, 2, 3, 4, 5] 4 >>= fun m => Run.lift m.strata) = Run.done [[1], [0, 3], [2], [4, 5]] := by decide +kernel

/-- The same strata. -/
example : (stratify List.reverse (.csr exampleSparse) 3 6 [0, 1, 2, 3, 4, 5] 4 >>= fun m => Run.lift m.strata) = Run.done [[1], [0, 3], [2], [4, 5]] := by decide +kernel

/-- With a subset of the examples in a different order. -/
example : (stratify id (.csr exampleSparse) 3 6 [5, 3, 2, 0] 4 >>= fun m => Run.lift m.strata) = Run.done [[3, 0], [2], [5]] := by decide +kernel

end MLRL.OutputStrata
