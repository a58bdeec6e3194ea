import Verif.Props.BeamTraining

/-!
# C89: a beam search may not terminate

If the number of conditions is not limited, which is the default, the search for a rule may not terminate, regardless of the implementation of `std::sort` and
of the order in which threads work: copies of subspaces do not include filtered vectors. As a result, conditions that are already contained in a rule are found
again, and they are added to it as long as the rule is better than the worst rule in the beam.
-/

namespace MLRL.Tabular

open FeatureSpace Predictor Induction Refinement TrainingLoss RuleEval Beam

deriving instance DecidableEq for Predictor.Head

/-- Four binary features of ten examples. -/
def loopTable : List (List Rat) :=
  [[1, 1, 1, 0], [1, 1, 1, 0], [0, 1, 1, 0], [0, 1, 1, 0], [0, 0, 0, 1], [0, 0, 0, 0], [0, 0, 0, 0], [0, 0, 0, 0], [0, 0, 0, 0], [0, 0, 0, 0]]

def loopValues (f e : Nat) : Option Rat := (loopTable[e]?).bind (fun row => row[f]?)

/-- The vectors that are created for these values. -/
def loopColumn : Nat → FeatureVector
  | 0 => .nominal .binary [(1, [0, 1])] 0 []
  | 1 => .nominal .binary [(1, [0, 1, 2, 3])] 0 []
  | 2 => .nominal .binary [(1, [0, 1, 2, 3])] 0 []
  | 3 => .nominal .binary [(1, [4])] 0 []
  | _ => .equal

def loopTargets : List ℚ := [10, 10, -10, -10, 6, 0, 0, 0, 0, 0]

/-- A single output. All examples have the same weight. -/
def loopData : Data ℚ ℚ := ⟨10, 1, fun _ => 1, fun i _ => (loopTargets[i]?).getD 0⟩

def loopEnv : Env := ⟨⟨10, 10, loopColumn, fun a b => decide (a = b), fun _ => ()⟩, fun e => decide (loopData.weight e ≠ 0), 1⟩

def loopUpdates : Update.Ops ℚ (List ℚ) (List (Stat ℚ)) :=
  ⟨Update.changeDense (· + ·), Update.changeDense (· - ·), fun i _ scores _ =>
    .ok ((List.range 1).map (fun j => exUpdate (loopData.truth i j) (Update.denseValue scores j)))⟩

/-- A single rule is to be learned. The squared error is used as the loss, there is neither regularisation nor shrinkage, and the number of conditions is not
limited. -/
def loopConfig : Boosting.Config (Subspace Unit) ℚ where
  subspaces := subspaces loopEnv
  updates := loopUpdates
  grow := ⟨1, 0, 0⟩
  shrinkage := 1
  numExamples := 10
  numOutputs := 1
  weight := loopData.weight
  hasZeroWeights := false
  useDefaultRule := false
  defaultEvaluation := Boosting.completeEvaluation 0 0 (fun outputs => List.replicate outputs.length 0)
  evaluation := Boosting.completeEvaluation 0 0 (fun outputs => List.replicate outputs.length 0)
  searchFeature := searchFeature loopEnv
  features _ _ := [0, 1, 2, 3]
  sampledOutputs _ := none
  searchSchedule _ _ := sequentially
  applySchedule _ call := sequentially (call.tasks loopUpdates 10)
  stopping := ⟨some 1, none, none⟩
  environment := ⟨fun n => n, [], fun _ _ => .ok 0⟩

def loopCells : List (Update.Cell (List ℚ) (List (Stat ℚ))) :=
  (List.range 10).map (fun i => ⟨[0], (List.range 1).map (fun j => exUpdate (loopData.truth i j) 0)⟩)

/-! ### The requirements of the theorems are met, apart from the limit on the number of conditions -/

theorem loopEnv_ok : loopEnv.Ok 10 loopValues where
  numExamples := rfl
  size := by decide
  numNonZero := by decide +kernel
  isEqual x := decide_eq_true rfl
  column f := by
    show ColumnOk 10 _ (loopValues f) (loopColumn f)
    match f with
    | 0 => exact ColumnOk.nominal (by simp) (by decide) (by decide) (by decide) (by decide +kernel) (by decide +kernel) (by simp) (by simp)
    | 1 => exact ColumnOk.nominal (by simp) (by decide) (by decide) (by decide) (by decide +kernel) (by decide +kernel) (by simp) (by simp)
    | 2 => exact ColumnOk.nominal (by simp) (by decide) (by decide) (by decide) (by decide +kernel) (by decide +kernel) (by simp) (by simp)
    | 3 => exact ColumnOk.nominal (by simp) (by decide) (by decide) (by decide) (by decide +kernel) (by decide +kernel) (by simp) (by simp)
    | _ + 4 => exact ColumnOk.equal

theorem loopConfig_ok : Trainable loopConfig loopData loopEnv loopValues 0 0 where
  numExamples := rfl
  numOutputs := rfl
  weight := rfl
  regularization := ⟨le_rfl, le_rfl⟩
  weights i := by simp [loopData]
  positive := by norm_num [loopConfig]
  atMostOne := by norm_num [loopConfig]
  evaluation := complete_scoring 0 0 _ (fun _ => by simp)
  defaultEvaluation := complete_scoring 0 0 _ (fun _ => by simp)
  sampled k l h := by cases h
  searchSchedule _ _ _ := sequentially_interleaving _
  applySchedule _ _ := sequentially_interleaving _
  subspaces := rfl
  searchFeature := rfl
  nonZero := rfl
  table := loopEnv_ok

theorem loopConfig_safe : Safe loopConfig loopData where
  outputs := by decide
  sampled k l h := by cases h
  evaluation := Boosting.complete_total 0 0 _ (fun _ => by simp)
  defaultEvaluation := Boosting.complete_total 0 0 _ (fun _ => by simp)
  environment := ⟨fun _ _ _ _ => ⟨_, rfl⟩, fun i hi => by cases hi⟩
  pruning := trivial
  limited := Or.inl ⟨1, rfl⟩

/-! ### Sorting -/

section
variable {A Q : Type} {better : Q → Q → Bool} {sort : List (Scored A Q) → List (Scored A Q)}

theorem sort_single (hs : SortSpec better sort) (x : Scored A Q) : sort [x] = [x] := List.perm_singleton.1 (hs.perm [x])

theorem sort_pair (hs : SortSpec better sort) {x y : Scored A Q} (h : better x.quality y.quality = true) : sort [x, y] = [x, y] := by
  have h1 := hs.perm [x, y]
  have h2 := hs.sorted [x, y]
  have hlen := h1.length_eq
  match hl : sort [x, y], hlen with
  | [a, b], _ =>
    rw [hl] at h1 h2
    unfold Sorted at h2
    rw [List.pairwise_pair] at h2
    have ha : a = x ∨ a = y := by simpa using h1.subset (List.mem_cons_self (a := a))
    rcases ha with rfl | rfl
    · have hb := List.perm_singleton.1 ((List.perm_cons _).1 h1)
      rw [hb]
    · have hb := List.perm_singleton.1 ((List.perm_cons _).1 (h1.trans (List.Perm.swap _ _ _)))
      cases hb
      rw [h] at h2
      cases h2

theorem consider_skip {k : Nat} {s : Fixed A Q} {x : Scored A Q} (h : better x.quality s.minQuality = false) : Fixed.consider better sort k s x = .ok s := by
  unfold Fixed.consider
  rw [if_neg (by simp [h])]
  rfl

theorem consider_first (hs : SortSpec better sort) {q : Q} {x : Scored A Q} (h : better x.quality q = true) :
    Fixed.consider better sort 2 ⟨[], q⟩ x = .ok ⟨[x], x.quality⟩ := by
  unfold Fixed.consider
  rw [if_pos h]
  simp only [List.length_nil, Nat.zero_lt_succ, if_true, List.nil_append, true_or, sort_single hs]
  rfl

/-- Merging comparators does not depend on the sorting algorithm. -/
theorem mergeAll_sort (sort' : List (Scored A Q) → List (Scored A Q)) (k : Nat) : ∀ (l : List (Fixed A Q)) (c : Fixed A Q) (found : Bool),
    mergeAll (fixedOps better sort k) l c found = mergeAll (fixedOps better sort' k) l c found := by
  intro l
  induction l with
  | nil => intro c found; rfl
  | cons e l ih =>
    intro c found
    simp only [mergeAll, ih]
    rfl

end

/-! ### The rule that is refined forever -/

/-- The condition that the given feature is equal to one. -/
def loopCondition (f numCovered : Nat) : Boosting.Condition := ⟨f, .nominalEq, 1, ⟨0, 1, false⟩, numCovered⟩

/-- The corresponding refinement. -/
def loopCandidate (f : Nat) : Scored (Found Boosting.Condition (Head ℚ)) ℚ := ⟨⟨loopCondition f 2, 2, .complete [10]⟩, -100⟩

/-- The subspace of a rule that covers the first two examples, after `m` conditions have been added. The last one refers to feature `f`. -/
def loopSubspace (m f : Nat) (loaded : Nat → Bool) : Subspace Unit where
  mask := ⟨[m, m, 0, 0, 0, 0, 0, 0, 0, 0], m⟩
  numCovered := 2
  numModifications := m
  cache := upd (fun _ => none) f (some { vector := some .equal, numConditions := m })
  loaded := loaded
  total := ()

theorem loop_isCovered {m : Nat} (hm : 1 ≤ m) (f : Nat) (loaded : Nat → Bool) (e : Nat) :
    (loopSubspace m f loaded).mask.isCovered e = (loopSubspace 1 f (fun _ => false)).mask.isCovered e := by
  have h0 : ((0 : Nat) == m) = false := by
    rw [beq_eq_false_iff_ne]
    omega
  have h1 : (m == m) = true := by simp
  match e with
  | 0 => simp [loopSubspace, CoverageMask.isCovered, readAt]
  | 1 => simp [loopSubspace, CoverageMask.isCovered, readAt]
  | 2 | 3 | 4 | 5 | 6 | 7 | 8 | 9 => simp [loopSubspace, CoverageMask.isCovered, readAt]; omega
  | n + 10 => simp [loopSubspace, CoverageMask.isCovered, readAt]

theorem filterCovered_congr {α : Type} {m1 m2 : CoverageMask} (h : ∀ e, m1.isCovered e = m2.isCovered e) (g : α → Nat) :
    ∀ l, filterCovered m1 g l = filterCovered m2 g l
  | [] => rfl
  | x :: l => by rw [filterCovered, filterCovered, h, filterCovered_congr h g l]

theorem filterBins_congr {m1 m2 : CoverageMask} (h : ∀ e, m1.isCovered e = m2.isCovered e) : ∀ l, filterBins m1 l = filterBins m2 l
  | [] => rfl
  | (v, indices) :: l => by rw [filterBins, filterBins, filterCovered_congr h, filterBins_congr h l]

theorem filterMask_congr {m1 m2 : CoverageMask} (h : ∀ e, m1.isCovered e = m2.isCovered e) (isEqual : Rat → Rat → Bool) (v : FeatureVector) :
    v.filterMask isEqual m1 = v.filterMask isEqual m2 := by
  cases v with
  | equal => rfl
  | numerical entries sv sparse missing => simp only [FeatureVector.filterMask, filterCovered_congr h]
  | nominal kind bins mv missing => simp only [FeatureVector.filterMask, filterCovered_congr h, filterBins_congr h]

/-- The refinements that are found do not depend on the number of conditions. -/
theorem loop_search {M : Type} [AddCommGroup M] {m : Nat} (hm : 1 ≤ m) (f : Nat) (loaded : Nat → Bool) (g : Nat) (stat : Nat → M) :
    searchFeature loopEnv g (loopSubspace m f loaded) stat = searchFeature loopEnv g (loopSubspace 1 f (fun _ => false)) stat := by
  have hc : covers (loopSubspace m f loaded) = covers (loopSubspace 1 f (fun _ => false)) := by
    funext e
    unfold covers
    rw [loop_isCovered hm]
  have ht : ∀ v, searchTotal loopEnv (loopSubspace m f loaded) v stat = searchTotal loopEnv (loopSubspace 1 f (fun _ => false)) v stat := by
    intro v
    unfold searchTotal
    rw [hc]
  have hcfg : searchConfig loopEnv (loopSubspace m f loaded) stat = searchConfig loopEnv (loopSubspace 1 f (fun _ => false)) stat := rfl
  unfold searchFeature
  simp only [ht, hcfg]
  by_cases hg : g = f
  · subst hg
    simp [Subspace.invoke, Subspace.entry, loopSubspace, upd, pure_bind]
  · have hf := filterMask_congr (loop_isCovered hm f loaded) loopEnv.space.isEqual (loopEnv.space.column g)
    have hm' : 0 < m := hm
    simp only [loopSubspace] at hf
    simp [Subspace.invoke, Subspace.entry, loopSubspace, upd, hg, hm', bind_assoc, hf]

/-- The search for refinements. -/
abbrev loopCandidates (s : Subspace Unit) : Res (List (List (Scored (Found Boosting.Condition (Head ℚ)) ℚ))) :=
  Boosting.candidates loopConfig.evaluation 1 none (fun _ => [0, 1, 2, 3]) (searchFeature loopEnv) loopData.weight loopCells 0 s none

theorem loop_candidates {m : Nat} (hm : 1 ≤ m) (f : Nat) (loaded : Nat → Bool) :
    loopCandidates (loopSubspace m f loaded) = loopCandidates (loopSubspace 1 f (fun _ => false)) := by
  unfold loopCandidates Boosting.candidates Boosting.scoreFeature
  simp only [loop_search hm]

set_option synthInstance.maxSize 1000 in
theorem loop_candidates0 : loopCandidates (loopSubspace 1 0 (fun _ => false)) = .ok [[], [loopCandidate 1], [loopCandidate 2], []] := by decide +kernel
set_option synthInstance.maxSize 1000 in
theorem loop_candidates1 : loopCandidates (loopSubspace 1 1 (fun _ => false)) = .ok [[loopCandidate 0], [], [loopCandidate 2], []] := by decide +kernel
set_option synthInstance.maxSize 1000 in
theorem loop_candidates2 : loopCandidates (loopSubspace 1 2 (fun _ => false)) = .ok [[loopCandidate 0], [loopCandidate 1], [], []] := by decide +kernel

/-- A condition on one of the first three features is added. -/
theorem loop_addCondition {m : Nat} (hm : 1 ≤ m) (f : Nat) (loaded : Nat → Bool) {g : Nat} (hg : g < 3) (cache : Nat → Option CacheEntry) (hc : cache g = none) :
    addCondition loopEnv { loopSubspace m f loaded with cache := cache } (loopCondition g 2) =
      .ok { loopSubspace (m + 1) g (upd loaded g true) with cache := upd cache g (some { vector := some .equal, numConditions := m + 1 }) } := by
  have h1 : (loopEnv.space.column g).filterMask loopEnv.space.isEqual (loopSubspace 1 f (fun _ => false)).mask = .ok (.nominal .binary [(1, [0, 1])] 0 []) := by
    have hg' : g = 0 ∨ g = 1 ∨ g = 2 := by omega
    rcases hg' with rfl | rfl | rfl <;> rfl
  have h2 := (filterMask_congr (loop_isCovered hm f loaded) loopEnv.space.isEqual (loopEnv.space.column g)).trans h1
  have hm' : 0 < m := hm
  have hupd : ∀ a b : Option CacheEntry, upd (upd cache g a) g b = upd cache g b := by
    intro a b
    funext x
    unfold upd
    split <;> rfl
  simp only [loopSubspace] at h2
  have hfilter : ∀ s : Subspace Unit, s.entry g = ⟨some (.nominal .binary [(1, [0, 1])] 0 []), m⟩ → s.numModifications = m →
      s.upToDate loopEnv.space g = .ok (.nominal .binary [(1, [0, 1])] 0 [], true) := by
    intro s h3 h4
    simp only [Subspace.upToDate, Subspace.available, h3, h4, ok_bind, gt_iff_lt, lt_irrefl, if_false, Option.isSome_some]
    rfl
  simp only [addCondition, loopCondition, Subspace.invoke, Subspace.entry, hc, loopSubspace, Option.getD_none, gt_iff_lt, hm', if_true, h2, ok_bind, pure,
    Except.pure]
  rw [Subspace.filter, hfilter _ ?_ rfl, ok_bind]
  · exact congrArg (fun cache => Except.ok { loopSubspace (m + 1) g (upd loaded g true) with cache := cache })
      (hupd (some ⟨some (.nominal .binary [(1, [0, 1])] 0 []), m⟩) (some ⟨some .equal, m + 1⟩))
  · show (upd cache g _ g).getD _ = _
    rw [show ∀ x, upd cache g x g = x from fun _ => if_pos rfl]
    rfl

/-! ### The search does not terminate -/

section
variable {o : Boosting.BeamOptions (Subspace Unit) ℚ}

/-- A beam of width 2, all features are searched. -/
structure LoopOptions (o : Boosting.BeamOptions (Subspace Unit) ℚ) : Prop where
  width : o.width = 2
  features : ∀ k d p, o.features k d p = [0, 1, 2, 3]

theorem loop_beamSearch (h : LoopOptions o) (k depth position : Nat) (s : Subspace Unit) :
    (loopConfig.beamSearch o k loopCells).candidates depth position s none = loopCandidates s := by
  unfold Boosting.Config.beamSearch
  simp only [h.features]
  rfl

/-- The rule that is refined and the other rule in the beam, which cannot be refined. -/
structure LoopBeam (best worst : Entry (Subspace Unit) Boosting.Condition (Head ℚ) ℚ) : Prop where
  bestSubspace : ∃ m f loaded, 1 ≤ m ∧ f < 3 ∧ best.refinement.subspace = loopSubspace m f loaded
  bestOutputs : best.refinement.outputs = .all
  bestQuality : best.quality = -100
  worstQuality : worst.quality = -18
  worstOutputs : worst.refinement.outputs = .null ∨
    worst.refinement.outputs = .all ∧ loopCandidates worst.refinement.subspace = .ok [[], [], [], []]

/-- Two refinements are found. -/
theorem loop_found {sort : List (Scored (Found Boosting.Condition (Head ℚ)) ℚ) → List (Scored (Found Boosting.Condition (Head ℚ)) ℚ)}
    (hs : SortSpec Boosting.better sort) {m f : Nat} (hm : 1 ≤ m) (hf : f < 3) (loaded : Nat → Bool) :
    ∃ candidates g1 g2, loopCandidates (loopSubspace m f loaded) = .ok candidates ∧ g1 < 3 ∧ g2 < 3 ∧ g2 ≠ f ∧
      findRefinementSequentially (fixedOps Boosting.better sort 2) candidates (Fixed.new (-18)) = .ok (⟨[loopCandidate g1, loopCandidate g2], -100⟩, true) := by
  have hc : ∀ g, Fixed.consider Boosting.better sort 2 ⟨[], -18⟩ (loopCandidate g) = .ok ⟨[loopCandidate g], -100⟩ :=
    fun g => consider_first hs (show Boosting.better (-100 : ℚ) (-18) = true by decide +kernel)
  have hf' : f = 0 ∨ f = 1 ∨ f = 2 := by omega
  rcases hf' with rfl | rfl | rfl
  · refine ⟨_, 2, 1, (loop_candidates hm 0 loaded).trans loop_candidates0, by decide, by decide, by decide, ?_⟩
    simp only [findRefinementSequentially, List.mapM_cons, List.mapM_nil, List.foldlM_cons, List.foldlM_nil, Fixed.new, fixedOps, Fixed.copy, hc, pure,
      Except.pure, ok_bind]
    refine (mergeAll_sort id _ _ _ _).trans ?_
    decide +kernel
  · refine ⟨_, 2, 0, (loop_candidates hm 1 loaded).trans loop_candidates1, by decide, by decide, by decide, ?_⟩
    simp only [findRefinementSequentially, List.mapM_cons, List.mapM_nil, List.foldlM_cons, List.foldlM_nil, Fixed.new, fixedOps, Fixed.copy, hc, pure,
      Except.pure, ok_bind]
    refine (mergeAll_sort id _ _ _ _).trans ?_
    decide +kernel
  · refine ⟨_, 1, 0, (loop_candidates hm 2 loaded).trans loop_candidates2, by decide, by decide, by decide, ?_⟩
    simp only [findRefinementSequentially, List.mapM_cons, List.mapM_nil, List.foldlM_cons, List.foldlM_nil, Fixed.new, fixedOps, Fixed.copy, hc, pure,
      Except.pure, ok_bind]
    refine (mergeAll_sort id _ _ _ _).trans ?_
    decide +kernel

/-- The beam looks the same after each iteration, apart from the number of conditions. -/
theorem loop_refine (h : LoopOptions o) (hs : o.sorts.Spec (Boosting.better : ℚ → ℚ → Bool))
    (ht : ∀ k d p candidates, Interleaving candidates (o.schedule k d p candidates)) (k depth : Nat)
    {best worst : Entry (Subspace Unit) Boosting.Condition (Head ℚ) ℚ} (hb : LoopBeam best worst) :
    ∃ best' worst', refine (subspaces loopEnv) Boosting.better o.sorts (loopConfig.beam o) (loopConfig.beamSearch o k loopCells) depth false [best, worst] =
      .ok ([best', worst'], true) ∧ LoopBeam best' worst' := by
  obtain ⟨⟨m, f, loaded, hm, hf, hsub⟩, hout, hq, hwq, hwout⟩ := hb
  obtain ⟨candidates, g1, g2, hc, hg1, hg2, hne, hr⟩ := loop_found hs.refinements hm hf loaded
  have hw : (loopConfig.beam o).width = 2 := h.width
  -- The search for refinements of the first rule
  have hfind : findBeamRefinements Boosting.better o.sorts (loopConfig.beam o) (loopConfig.beamSearch o k loopCells) depth 0 best (-18) =
      .ok (⟨[loopCandidate g1, loopCandidate g2], -100⟩, true) := by
    unfold findBeamRefinements outputsOf
    rw [hout]
    simp only [ok_bind]
    rw [loop_beamSearch h, hsub, hc, ok_bind, hw]
    exact findRefinement_schedule_independent _ _ (ht k depth 0 candidates) _ _ hr
  have hfilter1 := loop_addCondition hm f loaded hg1 (fun _ => none) rfl
  have hfilter2 := loop_addCondition hm f loaded hg2 (loopSubspace m f loaded).cache (if_neg hne)
  have hstate1 : refineEntry (subspaces loopEnv) Boosting.better o.sorts (loopConfig.beam o) (loopConfig.beamSearch o k loopCells) depth false
      ⟨[], -18, false⟩ (best, 0) = .ok ⟨[⟨⟨best.refinement.conditions ++ [loopCondition g1 2], .complete [10], loopSubspace (m + 1) g1 (upd loaded g1 true), .all⟩, -100⟩,
        ⟨⟨best.refinement.conditions ++ [loopCondition g2 2], .complete [10], { loopSubspace (m + 1) g2 (upd loaded g2 true) with
          cache := upd (loopSubspace m f loaded).cache g2 (some { vector := some .equal, numConditions := m + 1 }) }, .all⟩, -100⟩], -18, true⟩ := by
    unfold refineEntry
    simp only [hout, hfind, ok_bind]
    simp only [addRefinements, List.getLast?_cons_cons, List.getLast?_singleton, List.dropLast_cons_cons, List.dropLast_singleton, List.foldlM_cons,
      List.foldlM_nil]
    have e1 : refinedEntry (subspaces loopEnv) (loopConfig.beam o).minCoverage false best ((subspaces loopEnv).copy best.refinement.subspace) (loopCandidate g1) =
        .ok ⟨⟨best.refinement.conditions ++ [loopCondition g1 2], .complete [10], loopSubspace (m + 1) g1 (upd loaded g1 true), .all⟩, -100⟩ := by
      unfold refinedEntry
      rw [hsub, show (subspaces loopEnv).filter ((subspaces loopEnv).copy (loopSubspace m f loaded)) (loopCandidate g1).refinement.condition = _ from hfilter1,
        ok_bind, hout]
      rfl
    have e2 : refinedEntry (subspaces loopEnv) (loopConfig.beam o).minCoverage false best best.refinement.subspace (loopCandidate g2) =
        .ok ⟨⟨best.refinement.conditions ++ [loopCondition g2 2], .complete [10], { loopSubspace (m + 1) g2 (upd loaded g2 true) with
          cache := upd (loopSubspace m f loaded).cache g2 (some { vector := some .equal, numConditions := m + 1 }) }, .all⟩, -100⟩ := by
      unfold refinedEntry
      rw [hsub, show (subspaces loopEnv).filter (loopSubspace m f loaded) (loopCandidate g2).refinement.condition = _ from hfilter2, ok_bind, hout]
      rfl
    simp only [addRefinement, e1, e2, ok_bind, hw, List.length_nil, Nat.zero_lt_succ, if_true, List.nil_append, pure, Except.pure, List.length_singleton,
      Nat.lt_succ_self, List.cons_append]
  have hkeep : ∀ e1 e2 : Entry (Subspace Unit) Boosting.Condition (Head ℚ) ℚ, e1.quality = -100 →
      keepEntry Boosting.better o.sorts (loopConfig.beam o) worst ⟨[e1, e2], -18, true⟩ = .ok ⟨[e1, frozenEntry worst], -18, true⟩ := by
    intro e1 e2 he
    have hsort : o.sorts.entries [e1, frozenEntry worst] = [e1, frozenEntry worst] := by
      refine sort_pair hs.entries ?_
      rw [he, show (frozenEntry worst).quality = -18 from hwq]
      decide +kernel
    unfold keepEntry
    rw [if_neg (by rw [hw]; exact Nat.lt_irrefl 2), if_neg (by rw [hwq]; exact (show ¬ Boosting.better (-18 : ℚ) (-18) = true by decide +kernel))]
    unfold replaceLast
    simp only [List.dropLast_cons_cons, List.dropLast_singleton, List.cons_append, List.nil_append, hsort, List.getLast?_cons_cons, List.getLast?_singleton]
    rw [show (frozenEntry worst).quality = -18 from hwq]
  have hstate2 : ∀ e1 e2 : Entry (Subspace Unit) Boosting.Condition (Head ℚ) ℚ, e1.quality = -100 →
      refineEntry (subspaces loopEnv) Boosting.better o.sorts (loopConfig.beam o) (loopConfig.beamSearch o k loopCells) depth false
      ⟨[e1, e2], -18, true⟩ (worst, 1) = .ok ⟨[e1, frozenEntry worst], -18, true⟩ := by
    intro e1 e2 he
    unfold refineEntry
    rcases hwout with hw1 | ⟨hw1, hw2⟩
    · simp only [hw1]
      exact hkeep e1 e2 he
    · have hfind2 : findBeamRefinements Boosting.better o.sorts (loopConfig.beam o) (loopConfig.beamSearch o k loopCells) depth 1 worst (-18) =
          .ok (⟨[], -18⟩, false) := by
        unfold findBeamRefinements outputsOf
        rw [hw1]
        simp only [ok_bind]
        rw [loop_beamSearch h, hw2, ok_bind, hw]
        exact findRefinement_schedule_independent _ _ (ht k depth 1 _) _ _ rfl
      simp only [hw1, hfind2, ok_bind]
      exact hkeep e1 e2 he
  refine ⟨_, frozenEntry worst, ?_, (⟨⟨m + 1, g1, upd loaded g1 true, by omega, hg1, rfl⟩, rfl, rfl, hwq, Or.inl rfl⟩ : LoopBeam
    ⟨⟨best.refinement.conditions ++ [loopCondition g1 2], .complete [10], loopSubspace (m + 1) g1 (upd loaded g1 true), .all⟩, -100⟩ (frozenEntry worst))⟩
  unfold Beam.refine
  simp only [List.getLast?_cons_cons, List.getLast?_singleton, hwq, List.zipIdx_cons, List.zipIdx_nil, List.foldlM_cons, List.foldlM_nil, hstate1, ok_bind]
  rw [hstate2 _ _ rfl]
  rfl

/-- The loop does not terminate. -/
theorem loop_unfinished (h : LoopOptions o) (hs : o.sorts.Spec (Boosting.better : ℚ → ℚ → Bool))
    (ht : ∀ k d p candidates, Interleaving candidates (o.schedule k d p candidates)) (k : Nat) : ∀ (fuel depth : Nat)
    {best worst : Entry (Subspace Unit) Boosting.Condition (Head ℚ) ℚ}, LoopBeam best worst →
      beamLoop (subspaces loopEnv) Boosting.better o.sorts (loopConfig.beam o) (loopConfig.beamSearch o k loopCells) fuel depth true [best, worst] = Run.unfinished := by
  intro fuel
  induction fuel with
  | zero => intro depth best worst _; rfl
  | succ fuel ih =>
    intro depth best worst hb
    obtain ⟨best', worst', h1, h2⟩ := loop_refine h hs ht k depth hb
    rw [beamLoop, if_pos ⟨rfl, Or.inl rfl⟩]
    rw [show decide (0 < (loopConfig.beam o).maxHeadRefinements ∧ (loopConfig.beam o).maxHeadRefinements ≤ depth + 1) = false from decide_eq_false fun hx =>
      absurd hx.1 (Nat.lt_irrefl 0), h1]
    exact ih (depth + 1) h2

/-- The refinements of an empty rule. -/
def startCandidates : List (List (Scored (Found Boosting.Condition (Head ℚ)) ℚ)) :=
  [[⟨⟨loopCondition 0 2, 2, .complete [10]⟩, -100⟩, ⟨⟨⟨0, .nominalEq, 0, ⟨0, 1, true⟩, 8⟩, 8, .complete [-7 / 4]⟩, -49 / 4⟩],
    [⟨⟨loopCondition 1 4, 4, .complete [0]⟩, 0⟩, ⟨⟨⟨1, .nominalEq, 0, ⟨0, 1, true⟩, 6⟩, 6, .complete [1]⟩, -3⟩],
    [⟨⟨loopCondition 2 4, 4, .complete [0]⟩, 0⟩, ⟨⟨⟨2, .nominalEq, 0, ⟨0, 1, true⟩, 6⟩, 6, .complete [1]⟩, -3⟩],
    [⟨⟨loopCondition 3 1, 1, .complete [6]⟩, -18⟩, ⟨⟨⟨3, .nominalEq, 0, ⟨0, 1, true⟩, 9⟩, 9, .complete [0]⟩, 0⟩]]

set_option synthInstance.maxSize 1000 in
theorem loop_start : loopCandidates (.create loopEnv.space) = .ok startCandidates := by decide +kernel

theorem loop_startFound {sort : List (Scored (Found Boosting.Condition (Head ℚ)) ℚ) → List (Scored (Found Boosting.Condition (Head ℚ)) ℚ)}
    (hs : SortSpec Boosting.better sort) : findRefinementSequentially (fixedOps Boosting.better sort 2) startCandidates (Fixed.new 0) =
      .ok (⟨[⟨⟨loopCondition 0 2, 2, .complete [10]⟩, -100⟩, ⟨⟨loopCondition 3 1, 1, .complete [6]⟩, -18⟩], -18⟩, true) := by
  have h1 : ∀ {q q' : ℚ} {x : Found Boosting.Condition (Head ℚ)}, decide (q < q') = true →
      Fixed.consider Boosting.better sort 2 ⟨[], q'⟩ ⟨x, q⟩ = .ok ⟨[⟨x, q⟩], q⟩ := fun h => consider_first hs h
  have h2 : ∀ {q q' : ℚ} {l : List (Scored (Found Boosting.Condition (Head ℚ)) ℚ)} {x : Found Boosting.Condition (Head ℚ)}, decide (q < q') = false →
      Fixed.consider Boosting.better sort 2 ⟨l, q'⟩ ⟨x, q⟩ = .ok ⟨l, q'⟩ := fun h => consider_skip h
  simp only [findRefinementSequentially, startCandidates, List.mapM_cons, List.mapM_nil, List.foldlM_cons, List.foldlM_nil, Fixed.new, fixedOps, Fixed.copy]
  rw [h1 (by decide +kernel), ok_bind, h2 (by decide +kernel), ok_bind, h2 (by decide +kernel), ok_bind, h1 (by decide +kernel), ok_bind, h2 (by decide +kernel),
    ok_bind, h1 (by decide +kernel), ok_bind, h1 (by decide +kernel), ok_bind, h2 (by decide +kernel), ok_bind]
  simp only [pure, Except.pure, ok_bind]
  refine (mergeAll_sort id _ _ _ _).trans ?_
  decide +kernel

/-- A rule is never found. -/
theorem loop_growRule (h : LoopOptions o) (hs : o.sorts.Spec (Boosting.better : ℚ → ℚ → Bool))
    (ht : ∀ k d p candidates, Interleaving candidates (o.schedule k d p candidates)) (k fuel : Nat) :
    growRule (subspaces loopEnv) Boosting.better o.sorts (loopConfig.beam o) (loopConfig.beamSearch o k loopCells) 0 fuel = Run.unfinished := by
  have hw : (loopConfig.beam o).width = 2 := h.width
  have hfind := findRefinement_schedule_independent _ _ (ht k 0 0 startCandidates) _ _ (loop_startFound hs.refinements)
  have hworst : ((subspaces loopEnv).filter (.create loopEnv.space) (loopCondition 3 1) >>= fun s => loopCandidates s) = .ok [[], [], [], []] := by
    decide +kernel
  obtain ⟨s2, hs2, hc2⟩ := TabularData.ok_of_bind hworst
  have hcreate : ∃ loaded, (subspaces loopEnv).filter ((subspaces loopEnv).copy (.create loopEnv.space)) (loopCondition 0 2) = .ok (loopSubspace 1 0 loaded) := by
    refine ⟨upd (fun _ => false) 0 true, ?_⟩
    have hupd : ∀ a b : Option CacheEntry, upd (upd (fun _ => none) 0 a) 0 b = upd (fun _ => none) 0 b := by
      intro a b
      funext x
      unfold upd
      split <;> rfl
    exact congrArg (fun cache => Except.ok { loopSubspace 1 0 (upd (fun _ => false) 0 true) with cache := cache })
      (hupd (some ⟨none, 0⟩) (some ⟨some .equal, 1⟩))
  obtain ⟨loaded, hs1⟩ := hcreate
  unfold Beam.growRule
  rw [show (subspaces loopEnv).create = .create loopEnv.space from rfl, loop_beamSearch h, loop_start, hw]
  simp only [Run.lift_ok, Run.done_bind]
  rw [show (loopConfig.beamSearch o k loopCells).schedule 0 0 startCandidates = o.schedule k 0 0 startCandidates from rfl, hfind]
  simp only [Run.lift_ok, Run.done_bind]
  have hbeam : newBeam (H := Head ℚ) (Q := ℚ) (subspaces loopEnv) (.create loopEnv.space) (decide ((loopConfig.beam o).maxHeadRefinements = 1))
      [⟨⟨loopCondition 0 2, 2, .complete [10]⟩, -100⟩, ⟨⟨loopCondition 3 1, 1, .complete [6]⟩, -18⟩] =
      .ok [⟨⟨[loopCondition 0 2], .complete [10], loopSubspace 1 0 loaded, .all⟩, -100⟩, ⟨⟨[loopCondition 3 1], .complete [6], s2, .all⟩, -18⟩] := by
    simp only [newBeam, List.getLast?_cons_cons, List.getLast?_singleton, List.dropLast_cons_cons, List.dropLast_singleton, List.mapM_cons, List.mapM_nil,
      initializeEntry, hs1, hs2, ok_bind]
    rfl
  rw [hbeam]
  simp only [Run.lift_ok, Run.done_bind]
  rw [loop_unfinished h hs ht k fuel 1 ⟨⟨1, 0, loaded, le_rfl, by decide, rfl⟩, rfl, rfl, rfl, Or.inr ⟨rfl, hc2⟩⟩]
  rfl

/-- **C89** (negation): without a limit on the number of conditions, training does not terminate, regardless of the sorting algorithm and the order in which
threads work. -/
theorem beam_diverges (h : LoopOptions o) (hs : o.sorts.Spec (Boosting.better : ℚ → ℚ → Bool))
    (ht : ∀ k d p candidates, Interleaving candidates (o.schedule k d p candidates)) (fuel : Nat) :
    loopConfig.beamTraining o fuel loopCells = Run.unfinished := by
  cases fuel with
  | zero => rfl
  | succ fuel =>
    have hi : loopConfig.beamInduce o (fuel + 1) 0 loopCells = Run.unfinished := by
      unfold Boosting.Config.beamInduce Beam.induceRule
      rw [show growRule loopConfig.learner.subspaces loopConfig.learner.better o.sorts (loopConfig.beam o) (loopConfig.beamSearch o 0 loopCells)
        loopConfig.learner.minQuality (fuel + 1) = Run.unfinished from loop_growRule h hs ht 0 (fuel + 1)]
      rfl
    unfold Boosting.Config.beamTraining Training.Setup.induceRulesWith
    rw [show loopConfig.setup.start loopCells = .ok ⟨loopCells, ⟨none, [], 0⟩⟩ from rfl]
    simp only [Run.lift_ok, Run.done_bind]
    rw [show (if loopConfig.setup.useDefaultRule = true then 1 else 0) = 0 from rfl, Training.assembleWith]
    rw [show Stopping.listTest (loopConfig.setup.stopping.create loopConfig.setup.environment) loopCells 0 =
      .ok ({}, loopConfig.setup.stopping.create loopConfig.setup.environment) from rfl]
    simp only [Run.lift_ok, Run.done_bind]
    rw [hi]
    rfl

end

/-- Non-vacuity: the learner meets all requirements of the theorems in `Verif/Props/BeamTraining.lean`, apart from the limit on the number of conditions. -/
theorem exBeamOptions_loop : LoopOptions exBeamOptions ∧ BeamSafe exBeamOptions loopEnv.space.isEqual ∧
    Boosting.BeamTrainable loopConfig exBeamOptions loopData loopValues 0 0 (Reachable loopEnv loopData.numExamples) := by
  have h : BeamSafe exBeamOptions loopEnv.space.isEqual :=
    ⟨exBeamOptions_safe.width, exBeamOptions_safe.sorts, exBeamOptions_safe.schedule, exact_ok⟩
  exact ⟨⟨rfl, fun _ _ _ => rfl⟩, h, loopConfig_ok.beam loopConfig_safe h⟩

theorem loopUpdates_laws : Update.Laws loopConfig.updates loopData.numOutputs (fun r : List ℚ => r.length = loopData.numOutputs) Update.denseValue
    (UpToDate loopData exUpdate) :=
  Update.dense_laws 1 _ _ (fun i _ _ r' _ _ _ _ _ _ => ⟨_, rfl, rfl⟩)

theorem loopCells_initial : Training.Initial loopData.numExamples loopData.numOutputs (fun r : List ℚ => r.length = loopData.numOutputs) Update.denseValue
    (UpToDate loopData exUpdate) loopCells := by
  refine ⟨rfl, fun i c hc => ?_⟩
  unfold loopCells at hc
  rw [List.getElem?_map, Option.map_eq_some_iff] at hc
  obtain ⟨i', hi', rfl⟩ := hc
  obtain ⟨_, rfl⟩ := List.getElem?_eq_some_iff.1 hi'
  rw [List.getElem_range]
  have hz : ∀ j < 1, Update.denseValue [(0 : ℚ)] j = 0 := by decide +kernel
  refine ⟨⟨rfl, ?_⟩, hz⟩
  exact List.map_congr_left (fun j hj => by rw [hz j (List.mem_range.1 hj)])

example (fuel : Nat) : loopConfig.beamTraining exBeamOptions fuel loopCells = Run.unfinished :=
  beam_diverges exBeamOptions_loop.1 exBeamOptions_loop.2.1.sorts exBeamOptions_loop.2.1.schedule fuel

/-- The same learner terminates if the number of conditions is limited. -/
example : (({ loopConfig with grow := ⟨1, 4, 0⟩ } : Boosting.Config (Subspace Unit) ℚ).beamTraining exBeamOptions 6 loopCells >>= fun st => Run.done
    (st.allRules.map (fun rule => rule.conditions.map (fun c => (c.feature, c.comparator, c.threshold))))) =
      Run.done [[(0, .nominalEq, 1), (2, .nominalEq, 1), (1, .nominalEq, 1), (2, .nominalEq, 1)]] := by decide +kernel

end MLRL.Tabular
