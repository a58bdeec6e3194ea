import Verif.Model.BeamTraining
import Verif.Props.BeamSearch
import Verif.Props.BoostingTermination
import Verif.Lemma.Assemble
import Verif.Lemma.Simulation

/-! # Lemmas about boosting algorithms that use a beam search -/

namespace MLRL.Beam

open Refinement Induction

variable {σ Cond H Q : Type} {ops : SubspaceOps σ Cond} {better : Q → Q → Bool} {sorts : Sorts σ Cond H Q} {cfg : BeamConfig} {search : BeamSearch σ Cond H Q}

/-- If the loop ends, additional fuel makes no difference. -/
theorem beamLoop_mono : ∀ (fuel d : Nat) (found : Bool) (order order' : List (Entry σ Cond H Q)) (more : Nat), fuel ≤ more →
    beamLoop ops better sorts cfg search fuel d found order = Run.done order' → beamLoop ops better sorts cfg search more d found order = Run.done order' := by
  intro fuel
  induction fuel with
  | zero => intro d found order order' more _ h; exact absurd h.symm Run.done_ne_unfinished
  | succ fuel ih =>
    intro d found order order' more hm h
    obtain ⟨more, rfl⟩ : ∃ k, more = k + 1 := ⟨more - 1, by omega⟩
    rw [beamLoop] at h ⊢
    split
    · rename_i hc
      rw [if_pos hc] at h
      obtain ⟨r, h1, h⟩ := lift_bind_done h
      rw [h1, Run.lift_ok, Run.done_bind]
      exact ih _ _ _ _ more (by omega) h
    · rename_i hc
      rw [if_neg hc] at h
      exact h

theorem growRule_mono {minQuality : Q} {fuel more : Nat} (hm : fuel ≤ more) {g : Grown σ Cond H}
    (h : growRule ops better sorts cfg search minQuality fuel = Run.done g) : growRule ops better sorts cfg search minQuality more = Run.done g := by
  unfold growRule at h ⊢
  obtain ⟨candidates, h1, h⟩ := lift_bind_done h
  rw [h1, Run.lift_ok, Run.done_bind]
  obtain ⟨r, h2, h⟩ := lift_bind_done h
  rw [h2, Run.lift_ok, Run.done_bind]
  cases hr : r.2 with
  | false => rw [hr] at h; exact h
  | true =>
    rw [hr] at h
    simp only at h ⊢
    obtain ⟨order, h3, h⟩ := lift_bind_done h
    rw [h3, Run.lift_ok, Run.done_bind]
    obtain ⟨order', h4, h⟩ := run_bind_done h
    rw [beamLoop_mono _ _ _ _ _ more hm h4, Run.done_bind]
    exact h

end MLRL.Beam

namespace MLRL.Boosting

open Predictor Induction Refinement RuleEval TrainingLoss Beam

section
variable {σ K T : Type} [Field K] [LinearOrder K] [IsStrictOrderedRing K]

/-- What is assumed of a boosting algorithm that uses a beam search. The predicate `Inv` holds for the subspaces that can be reached. In contrast to
`TotalOk`, conditions may be added to copies of a subspace. -/
structure BeamTrainable (cfg : Config σ K) (o : BeamOptions σ K) (data : Data K T) (values : Nat → Nat → Option Rat) (l1 l2 : K) (Inv : σ → Prop) : Prop where
  numExamples : cfg.numExamples = data.numExamples
  numOutputs : cfg.numOutputs = data.numOutputs
  weight : cfg.weight = data.weight
  regularization : 0 ≤ l1 ∧ 0 ≤ l2
  weights : ∀ i, 0 ≤ data.weight i
  positive : 0 < cfg.shrinkage
  atMostOne : cfg.shrinkage ≤ 1
  evaluation : Scoring l1 l2 cfg.evaluation
  defaultEvaluation : Scoring l1 l2 cfg.defaultEvaluation
  sampledOutputs : ∀ k l, cfg.sampledOutputs k = some l → l.Nodup ∧ l ≠ [] ∧ ∀ j ∈ l, j < data.numOutputs
  applySchedule : ∀ k call, Interleaving (Update.Call.tasks cfg.updates call data.numExamples) (cfg.applySchedule k call)
  outputs : 0 < data.numOutputs
  evaluationTotal : TotalEvaluation cfg.evaluation
  defaultTotal : TotalEvaluation cfg.defaultEvaluation
  environment : cfg.environment.Total data.numExamples (fun r : List K => r.length = data.numOutputs)
  pruning : Training.ValidPruning cfg.stopping.globalPruning
  width : 1 ≤ o.width
  sorts : o.sorts.Spec (Boosting.better : K → K → Bool)
  schedule : ∀ k d p candidates, Interleaving candidates (o.schedule k d p candidates)
  create : Inv cfg.subspaces.create ∧ ∀ e, cfg.subspaces.covers cfg.subspaces.create e = decide (e < data.numExamples)
  search : ∀ (f : Nat) (s : σ) (stat : Nat → Nat → K × K), Inv s → (∀ e, data.weight e = 0 → stat e = 0) → ∃ r, cfg.searchFeature f s stat = .ok r ∧
    ∀ c ∈ r, c.stats = coveredStats data.numExamples (fun e => cfg.subspaces.covers s e && (conditionOf f c).holds values e) stat ∧
      ∀ s0, OrCopy cfg.subspaces s s0 → ∃ s', cfg.subspaces.filter s0 (conditionOf f c) = .ok s' ∧ Inv s' ∧
        ∀ e, cfg.subspaces.covers s' e = (cfg.subspaces.covers s e && (conditionOf f c).holds values e)

/-- Subspaces that consist of the examples they cover. -/
def maskOps (numExamples : Nat) (values : Nat → Nat → Option Rat) : SubspaceOps (Nat → Bool) Condition where
  create e := decide (e < numExamples)
  covers s := s
  reset _ e := decide (e < numExamples)
  filter s c := .ok (fun e => s e && c.holds values e)

theorem maskOps_laws (numExamples : Nat) (values : Nat → Nat → Option Rat) :
    SubspaceLaws (maskOps numExamples values) numExamples (Condition.holds values) where
  create _ := rfl
  reset _ _ := rfl
  filter s c s' h e := by cases h; rfl

/-- A boosting algorithm that uses such subspaces. It does not find any refinements, but it has the same default rule and applies rules in the same way. -/
def Config.masked (cfg : Config σ K) (values : Nat → Nat → Option Rat) : Config (Nat → Bool) K :=
  { cfg.using (maskOps cfg.numExamples values) (fun _ => cfg.subspaces.create) with
    searchFeature := fun _ _ _ => .ok []
    searchSchedule := fun _ _ => sequentially }

variable {cfg : Config σ K} {o : BeamOptions σ K} {data : Data K T} {values : Nat → Nat → Option Rat} {l1 l2 : K} {Inv : σ → Prop}

theorem BeamTrainable.masked (h : BeamTrainable cfg o data values l1 l2 Inv) : TotalOk (cfg.masked values) data values l1 l2 where
  numExamples := h.numExamples
  numOutputs := h.numOutputs
  weight := h.weight
  regularization := h.regularization
  weights := h.weights
  positive := h.positive
  atMostOne := h.atMostOne
  evaluation := h.evaluation
  defaultEvaluation := h.defaultEvaluation
  subspaces := by
    show SubspaceLaws (maskOps cfg.numExamples values) _ _
    rw [h.numExamples]
    exact maskOps_laws _ _
  searchFeature := by
    intro f s stat r _ hr c hc
    cases hr
    cases hc
  sampledOutputs := fun k l hl => (h.sampledOutputs k l hl).1
  searchSchedule := fun k n candidates => sequentially_interleaving candidates
  applySchedule := h.applySchedule
  outputs := h.outputs
  sampled := fun k l hl => (h.sampledOutputs k l hl).2
  evaluationTotal := h.evaluationTotal
  defaultTotal := h.defaultTotal
  search := fun f s stat _ => ⟨[], rfl, fun c hc => by cases hc⟩
  environment := h.environment
  pruning := h.pruning

/-- The candidates of a search for refinements of a subspace that can be reached. -/
theorem BeamTrainable.candidate (h : BeamTrainable cfg o data values l1 l2 Inv) {k d p : Nat} {cells : List (Update.Cell (List K) (List (Stat K)))} {s : σ}
    (hs : Inv s) {r : List (List (Scored (Found Condition (Head K)) K))} {restricted : Option (Head K)}
    (hr : (cfg.beamSearch o k cells).candidates d p s restricted = .ok r)
    {x : Scored (Found Condition (Head K)) K} (hx : x ∈ r.flatten) :
    ∃ f l c stats scores, cfg.searchFeature f s (weightedStat data.weight cells) = .ok l ∧ c ∈ l ∧ x.refinement.condition = conditionOf f c ∧
      outputStats data.numOutputs (searchOutputs data.numOutputs (cfg.sampledOutputs k) restricted).1 (coveredStats data.numExamples
        (fun e => cfg.subspaces.covers s e && x.refinement.condition.holds values e) (weightedStat data.weight cells)) = .ok stats ∧
      cfg.evaluation.calculateScores (searchOutputs data.numOutputs (cfg.sampledOutputs k) restricted).2
        (searchOutputs data.numOutputs (cfg.sampledOutputs k) restricted).1 stats = .ok scores ∧
      x.quality = scores.quality ∧
      x.refinement.head = headOf (cfg.evaluation.complete && (searchOutputs data.numOutputs (cfg.sampledOutputs k) restricted).2) scores ∧
      ∀ s0, OrCopy cfg.subspaces s s0 → ∃ s', cfg.subspaces.filter s0 x.refinement.condition = .ok s' ∧ Inv s' ∧
        ∀ e, cfg.subspaces.covers s' e = (cfg.subspaces.covers s e && x.refinement.condition.holds values e) := by
  simp only [Config.beamSearch] at hr
  rw [h.numOutputs, h.weight] at hr
  obtain ⟨f, _, l, hl, c, hcl, stats, scores, hst, hev, rfl⟩ := candidates_origin hr x hx
  obtain ⟨r', h1, h2⟩ := h.search f s (weightedStat data.weight cells) hs (fun e he => weightedStat_zero he)
  rw [hl] at h1
  cases h1
  obtain ⟨h3, h4⟩ := h2 c hcl
  rw [h3] at hst
  exact ⟨f, l, c, stats, scores, hl, hcl, rfl, hst, hev, rfl, rfl, h4⟩

/-- The head of a candidate that is better than a rule without conditions. -/
theorem BeamTrainable.restricts (h : BeamTrainable cfg o data values l1 l2 Inv) {k d p : Nat} {cells : List (Update.Cell (List K) (List (Stat K)))} {s : σ}
    (hs : Inv s) {r : List (List (Scored (Found Condition (Head K)) K))} {restricted : Option (Head K)}
    (ho : ∀ hd, restricted = some hd → Restricts data.numOutputs hd) (hr : (cfg.beamSearch o k cells).candidates d p s restricted = .ok r)
    {x : Scored (Found Condition (Head K)) K} (hx : x ∈ r.flatten) (hq : better x.quality 0 = true) :
    Restricts data.numOutputs x.refinement.head ∧ Update.Fits data.numOutputs x.refinement.head := by
  obtain ⟨f, l, c, stats, scores, _, _, _, h1, h2, h3, h4, _⟩ := h.candidate hs hr hx
  obtain ⟨o1, o2, o3, o4⟩ := searchOutputs_good h.outputs (h.sampledOutputs k) ho
  obtain ⟨_, _, g1, g2, _⟩ := scores_quality h.evaluation h1 h2
  obtain ⟨g0, _, _, _, g3⟩ := evaluated_chosen (outputs := searchOutputs data.numOutputs (cfg.sampledOutputs k) restricted) h.evaluation o4 h1 h2
  have hq : x.quality < 0 := of_decide_eq_true hq
  rw [h4]
  refine ⟨⟨(g3 o2).1, ?_⟩, g0⟩
  rw [headSize_headOf g1]
  intro hz
  rw [List.length_eq_zero_iff.1 hz] at g2
  rw [h3, g2] at hq
  exact absurd hq (lt_irrefl _)

/-- What is known about the refinements a rule results from. -/
theorem BeamTrainable.path (h : BeamTrainable cfg o data values l1 l2 Inv) {k : Nat} {cells : List (Update.Cell (List K) (List (Stat K)))}
    {chosen : List (Scored (Found Condition (Head K)) K)} {s : σ} {restricted : Option (Head K)}
    (hp : Path cfg.subspaces (cfg.beam o).toGrowConfig (cfg.beamSearch o k cells) (fun q => better q 0 = true) chosen s restricted) :
    Inv s ∧ cfg.subspaces.covers s = coverage data.numExamples (Condition.holds values) (chosen.map (fun x => x.refinement.condition)) ∧
      (∀ hd, restricted = some hd → Restricts data.numOutputs hd) ∧
      (∀ x ∈ chosen, ∃ f s l c, Inv s ∧ cfg.searchFeature f s (weightedStat data.weight cells) = .ok l ∧ c ∈ l ∧ x.refinement.condition = conditionOf f c) ∧
      ∀ x, chosen.getLast? = some x → Update.Fits data.numOutputs x.refinement.head ∧ Distinct data.numOutputs x.refinement.head ∧
        ∀ {update : T → K → Stat K}, GoodCells data (fun r : List K => r.length = data.numOutputs) (UpToDate data update) cells →
          ∀ scores, ScoresOf data.numOutputs Update.denseValue cells scores →
            data.estimate update scores (cfg.subspaces.covers s) (fun j => Spec.contribution j x.refinement.head) ≤ x.quality := by
  induction hp with
  | start =>
    refine ⟨h.create.1, ?_, fun hd hh => (by cases hh), fun x hx => (by cases hx), fun x hx => (by cases hx)⟩
    funext e
    rw [h.create.2]
    simp [coverage]
  | @step chosen s restricted position candidates x s0 s' _ _ _ hc hx hxP h0 hf ih =>
    obtain ⟨i1, i2, i3, i4, _⟩ := ih
    obtain ⟨f, l, c, stats, scoreVector, c1, c2, c3, h1, h2, h3, h4, h5⟩ := h.candidate i1 hc hx
    obtain ⟨s'', g1, g2, g3⟩ := h5 s0 h0
    rw [hf] at g1
    cases g1
    obtain ⟨r1, r2⟩ := h.restricts i1 i3 hc hx hxP
    obtain ⟨o1, o2, o3, o4⟩ := searchOutputs_good h.outputs (h.sampledOutputs k) i3
    refine ⟨g2, ?_, ?_, ?_, ?_⟩
    · funext e
      rw [g3, i2]
      simp [coverage, Bool.and_assoc]
    · intro hd hh
      split at hh
      · cases hh
        exact r1
      · exact i3 hd hh
    · intro y hy
      rcases List.mem_append.1 hy with hy | hy
      · exact i4 y hy
      · rw [List.mem_singleton] at hy
        subst hy
        exact ⟨f, s, l, c, i1, c1, c2, c3⟩
    · intro y hy
      rw [List.getLast?_concat] at hy
      cases hy
      refine ⟨r2, r1.1, fun {update} hcells scores hsc => ?_⟩
      have hev := (evaluated_head h.regularization.1 h.regularization.2 h.evaluation o4 o2 h1 h2).2
      rw [h3, h4]
      refine le_trans (le_of_eq ?_) hev
      unfold Data.estimate
      refine Finset.sum_congr rfl (fun j hj => ?_)
      have hcov : cfg.subspaces.covers s' = fun e => cfg.subspaces.covers s e && x.refinement.condition.holds values e := funext g3
      have hj' := sum_weightedStat (good_statistics hcells hsc) (cfg.subspaces.covers s') (Finset.mem_range.1 hj)
      unfold coveredStats
      rw [← hcov, hj']

theorem BeamTrainable.succeeds (h : BeamTrainable cfg o data values l1 l2 Inv) (k : Nat) (cells : List (Update.Cell (List K) (List (Stat K)))) :
    Beam.Succeeds cfg.subspaces (cfg.beam o).toGrowConfig (cfg.beamSearch o k cells) (fun q => better q 0 = true) := by
  intro chosen s restricted hp position
  obtain ⟨i1, _, i3, _⟩ := h.path hp
  obtain ⟨o1, o2, o3, _⟩ := searchOutputs_good h.outputs (h.sampledOutputs k) i3
  have htotal : ∃ r, (cfg.beamSearch o k cells).candidates chosen.length position s restricted = .ok r := by
    simp only [Config.beamSearch]
    rw [h.numOutputs, h.weight]
    refine mapM_total (fun f _ => ?_)
    unfold scoreFeature
    obtain ⟨l, hl, _⟩ := h.search f s (weightedStat data.weight cells) i1 (fun e he => weightedStat_zero he)
    rw [hl, ok_bind]
    refine mapM_total (fun c _ => ?_)
    unfold scoreCandidate
    rw [outputStats_total o3, ok_bind]
    obtain ⟨scores, hs⟩ := h.evaluationTotal (searchOutputs data.numOutputs (cfg.sampledOutputs k) restricted).2 _ ((searchOutputs data.numOutputs (cfg.sampledOutputs k) restricted).1.map
      (fun j => ⟨(c.stats j).1, (c.stats j).2⟩)) o1 (by simp)
    rw [hs, ok_bind]
    exact ⟨_, rfl⟩
  obtain ⟨r, hr⟩ := htotal
  refine ⟨r, hr, fun x hx _ s0 h0 => ?_⟩
  obtain ⟨_, _, _, _, _, _, _, _, _, _, _, _, h5⟩ := h.candidate i1 hr hx
  obtain ⟨s', h6, _⟩ := h5 s0 h0
  exact ⟨s', h6⟩

end

end MLRL.Boosting
