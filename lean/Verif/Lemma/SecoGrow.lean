import Verif.Lemma.SecoTraining
import Verif.Lemma.TrainingTermination

/-! # Growing rules by separate-and-conquer algorithms -/

namespace MLRL.Induction

open Refinement

section
variable {σ Cond H Q : Type} {ops : SubspaceOps σ Cond} {better : Q → Q → Bool} {sortHead : H → H} {cfg : GrowConfig} {search : Search σ Cond H Q}
  {minQuality : Q}

/-- If there are finitely many qualities, no more refinements than that can be better than all previous ones. -/
theorem shrinks_of_finite (hb : StrictWeak better) (V : Finset Q)
    (hV : ∀ chosen s q outputs candidates x, Greedy ops better sortHead cfg search minQuality chosen s q outputs →
      search.candidates chosen.length s outputs = .ok candidates → x ∈ candidates.flatten → x.quality ∈ V) :
    Shrinks ops better sortHead cfg search minQuality
      (fun chosen _ => (V.filter (fun v => better v ((chosen.getLast?.map (fun x => x.quality)).getD minQuality) = true)).card) := by
  intro chosen s q outputs candidates x s' hg hc hx hbx _
  obtain ⟨_, _, hq⟩ := greedy_improves hb hg
  simp only [List.getLast?_concat, Option.map_some, Option.getD_some]
  rw [← hq]
  refine Finset.card_lt_card (Finset.ssubset_iff_subset_ne.2 ⟨?_, ?_⟩)
  · intro v hv
    rw [Finset.mem_filter] at hv ⊢
    exact ⟨hv.1, hb.trans _ _ _ hv.2 hbx⟩
  · intro heq
    have hmem : x.quality ∈ V.filter (fun v => better v q = true) := Finset.mem_filter.2 ⟨hV _ _ _ _ _ _ hg hc hx, hbx⟩
    rw [← heq, Finset.mem_filter, hb.irrefl] at hmem
    exact absurd hmem.2 (by simp)

variable {τ : Type} {ops' : SubspaceOps τ Cond} {search' : Search τ Cond H Q} {φ : τ → σ}

theorem growRule_simulates (hb : StrictWeak better) (hv : search'.Valid) (h : Simulates ops' ops φ search' search) (fuel : Nat) :
    (growRule ops' better sortHead cfg search' minQuality fuel >>= fun g => Run.done (⟨g.conditions, φ g.subspace, g.head⟩ : Grown σ Cond H)) =
      growRule ops better sortHead cfg search minQuality fuel := by
  have hl := growLoop_simulates (sortHead := sortHead) (cfg := cfg) hb hv h fuel ⟨[], ops'.create, none, Single.new minQuality⟩
  have hs : GrowState.onSubspace φ (⟨[], ops'.create, none, Single.new minQuality⟩ : GrowState τ Cond H Q) =
      ⟨[], ops.create, none, Single.new minQuality⟩ := by
    unfold GrowState.onSubspace
    rw [h.create]
  rw [hs] at hl
  unfold growRule
  rw [← hl]
  simp only [bind_assoc]
  rfl

end

end MLRL.Induction

namespace MLRL.SecoTraining

open Predictor Induction Refinement Seco Statistics

section
variable {K : Type} [Field K] [LinearOrder K] [IsStrictOrderedRing K]
variable {round : Round K} {ev : Evaluation K} {majority : List Nat} {n c : Nat} {values : Nat → Nat → Option Rat} {h : Heuristic K}
    {total : List (Confusion K)} {ex : Nat → ConfusionMatrices K} {gcfg : GrowConfig}

omit [Field K] [LinearOrder K] [IsStrictOrderedRing K] in
theorem predictedValue_map {V : Type} (f : Nat → V) : ∀ (indices : List Nat) (j : Nat),
    predictedValue (.partial_ (indices.map (fun j => (j, f j)))) j = if j ∈ indices then some (f j) else none
  | [], j => rfl
  | i :: l, j => by
    have ih := predictedValue_map f l j
    simp only [predictedValue] at ih ⊢
    rw [List.map_cons, List.find?_cons]
    by_cases hij : i = j
    · subst hij
      simp
    · simp only [hij, decide_false]
      rw [ih]
      have : j ∈ i :: l ↔ j ∈ l := by
        rw [List.mem_cons]
        exact ⟨fun hh => hh.resolve_left (fun e => hij e.symm), Or.inr⟩
      simp only [this]

/-- What is known about the refinements that have been chosen so far. -/
theorem Growing.greedy (g : Growing round ev majority n c values h total ex)
    {chosen : List (Scored (Found Boosting.Condition (Predictor.Head K)) (Option K))}
    {s : {s : FeatureSpace.Subspace Unit // Tabular.Reachable round.env n s}} {q : Option K} {o : Option (Predictor.Head K)}
    (hg : Greedy (Tabular.reachable g.roundOk.table) betterNumber Boosting.sortHead gcfg (reachSearch round n ev majority c total ex) (some 0)
      chosen s q o) :
    (∀ hd, o = some hd → MinorityHead c majority hd) ∧ (∃ v, q = some v ∧ 0 ≤ v) ∧
      (∀ x ∈ chosen, Tabular.Typed round.env x.refinement.condition) ∧
      ∀ x, chosen.getLast? = some x → MinorityHead c majority (Boosting.sortHead x.refinement.head) ∧
        ∃ j < c, (predictedValue (Boosting.sortHead x.refinement.head) j).isSome = true ∧ 0 < qualityOf h n ex (Tabular.covers s.1) j := by
  induction hg with
  | start => exact ⟨fun hd hh => (by cases hh), ⟨0, rfl, le_rfl⟩, fun x hx => (by cases hx), fun x hx => (by cases hx)⟩
  | @step chosen s q o r x s' _ _ _ hc hx hb hf ih =>
    obtain ⟨i1, ⟨v0, rfl, i2⟩, i3, _⟩ := ih
    obtain ⟨result, c1, c2, c3, c4, _⟩ := g.candidate i1 hc (FirstBest.mem hx)
    obtain ⟨o1, o2, o3, o4⟩ := g.outputsOk i1
    obtain ⟨result', e1, e2⟩ := g.evaluate o1 o2 o3 o4 (fun e => Tabular.covers s.1 e && x.refinement.condition.holds values e)
    rw [c1] at e1
    cases e1
    have hcov : Tabular.covers s'.1 = fun e => Tabular.covers s.1 e && x.refinement.condition.holds values e :=
      funext ((Tabular.reachable_laws g.roundOk.table).filter s _ s' hf)
    obtain ⟨v, hv⟩ : ∃ v, x.quality = some v := by
      cases hxq : x.quality with
      | none => rw [hxq] at hb; cases hb
      | some v => exact ⟨v, rfl⟩
    have hvpos : 0 < v := by
      rw [hv] at hb
      exact lt_of_le_of_lt i2 (of_decide_eq_true hb)
    have hgood : MinorityHead c majority (Boosting.sortHead x.refinement.head) := by
      rw [c3]
      exact minorityHead_sort e2 o3
    refine ⟨?_, ⟨v, hv, hvpos.le⟩, ?_, ?_⟩
    · intro hd hh
      split at hh
      · cases hh
        exact hgood
      · exact i1 hd hh
    · intro y hy
      rcases List.mem_append.1 hy with hy | hy
      · exact i3 y hy
      · rw [List.mem_singleton.1 hy]
        exact c4
    · intro y hy
      rw [List.getLast?_concat] at hy
      cases hy
      refine ⟨hgood, ?_⟩
      obtain ⟨j, hj, hqj⟩ := e2.positive v (by rw [← c2, hv]) hvpos
      refine ⟨j, o3 j (e2.subset j hj), ?_, by rw [hcov]; exact hqj⟩
      rw [c3, sortHead_headOf e2 o3, predictedValue_map, if_pos ((List.mem_insertionSort _).2 hj)]
      rfl

theorem Growing.succeeds (g : Growing round ev majority n c values h total ex) :
    Succeeds (Tabular.reachable g.roundOk.table) betterNumber Boosting.sortHead gcfg (reachSearch round n ev majority c total ex) (some 0) := by
  intro chosen s q o hg
  obtain ⟨i1, _⟩ := g.greedy hg
  obtain ⟨o1, o2, o3, o4⟩ := g.outputsOk i1
  obtain ⟨conds, hs⟩ := s.2
  have htotal : ∃ r, (reachSearch round n ev majority c total ex).candidates chosen.length s o = .ok r := by
    refine Boosting.mapM_total (fun f _ => ?_)
    unfold scoreFeature
    obtain ⟨l, k1, k2⟩ := Tabular.searchFeature_ok g.roundOk.table hs f g.zero
    beta_reduce
    rw [k1, ok_bind]
    refine Boosting.mapM_total (fun cand hc => ?_)
    unfold scoreCandidate
    rw [outputConfusions_ok o3, ok_bind]
    obtain ⟨_, k3, _⟩ := k2 cand hc
    rw [k3, sums_eq]
    obtain ⟨result, e1, _⟩ := g.evaluate o1 o2 o3 o4
      (fun e => FeatureSpace.satisfiesAll conds e && (Boosting.conditionOf f cand).holds values e)
    rw [e1, ok_bind]
    exact ⟨_, rfl⟩
  obtain ⟨r, hr⟩ := htotal
  refine ⟨r, hr, fun x hx => ?_⟩
  obtain ⟨_, _, _, _, _, s', hs'⟩ := g.candidate i1 hr hx
  have := Tabular.reachable_filter g.roundOk.table hs'
  rw [hs'.1] at this
  cases hf : (Tabular.reachable g.roundOk.table).filter s x.refinement.condition with
  | error e => rw [hf] at this; cases this
  | ok s'' => exact ⟨s'', rfl⟩

/-- The quality of a rule that covers the examples in a set. -/
def setQuality (ev : Evaluation K) (majority : List Nat) (n : Nat) (total : List (Confusion K)) (ex : Nat → ConfusionMatrices K)
    (p : Finset Nat × List Nat × Bool) : Option K :=
  match ev.calculateScores p.2.2 majority p.2.1 total (p.2.1.map (sums n ex (fun e => decide (e ∈ p.1)))) with
  | .ok r => r.quality
  | .error _ => none

open Classical in
/-- All qualities rules may have. -/
noncomputable def qualities (ev : Evaluation K) (majority : List Nat) (n c : Nat) (total : List (Confusion K)) (ex : Nat → ConfusionMatrices K) :
    Finset (Option K) :=
  ((Finset.range n).powerset ×ˢ (List.range c).sublists.toFinset ×ˢ Finset.univ).image (setQuality ev majority n total ex)

theorem Growing.shrinks (g : Growing round ev majority n c values h total ex) :
    Shrinks (Tabular.reachable g.roundOk.table) betterNumber Boosting.sortHead gcfg (reachSearch round n ev majority c total ex) (some 0)
      (fun chosen _ => ((qualities ev majority n c total ex).filter
        (fun v => betterNumber v ((chosen.getLast?.map (fun x => x.quality)).getD (some 0)) = true)).card) := by
  refine shrinks_of_finite betterNumber_strictWeak _ (fun chosen s q o r x hg hc hx => ?_)
  obtain ⟨i1, _⟩ := g.greedy hg
  obtain ⟨o1, o2, o3, o4⟩ := g.outputsOk i1
  obtain ⟨result, c1, c2, _⟩ := g.candidate i1 hc hx
  unfold qualities
  classical
  refine Finset.mem_image.2 ⟨((Finset.range n).filter (fun e => (Tabular.covers s.1 e && x.refinement.condition.holds values e) = true),
    (Boosting.searchOutputs c round.sampledOutputs o).1, (Boosting.searchOutputs c round.sampledOutputs o).2), ?_, ?_⟩
  · refine Finset.mem_product.2 ⟨Finset.mem_powerset.2 (Finset.filter_subset _ _), Finset.mem_product.2 ⟨?_, Finset.mem_univ _⟩⟩
    rw [List.mem_toFinset, List.mem_sublists]
    have hnd : (Boosting.searchOutputs c round.sampledOutputs o).1.Nodup := o2.imp (fun h => Nat.ne_of_lt h)
    exact List.sublist_of_subperm_of_pairwise (r := (· < ·)) (hnd.subperm (fun j hj => List.mem_range.2 (o3 j hj))) o2 List.pairwise_lt_range
  · unfold setQuality
    have hsum : sums n ex (fun e => decide (e ∈ (Finset.range n).filter
        (fun e => (Tabular.covers s.1 e && x.refinement.condition.holds values e) = true))) =
        sums n ex (fun e => Tabular.covers s.1 e && x.refinement.condition.holds values e) := by
      refine sums_congr (fun e he => ?_)
      simp [he]
    simp only [hsum]
    rw [c1, c2]

omit [IsStrictOrderedRing K] in
theorem search_valid {n c : Nat} {values : Nat → Nat → Option Rat} (hr : RoundOk round n c values) :
    (reachSearch round n ev majority c total ex).Valid := hr.schedule

theorem Growing.simulates (g : Growing round ev majority n c values h total ex) :
    Simulates (Tabular.reachable g.roundOk.table) (Tabular.subspaces round.env) Subtype.val (reachSearch round n ev majority c total ex)
      (round.search ev majority c total (Tabular.searchFeature round.env) ex) where
  create := rfl
  covers s := rfl
  candidates n s o := rfl
  schedule := rfl
  filter m s o r hr x hx := by
    obtain ⟨l', h1, h2⟩ := List.mem_flatten.1 hx
    obtain ⟨f, hf, h3⟩ := TrainingLoss.mem_of_mapM hr l' h1
    unfold scoreFeature at h3
    obtain ⟨conds, hs⟩ := s.2
    obtain ⟨l, k1, k2⟩ := Tabular.searchFeature_ok g.roundOk.table hs f g.zero
    beta_reduce at h3
    rw [k1, ok_bind] at h3
    obtain ⟨cand, hc, h4⟩ := TrainingLoss.mem_of_mapM h3 x h2
    unfold scoreCandidate at h4
    obtain ⟨covered, _, h4⟩ := bind_ok h4
    obtain ⟨result, _, h4⟩ := bind_ok h4
    cases h4
    obtain ⟨s', hs'⟩ := Tabular.candidate_adds g.roundOk.table s.2 g.zero k1 hc
    exact Tabular.reachable_filter g.roundOk.table hs'

theorem Growing.transfer (g : Growing round ev majority n c values h total ex) (fuel : Nat) :
    growRule (Tabular.subspaces round.env) better Boosting.sortHead gcfg (round.search ev majority c total (Tabular.searchFeature round.env) ex)
      (some 0) fuel =
    (growRule (Tabular.reachable g.roundOk.table) betterNumber Boosting.sortHead gcfg (reachSearch round n ev majority c total ex) (some 0) fuel >>=
      fun r => Run.done ⟨r.conditions, r.subspace.1, r.head⟩) := by
  rw [growRule_congr better_agrees rfl]
  exact (growRule_simulates betterNumber_strictWeak (search_valid g.roundOk) g.simulates fuel).symm

/-- What is known about a rule that has been grown. -/
theorem Growing.grown (g : Growing round ev majority n c values h total ex) {fuel : Nat}
    {gr : Grown (FeatureSpace.Subspace Unit) Boosting.Condition (Predictor.Head K)}
    (hr : growRule (Tabular.subspaces round.env) better Boosting.sortHead gcfg
      (round.search ev majority c total (Tabular.searchFeature round.env) ex) (some 0) fuel = Run.done gr) :
    Tabular.covers gr.subspace = coverage n (Boosting.Condition.holds values) gr.conditions ∧
      (∀ cond ∈ gr.conditions, Tabular.Typed round.env cond) ∧
      ∀ head, gr.head = some head → MinorityHead c majority head ∧
        ∃ j < c, (predictedValue head j).isSome = true ∧ 0 < qualityOf h n ex (Tabular.covers gr.subspace) j := by
  rw [g.transfer] at hr
  obtain ⟨gr', h1, h2⟩ := run_bind_done hr
  cases Run.done_inj h2
  obtain ⟨chosen, s, q, o, k1, _, rfl⟩ := growRule_greedy betterNumber_strictWeak (search_valid g.roundOk) h1
  obtain ⟨_, _, i3, i4⟩ := g.greedy k1
  refine ⟨create_covers (Tabular.reachable_laws g.roundOk.table) k1.filtered, ?_, ?_⟩
  · intro cond hc
    obtain ⟨x, hx, rfl⟩ := List.mem_map.1 hc
    exact i3 x hx
  · intro head hh
    cases hlast : chosen.getLast? with
    | none => simp only [hlast] at hh; cases hh
    | some x =>
      simp only [hlast, Option.map_some] at hh
      cases hh
      exact i4 x hlast

theorem Growing.terminates (g : Growing round ev majority n c values h total ex) :
    ∃ bound gr, ∀ fuel, bound ≤ fuel → growRule (Tabular.subspaces round.env) better Boosting.sortHead gcfg
      (round.search ev majority c total (Tabular.searchFeature round.env) ex) (some 0) fuel = Run.done gr := by
  obtain ⟨gr, hgr⟩ := growRule_terminates_shrinking (cfg := gcfg) betterNumber_strictWeak (search_valid g.roundOk) g.succeeds g.shrinks
  have key : ∀ bound, growRule (Tabular.reachable g.roundOk.table) betterNumber Boosting.sortHead gcfg
      (reachSearch round n ev majority c total ex) (some 0) bound = Run.done gr → ∃ bound gr, ∀ fuel, bound ≤ fuel →
        growRule (Tabular.subspaces round.env) better Boosting.sortHead gcfg
          (round.search ev majority c total (Tabular.searchFeature round.env) ex) (some 0) fuel = Run.done gr := by
    intro bound hgr
    refine ⟨bound, ⟨gr.conditions, gr.subspace.1, gr.head⟩, fun fuel hf => ?_⟩
    rw [g.transfer, Training.growRule_mono hf hgr]
    rfl
  exact key _ hgr

end

end MLRL.SecoTraining
