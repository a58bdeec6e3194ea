import Verif.Lemma.OutOfSample
import Verif.Props.Tabular
import Verif.Model.OutOfSample

/-!
# Pruning rules for different implementations of feature subspaces
-/

namespace MLRL.Induction

open Refinement Predictor

variable {σ τ Cond H Q : Type}

/-- Adding the conditions one after another leads from one subspace to another, and both implementations behave the same. -/
inductive Walk (ops' : SubspaceOps σ Cond) (ops : SubspaceOps τ Cond) (φ : σ → τ) : σ → List Cond → σ → Prop where
  | nil (s) : Walk ops' ops φ s [] s
  | cons {s c s' cs t} : ops'.filter s c = .ok s' → ops.filter (φ s) c = .ok (φ s') → Walk ops' ops φ s' cs t → Walk ops' ops φ s (c :: cs) t

variable {ops' : SubspaceOps σ Cond} {ops : SubspaceOps τ Cond} {φ : σ → τ} {better : Q → Q → Bool}

theorem Walk.snoc {s t t' : σ} {cs : List Cond} {c : Cond} (h : Walk ops' ops φ s cs t) (h1 : ops'.filter t c = .ok t')
    (h2 : ops.filter (φ t) c = .ok (φ t')) : Walk ops' ops φ s (cs ++ [c]) t' := by
  induction h with
  | nil s => exact .cons h1 h2 (.nil _)
  | cons g1 g2 _ ih => exact .cons g1 g2 (ih h1 h2)

/-- Replaces the subspace. -/
def PruneState.onSubspace (φ : σ → τ) (st : PruneState σ Q) : PruneState τ Q := ⟨φ st.subspace, st.quality, st.mask, st.numPruned⟩

/-- Replaces the subspace. -/
def Pruned.onSubspace (φ : σ → τ) (p : Pruned σ Cond) : Pruned τ Cond := ⟨p.conditions, p.mask, φ p.subspace⟩

theorem pruneLoop_simulates (hcov : ∀ s, ops'.covers s = ops.covers (φ s)) (eval : (Nat → Bool) → Res Q) (conditions : List Cond) :
    ∀ (count n : Nat) (st : PruneState σ Q) (t : σ), Walk ops' ops φ st.subspace (conditions.drop n) t → n + count ≤ conditions.length →
      loopFrom (pruneStep ops better eval conditions) (n + 1) count (st.onSubspace φ) =
        (loopFrom (pruneStep ops' better eval conditions) (n + 1) count st).map (PruneState.onSubspace φ) := by
  intro count
  induction count with
  | zero => intros; rfl
  | succ count ih =>
    intro n st t hw hn
    have hlt : n < conditions.length := by omega
    rw [List.drop_eq_getElem_cons hlt] at hw
    cases hw with
    | @cons _ _ s' _ _ h1 h2 h3 =>
      simp only [loopFrom_succ]
      have hread : readAt conditions (n + 1 - 1) = .ok conditions[n] := by
        rw [show n + 1 - 1 = n from rfl]
        exact readAt_of_lt hlt
      have hstep : pruneStep ops better eval conditions (n + 1) (st.onSubspace φ) =
          (pruneStep ops' better eval conditions (n + 1) st).map (PruneState.onSubspace φ) := by
        unfold pruneStep
        rw [hread]
        simp only [ok_bind, PruneState.onSubspace, h1, h2, hcov]
        cases eval (ops.covers (φ s')) with
        | error e => rfl
        | ok q =>
          simp only [ok_bind]
          by_cases hbt : (better q st.quality || decide (st.numPruned = 0) && !better st.quality q) = true
          · refine (if_pos hbt).trans ?_
            rw [if_pos hbt]
            rfl
          · refine (if_neg hbt).trans ?_
            rw [if_neg hbt]
            rfl
      have hsub : ∀ st', pruneStep ops' better eval conditions (n + 1) st = .ok st' → st'.subspace = s' := by
        intro st' h
        unfold pruneStep at h
        rw [hread] at h
        simp only [ok_bind, h1] at h
        cases hq : eval (ops'.covers s') with
        | error e => rw [hq] at h; cases h
        | ok q =>
          rw [hq] at h
          simp only [ok_bind] at h
          split at h <;> (cases h; rfl)
      rw [hstep]
      cases hs : pruneStep ops' better eval conditions (n + 1) st with
      | error e => rfl
      | ok st' =>
        simp only [Except.map, ok_bind]
        exact ih (n + 1) st' t (by rw [hsub st' hs]; exact h3) (by omega)

theorem prune_simulates (hcov : ∀ s, ops'.covers s = ops.covers (φ s)) (eval : (Nat → Bool) → Res Q) {conditions : List Cond} {s t : σ}
    (hreset : φ (ops'.reset s) = ops.reset (φ s)) (hw : Walk ops' ops φ (ops'.reset s) conditions t) :
    prune ops better eval conditions (φ s) = (prune ops' better eval conditions s).map (Pruned.onSubspace φ) := by
  unfold prune
  split
  · simp only [← hreset, hcov]
    cases eval (ops.covers (φ s)) with
    | error e => rfl
    | ok q =>
      simp only [ok_bind]
      have := pruneLoop_simulates (better := better) hcov eval conditions (conditions.length - 1) 0 ⟨ops'.reset s, q, ops.covers (φ s), 0⟩ t hw
        (by omega)
      simp only [PruneState.onSubspace, Nat.zero_add] at this
      rw [this]
      cases loopFrom (pruneStep ops' better eval conditions) 1 (conditions.length - 1) ⟨ops'.reset s, q, ops.covers (φ s), 0⟩ with
      | error e => rfl
      | ok st => rfl
  · rfl

end MLRL.Induction

namespace MLRL.FeatureSpace

variable {M : Type} [Zero M] [Add M] [Sub M]

/-- Subspaces that only differ in the vectors that have been loaded. -/
def SameButLoaded (s t : Subspace M) : Prop := t = { s with loaded := t.loaded }

theorem invoke_same {env : Env M} {s t s' : Subspace M} (h : SameButLoaded s t) {f : Nat} {v : FeatureVector}
    (hi : s.invoke env f = .ok (v, s')) : ∃ t', t.invoke env f = .ok (v, t') ∧ SameButLoaded s' t' ∧
      ((s'.entry f).vector.isSome = true ∨ s'.loaded f = true ∧ t'.loaded f = true) := by
  unfold SameButLoaded at h
  generalize t.loaded = L at h
  subst h
  unfold Subspace.invoke at hi ⊢
  simp only [Subspace.entry] at hi ⊢
  by_cases hn : s.numModifications > ((s.cache f).getD { vector := none, numConditions := 0 }).numConditions
  · simp only [hn, if_true] at hi ⊢
    cases hv : (((s.cache f).getD { vector := none, numConditions := 0 }).vector.getD (env.column f)).filterMask env.isEqual s.mask with
    | error e => rw [hv] at hi; cases hi
    | ok v' =>
      rw [hv] at hi
      cases hi
      refine ⟨_, rfl, rfl, Or.inl ?_⟩
      simp [upd]
  · simp only [hn, if_false] at hi ⊢
    cases hi
    refine ⟨_, rfl, rfl, ?_⟩
    by_cases hvec : ((s.cache f).getD { vector := none, numConditions := 0 }).vector.isSome = true
    · exact Or.inl (by simpa [upd] using hvec)
    · exact Or.inr (by simp [upd, hvec])

theorem filter_same {env : Env M} {s t s' : Subspace M} (h : SameButLoaded s t) {f : Nat}
    (hl : (s.entry f).vector.isSome = true ∨ s.loaded f = true ∧ t.loaded f = true) {i : Interval} {k : Nat}
    (hf : s.filter env f i k = .ok s') : ∃ t', t.filter env f i k = .ok t' ∧ SameButLoaded s' t' := by
  unfold SameButLoaded at h
  generalize t.loaded = L at h hl
  subst h
  have hav : Subspace.available env { s with loaded := L } f = s.available env f := by
    unfold Subspace.available
    have he : Subspace.entry { s with loaded := L } f = s.entry f := rfl
    rw [he]
    cases hvec : (s.entry f).vector with
    | some v => rfl
    | none =>
      rw [hvec] at hl
      simp only [Option.isSome_none, Bool.false_eq_true, false_or] at hl
      simp only [hl.1, hl.2]
  have hup : Subspace.upToDate env { s with loaded := L } f = s.upToDate env f := by
    unfold Subspace.upToDate
    rw [hav]
    rfl
  unfold Subspace.filter at hf ⊢
  rw [hup]
  cases h1 : s.upToDate env f with
  | error e => rw [h1] at hf; cases hf
  | ok x =>
    rw [h1] at hf
    obtain ⟨v, existing⟩ := x
    simp only [ok_bind] at hf ⊢
    cases h2 : v.updateCoverage env.stat i (s.numModifications + 1) s.mask s.total with
    | error e => rw [h2] at hf; cases hf
    | ok y =>
      rw [h2] at hf
      simp only [ok_bind] at hf ⊢
      cases h3 : v.filterInterval env.isEqual existing i with
      | error e => rw [h3] at hf; cases hf
      | ok v' =>
        rw [h3] at hf
        cases hf
        exact ⟨_, rfl, rfl⟩

theorem reset_same {env : Env M} {s : Subspace M} (hlen : s.mask.array.length = env.numExamples)
    (htotal : s.total = (Subspace.create env).total) : SameButLoaded (.create env) (s.reset env) := by
  unfold SameButLoaded Subspace.reset Subspace.create
  simp only [Subspace.mk.injEq, and_true, true_and]
  exact ⟨by rw [CoverageMask.reset, hlen], htotal⟩

end MLRL.FeatureSpace

namespace MLRL.Tabular

open FeatureSpace Search Induction Predictor RuleEval Refinement TrainingLoss

variable {env : Env} {n : Nat} {values : Nat → Nat → Option Rat}

theorem addCondition_same {s t s' : Subspace Unit} (h : SameButLoaded s t) {c : Boosting.Condition} (ha : addCondition env s c = .ok s') :
    ∃ t', addCondition env t c = .ok t' ∧ SameButLoaded s' t' := by
  unfold addCondition at ha ⊢
  obtain ⟨⟨v, s1⟩, h1, ha⟩ := TabularData.ok_of_bind ha
  obtain ⟨t1, g1, g2, g3⟩ := invoke_same h h1
  obtain ⟨t', g4, g5⟩ := filter_same g2 g3 ha
  refine ⟨t', ?_, g5⟩
  rw [g1, ok_bind]
  exact g4

theorem searchFeature_same {M : Type} [AddCommGroup M] {s t : Subspace Unit} (h : SameButLoaded s t) {f : Nat} {stat : Nat → M}
    {r : List (Search.Candidate M)} (hr : searchFeature env f s stat = .ok r) : searchFeature env f t stat = .ok r := by
  unfold searchFeature at hr ⊢
  obtain ⟨⟨v, s1⟩, h1, hr⟩ := TabularData.ok_of_bind hr
  obtain ⟨t1, g1, _⟩ := invoke_same h h1
  rw [g1, ok_bind]
  unfold SameButLoaded at h
  rw [h]
  exact hr

theorem history_length {M : Type} [Zero M] [Add M] [Sub M] {env : FeatureSpace.Env M} (hwf : env.WellFormed) {s : Subspace M}
    {conds : List (Nat → Bool)} {fresh : Bool} (h : History env s conds fresh) : s.mask.array.length = env.numExamples :=
  (h.inv hwf).marks.1

section
variable {K T : Type} [Field K] [LinearOrder K] [IsStrictOrderedRing K] {cfg : Boosting.Config (Subspace Unit) K} {data : Data K T} {l1 l2 : K}

/-- When a rule is pruned, its conditions are added again to a subspace that has been reset. -/
theorem Trainable.rewalk (h : Trainable cfg data env values l1 l2) {k : Nat} {cells : List (Update.Cell (List K) (List (Stat K)))}
    {better : K → K → Bool} {sortHead : Head K → Head K} {grow : GrowConfig} {minQuality : K} {chosen s q outputs}
    (hg : Greedy (reachable h.table) better sortHead grow (((cfg.using (reachable h.table) Subtype.val).round k).search cells) minQuality chosen s q
      outputs) (s0 : {s : Subspace Unit // Reachable env data.numExamples s}) :
    ∃ t, Walk (reachable h.table) cfg.subspaces Subtype.val ((reachable h.table).reset s0) (chosen.map (fun x => x.refinement.condition)) t ∧
      SameButLoaded s.1 t.1 := by
  induction hg with
  | start =>
    refine ⟨_, .nil _, ?_⟩
    obtain ⟨_, ⟨_, hist⟩, _⟩ := s0.2
    exact reset_same (history_length h.table.wellFormed hist) rfl
  | @step chosen s q outputs candidates x s' g1 g2 g3 g4 g5 g6 g7 ih =>
    obtain ⟨t, w1, w2⟩ := ih
    obtain ⟨f, _, l, k1, c, k2, _, _, _, _, rfl⟩ := candidates_origin (s := s) g4 x (FirstBest.mem g5)
    have k1' : Tabular.searchFeature env f s.1 (Boosting.weightedStat cfg.weight cells) = .ok l := by
      rw [← h.searchFeature]
      exact k1
    have hz : ∀ e, env.nonZero e = false → Boosting.weightedStat cfg.weight cells e = 0 := by
      intro e he
      refine weightedStat_zero ?_
      rw [h.weight]
      rw [h.nonZero] at he
      simpa using he
    obtain ⟨t', a⟩ := candidate_adds h.table t.2 hz (searchFeature_same w2 k1') k2
    have hmap := reachable_filter h.table a
    cases hf : (reachable h.table).filter t (Boosting.conditionOf f c) with
    | error e =>
      rw [hf, a.1] at hmap
      cases hmap
    | ok t2 =>
      rw [hf] at hmap
      have hmap' : Except.ok t2.1 = addCondition env t.1 (Boosting.conditionOf f c) := hmap
      have hsub : cfg.subspaces.filter t.1 (Boosting.conditionOf f c) = .ok t2.1 := by
        rw [h.subspaces]
        exact hmap'.symm
      have hs : addCondition env s.1 (Boosting.conditionOf f c) = .ok s'.1 := by
        obtain ⟨s2, a2⟩ := candidate_adds h.table s.2 hz k1' k2
        have := reachable_filter h.table a2
        rw [g7] at this
        exact this.symm
      obtain ⟨t3, b1, b2⟩ := addCondition_same w2 hs
      rw [← hmap'] at b1
      cases b1
      refine ⟨t2, ?_, b2⟩
      rw [List.map_append]
      exact w1.snoc hf hsub

omit [LinearOrder K] [IsStrictOrderedRing K] [Field K] in
theorem run_bind_congr {α β : Type} {x : Run α} {f g : α → Run β} (h : ∀ a, x = Run.done a → f a = g a) : (x >>= f) = (x >>= g) := by
  match x with
  | none => rfl
  | some (.error e) => rfl
  | some (.ok a) => exact h a rfl

/-- Rules that are pruned are the same if the subspaces are restricted to those that can be reached. -/
theorem Trainable.pruned_eq (h : Trainable cfg data env values l1 l2) (k fuel : Nat) (cells : List (Update.Cell (List K) (List (Stat K))))
    (evaluate : List (Update.Cell (List K) (List (Stat K))) → Head K → (Nat → Bool) → Res K)
    (f : Option (List (Update.Cell (List K) (List (Stat K))) → (Nat → Bool) → Head K → Res (Head K))) :
    ((cfg.using (reachable h.table) Subtype.val).pruning evaluate f).induceRule ((cfg.using (reachable h.table) Subtype.val).round k) fuel cells =
      (cfg.pruning evaluate f).induceRule (cfg.round k) fuel cells := by
  have hsame := h.same
  have hb : StrictWeak (Boosting.better : K → K → Bool) := better_strictWeak
  have hsim : Simulates (reachable h.table) cfg.subspaces Subtype.val (((cfg.using (reachable h.table) Subtype.val).round k).search cells)
      ((cfg.round k).search cells) := by
    refine ⟨hsame.create, hsame.covers, fun n s o => rfl, rfl, fun n s o cands hc x hx => ?_⟩
    obtain ⟨f, _, l, h1, c, h2, _, _, _, _, rfl⟩ := candidates_origin (s := s) hc x hx
    exact hsame.filter s f cells l h1 c h2
  have hval : (((cfg.using (reachable h.table) Subtype.val).round k).search cells).Valid := h.searchSchedule k
  have hg := growLoop_simulates (sortHead := Boosting.sortHead) (cfg := cfg.grow) hb hval hsim fuel ⟨[], (reachable h.table).create, none, Single.new 0⟩
  simp only [GrowState.onSubspace, hsame.create] at hg
  unfold Learner.induceRule growRule
  have e1 : growLoop (cfg.pruning evaluate f).subspaces (cfg.pruning evaluate f).better (cfg.pruning evaluate f).sortHead
      (cfg.pruning evaluate f).config ((cfg.round k).search cells) fuel
      ⟨[], (cfg.pruning evaluate f).subspaces.create, none, Single.new (cfg.pruning evaluate f).minQuality⟩ = _ := hg.symm
  rw [e1]
  show (growLoop (reachable h.table) Boosting.better Boosting.sortHead cfg.grow (((cfg.using (reachable h.table) Subtype.val).round k).search cells) fuel
    ⟨[], (reachable h.table).create, none, Single.new 0⟩ >>= _) >>= _ = _
  simp only [bind_assoc, Run.done_bind, Run.pure_eq]
  refine run_bind_congr (fun st' h3 => ?_)
  have hgrow : growRule ((cfg.using (reachable h.table) Subtype.val).pruning evaluate f).subspaces
      ((cfg.using (reachable h.table) Subtype.val).pruning evaluate f).better
      ((cfg.using (reachable h.table) Subtype.val).pruning evaluate f).sortHead
      ((cfg.using (reachable h.table) Subtype.val).pruning evaluate f).config
      (((cfg.using (reachable h.table) Subtype.val).round k).search cells)
      ((cfg.using (reachable h.table) Subtype.val).pruning evaluate f).minQuality fuel =
        Run.done ⟨st'.conditions, st'.subspace, st'.comparator.best.map (fun x => x.refinement.head)⟩ := by
    show (growLoop (reachable h.table) Boosting.better Boosting.sortHead cfg.grow
      (((cfg.using (reachable h.table) Subtype.val).round k).search cells) fuel ⟨[], (reachable h.table).create, none, Single.new 0⟩ >>= _) = _
    rw [h3]
    rfl
  obtain ⟨chosen, s, q, outputs, k1, _, k2⟩ := growRule_greedy hb hval hgrow
  have hconds : st'.conditions = chosen.map (fun x => x.refinement.condition) := congrArg Grown.conditions k2
  cases hbest : st'.comparator.best.map (fun x => x.refinement.head) with
  | none => rfl
  | some head =>
    simp only
    congr 2
    obtain ⟨t, w, _⟩ := h.rewalk k1 st'.subspace
    rw [← hconds] at w
    have hp : (cfg.pruning evaluate f).pruneRule (cfg.round k) cells st'.conditions head st'.subspace.1 =
        (((cfg.using (reachable h.table) Subtype.val).pruning evaluate f).pruneRule ((cfg.using (reachable h.table) Subtype.val).round k) cells
          st'.conditions head st'.subspace).map (Pruned.onSubspace Subtype.val) := by
      have hreset : ((reachable h.table).reset st'.subspace).1 = cfg.subspaces.reset st'.subspace.1 := by
        rw [h.subspaces]
        rfl
      have := prune_simulates (better := Boosting.better) hsame.covers (evaluate cells head) hreset w
      simp only [Learner.pruneRule, Boosting.Config.pruning, Boosting.Config.recalculating, Boosting.Config.learner, Boosting.Config.using,
        Boosting.Config.round]
      cases cfg.hasZeroWeights with
      | true => exact this
      | false => rfl
    unfold Learner.finishRule
    simp only [GrowState.onSubspace]
    rw [hp]
    cases ((cfg.using (reachable h.table) Subtype.val).pruning evaluate f).pruneRule ((cfg.using (reachable h.table) Subtype.val).round k) cells
        st'.conditions head st'.subspace with
    | error e => rfl
    | ok pruned =>
      simp only [Except.map, ok_bind]
      have hc' := hsame.covers pruned.subspace
      simp only [Learner.recalculateHead, Pruned.onSubspace, Boosting.Config.pruning, Boosting.Config.recalculating, Boosting.Config.learner,
        Boosting.Config.using, Boosting.Config.round, hc']

/-- A rule that is pruned is the same if the subspaces are restricted to those that can be reached. -/
theorem Trainable.pruned_rule (h : Trainable cfg data env values l1 l2) {k fuel : Nat} {cells cells' : List (Update.Cell (List K) (List (Stat K)))}
    {rule : Induction.Rule Boosting.Condition K}
    {evaluate : List (Update.Cell (List K) (List (Stat K))) → Head K → (Nat → Bool) → Res K}
    {f : Option (List (Update.Cell (List K) (List (Stat K))) → (Nat → Bool) → Head K → Res (Head K))}
    (hr : (cfg.pruning evaluate f).induceRule (cfg.round k) fuel cells = Run.done (some (cells', rule))) :
    ((cfg.using (reachable h.table) Subtype.val).pruning evaluate f).induceRule ((cfg.using (reachable h.table) Subtype.val).round k) fuel cells =
      Run.done (some (cells', rule)) :=
  (h.pruned_eq k fuel cells evaluate f).trans hr

end

end MLRL.Tabular
