import Verif.Spec.SecoTraining
import Verif.Lemma.Comparator
import Verif.Props.SecoEval
import Verif.Props.Tabular
import Verif.Props.BoostingTermination
import Mathlib.Algebra.Order.Monoid.Prod

/-! # Lemmas about training by separate-and-conquer algorithms -/

namespace MLRL.SecoTraining

open Predictor Induction Refinement Seco Statistics

section
variable {K : Type} [Field K] [LinearOrder K] [IsStrictOrderedRing K]

/-! ### Comparing qualities -/

/-- `better`, except that all numbers are better than something that is not a number. -/
def betterNumber (a b : Option K) : Bool :=
  match a, b with
  | some a, some b => decide (b < a)
  | some _, none => true
  | none, _ => false

omit [Field K] [IsStrictOrderedRing K] in
theorem betterNumber_strictWeak : StrictWeak (betterNumber : Option K → Option K → Bool) where
  irrefl a := by cases a <;> simp [betterNumber]
  trans a b c := by
    cases a <;> cases b <;> cases c <;> simp [betterNumber]
    intro h1 h2
    exact h2.trans h1
  comparable a b c := by
    cases a <;> cases b <;> cases c <;> simp [betterNumber]
    rename_i x y z
    intro h
    exact (lt_or_ge y x).imp id (fun hxy => lt_of_lt_of_le h hxy)

omit [IsStrictOrderedRing K] in
theorem better_agrees : Agree (better : Option K → Option K → Bool) betterNumber (fun q => q.isSome = true) where
  same x q hq := by
    cases q with
    | none => cases hq
    | some b => cases x <;> rfl
  keep x q hq hb := by
    cases x with
    | none => cases q <;> cases hb
    | some a => rfl

/-! ### Rule evaluation -/

omit [LinearOrder K] [IsStrictOrderedRing K] in
theorem exists_pos_of_sum [LinearOrder K] [IsStrictOrderedRing K] {s : Finset Nat} {q : Nat → K} (h : 0 < ∑ j ∈ s, q j) : ∃ j ∈ s, 0 < q j := by
  by_contra hne
  push Not at hne
  exact absurd h (not_lt.2 (Finset.sum_nonpos hne))

theorem headQuality_pos {q : Nat → K} {l : K} {s : Finset Nat} (hl : 0 ≤ l) (h : 0 < headQuality q l s) : ∃ j ∈ s, 0 < q j := by
  refine exists_pos_of_sum ?_
  unfold headQuality at h
  by_contra hs
  have hle : (∑ j ∈ s, q j) / (s.card : K) ≤ 0 := div_nonpos_of_nonpos_of_nonneg (not_lt.1 hs) (Nat.cast_nonneg _)
  exact absurd h (not_lt.2 (mul_nonpos_of_nonpos_of_nonneg hle hl))

theorem headQuality_pos' {q : Nat → K} {l : K} {s : Finset Nat} (hq : ∀ j ∈ s, 0 ≤ q j) (h : 0 < headQuality q l s) : ∃ j ∈ s, 0 < q j := by
  refine exists_pos_of_sum ?_
  rcases (Finset.sum_nonneg hq).lt_or_eq with hlt | heq
  · exact hlt
  · unfold headQuality at h
    rw [← heq, zero_div, zero_mul] at h
    exact absurd h (lt_irrefl _)

/-- What is known about the result of a rule evaluation. -/
structure Evaluated (majority indices : List Nat) (q : Nat → K) (r : Seco.Head K (Option K)) : Prop where
  nodup : r.indices.Nodup
  nonempty : r.indices ≠ []
  subset : ∀ j ∈ r.indices, j ∈ indices
  values : r.values = r.indices.map (inverseMajority majority)
  positive : ∀ v, r.quality = some v → 0 < v → ∃ j ∈ r.indices, 0 < q j

theorem evaluated_best {majority indices : List Nat} {q : Nat → K} {f : LiftFunction K} {r : Seco.Head K (Option K)} {best : K}
    (h2 : r.quality = some best) (h3 : r.indices.Nodup) (h4 : r.values = r.indices.map (inverseMajority majority))
    (h5 : IsBestHead q f.calculateLift indices.toFinset best r.indices.toFinset)
    (hpos : ∀ l, f.calculateLift r.indices.toFinset.card = some l → 0 < headQuality q l r.indices.toFinset → ∃ j ∈ r.indices.toFinset, 0 < q j) :
    Evaluated majority indices q r where
  nodup := h3
  nonempty := by
    intro hnil
    have := h5.nonempty
    rw [hnil] at this
    simp at this
  subset j hj := List.mem_toFinset.1 (h5.subset (List.mem_toFinset.2 hj))
  values := h4
  positive v hv hvpos := by
    rw [h2] at hv
    cases hv
    obtain ⟨l, g1, g2⟩ := h5.attained
    rw [g2] at hvpos
    obtain ⟨j, hj, hq⟩ := hpos l g1 hvpos
    exact ⟨j, List.mem_toFinset.1 hj, hq⟩

theorem evaluate_ok {c : Nat} {h : Heuristic K} {ev : Evaluation K} (hs : Supported c h ev) {flag : Bool} {majority indices : List Nat}
    {total covered : List (Confusion K)} {q : Nat → K} (hin : EvalInput h majority indices total covered q) (hne : indices ≠ [])
    (hlt : ∀ j ∈ indices, j < c) (hflag : flag = true → indices = List.range c)
    (hq : h.Accepted → h ≠ .wra → h ≠ .mEstimate none → ∀ j ∈ indices, 0 ≤ q j) :
    ∃ r, ev.calculateScores flag majority indices total covered = .ok r ∧ Evaluated majority indices q r := by
  have hnd : indices.Nodup := hin.indicesSorted.imp (fun h => Nat.ne_of_lt h)
  have hlen : indices.length ≤ c := by
    have hsp : indices.Subperm (List.range c) := hnd.subperm (fun j hj => List.mem_range.2 (hlt j hj))
    simpa using hsp.length_le
  have hpos : 1 ≤ indices.length := List.length_pos_iff.2 hne
  cases hs with
  | single =>
    obtain ⟨r, label, h1, h2, h3, h4, h5, _⟩ := single_optimal hin hne
    refine ⟨⟨some r.quality, r.indices, r.values⟩, ?_, ?_⟩
    · show (singleScores h majority indices total covered >>= _) = _
      rw [h1]
      rfl
    · refine ⟨by rw [h2]; simp, by rw [h2]; simp, ?_, by rw [h4, h2]; rfl, ?_⟩
      · rw [h2]
        intro j hj
        rw [List.mem_singleton.1 hj]
        exact h3
      · intro v hv hvpos
        cases hv
        exact ⟨label, by rw [h2]; simp, by rw [← h5]; exact hvpos⟩
  | @nonneg f sort a1 a2 a3 a4 a5 =>
    have hqn := hq a1 a2 a3
    show ∃ r, (if flag then partialScores h f sort majority indices total covered else completeScores h f majority indices total covered) = .ok r ∧ _
    cases flag with
    | true =>
      have hl : indices.length = c := by rw [hflag rfl, List.length_range]
      obtain ⟨r, best, h1, h2, h3, h4, h5⟩ := partial_optimal hin a5 hne hqn (by rw [hl]; exact a4)
      exact ⟨r, h1, evaluated_best h2 h3 h4 h5
        (fun l _ hl => headQuality_pos' (fun j hj => hqn j (List.mem_toFinset.1 (h5.subset hj))) hl)⟩
    | false =>
      obtain ⟨r, h1, h2, h3, h4⟩ := complete_spec (f := f) hin
      refine ⟨r, h1, ⟨by rw [h2]; exact hnd, by rw [h2]; exact hne, by rw [h2]; exact fun j hj => hj, by rw [h3, h2], ?_⟩⟩
      intro v hv hvpos
      rw [h4] at hv
      cases hlift : f.calculateLift indices.length with
      | none => rw [hlift] at hv; cases hv
      | some l =>
        rw [hlift] at hv
        cases hv
        obtain ⟨j, hj, hqj⟩ := headQuality_pos' (fun j hj => hqn j (List.mem_toFinset.1 hj)) hvpos
        exact ⟨j, by rw [h2]; exact List.mem_toFinset.1 hj, hqj⟩
  | @lifted f sort a1 a2 =>
    show ∃ r, (if flag then partialScores h f sort majority indices total covered else completeScores h f majority indices total covered) = .ok r ∧ _
    cases flag with
    | true =>
      have hl : indices.length = c := by rw [hflag rfl, List.length_range]
      obtain ⟨r, best, h1, h2, h3, h4, h5⟩ := partial_optimal_neg hin a2 hne (by rw [hl]; exact a1)
      refine ⟨r, h1, evaluated_best h2 h3 h4 h5 (fun l hlift hlpos => headQuality_pos (zero_le_one.trans (a1.one _ l ?_ ?_ hlift)) hlpos)⟩
      · exact Finset.card_pos.2 h5.nonempty
      · refine (Finset.card_le_card h5.subset).trans ?_
        rw [List.toFinset_card_of_nodup hnd, hl]
    | false =>
      obtain ⟨r, h1, h2, h3, h4⟩ := complete_spec (f := f) hin
      refine ⟨r, h1, ⟨by rw [h2]; exact hnd, by rw [h2]; exact hne, by rw [h2]; exact fun j hj => hj, by rw [h3, h2], ?_⟩⟩
      intro v hv hvpos
      rw [h4] at hv
      cases hlift : f.calculateLift indices.length with
      | none => rw [hlift] at hv; cases hv
      | some l =>
        rw [hlift] at hv
        cases hv
        obtain ⟨j, hj, hqj⟩ := headQuality_pos (zero_le_one.trans (a1.one _ l hpos hlen hlift)) hvpos
        exact ⟨j, by rw [h2]; exact List.mem_toFinset.1 hj, hqj⟩

/-! ### Heads -/

omit [LinearOrder K] [IsStrictOrderedRing K] in
theorem insertionSort_strict {l : List Nat} (h : l.Nodup) : (l.insertionSort (· ≤ ·)).Pairwise (· < ·) := by
  have h1 : (l.insertionSort (· ≤ ·)).Pairwise (· ≤ ·) := List.pairwise_insertionSort _ l
  have h2 : (l.insertionSort (· ≤ ·)).Nodup := (List.perm_insertionSort _ l).nodup_iff.2 h
  exact h1.imp₂ (fun a b hle hne => lt_of_le_of_ne hle hne) h2

omit [LinearOrder K] [IsStrictOrderedRing K] in
theorem sortHead_headOf {c : Nat} {majority indices : List Nat} {q : Nat → K} [LinearOrder K] {r : Seco.Head K (Option K)}
    (h : Evaluated majority indices q r) (hlt : ∀ j ∈ indices, j < c) :
    Boosting.sortHead (headOf r) = .partial_ ((r.indices.insertionSort (· ≤ ·)).map (fun j => (j, inverseMajority majority j))) := by
  unfold headOf Boosting.sortHead
  simp only
  congr 1
  have hz : r.indices.zip r.values = r.indices.map (fun j => (j, (inverseMajority majority j : K))) := by
    rw [h.values, List.map_prod_left_eq_zip]
  rw [hz]
  exact (List.map_insertionSort (r := (· ≤ ·)) (s := fun a b : Nat × K => a.1 ≤ b.1) _ _ (fun a _ b _ => Iff.rfl)).symm

theorem minorityHead_sort {c : Nat} {majority indices : List Nat} {q : Nat → K} {r : Seco.Head K (Option K)}
    (h : Evaluated majority indices q r) (hlt : ∀ j ∈ indices, j < c) : MinorityHead c majority (Boosting.sortHead (headOf r)) := by
  refine ⟨_, sortHead_headOf h hlt, ?_, insertionSort_strict h.nodup, ?_⟩
  · intro hnil
    have := congrArg List.length hnil
    rw [List.length_insertionSort] at this
    exact h.nonempty (List.length_eq_zero_iff.1 this)
  · intro j hj
    exact hlt j (h.subset j ((List.mem_insertionSort _).1 hj))

/-! ### Sums of confusion matrices -/

omit [LinearOrder K] [IsStrictOrderedRing K] in
theorem sums_eq {n : Nat} {ex : Nat → ConfusionMatrices K} {p : Nat → Bool} :
    (((List.range n).filter p).map ex).sum = sums n ex p := by
  funext j
  rw [Tabular.sum_filter_map, Seco.sum_apply, List.map_map]
  unfold sums
  refine congrArg _ (List.map_congr_left (fun e _ => ?_))
  simp only [Function.comp_apply]
  cases p e <;> rfl

omit [LinearOrder K] [IsStrictOrderedRing K] in
theorem sums_congr {n : Nat} {ex : Nat → ConfusionMatrices K} {p p' : Nat → Bool} (h : ∀ e < n, p e = p' e) : sums n ex p = sums n ex p' := by
  funext j
  unfold sums
  refine congrArg _ (List.map_congr_left (fun e he => ?_))
  rw [h e (List.mem_range.1 he)]

omit [Field K] in
theorem list_sum_le {A : Type} [AddCommMonoid A] [PartialOrder A] [IsOrderedAddMonoid A] {f g : Nat → A} (l : List Nat) (h : ∀ e ∈ l, f e ≤ g e) :
    (l.map f).sum ≤ (l.map g).sum := by
  induction l with
  | nil => exact le_rfl
  | cons a l ih =>
    simp only [List.map_cons, List.sum_cons]
    exact add_le_add (h a List.mem_cons_self) (ih (fun e he => h e (List.mem_cons_of_mem _ he)))

theorem sums_le {n : Nat} {ex : Nat → ConfusionMatrices K} (hex : ∀ e < n, ∀ j, 0 ≤ ex e j) (p p' : Nat → Bool) (h : ∀ e, p e = true → p' e = true)
    (j : Nat) : sums n ex p j ≤ sums n ex p' j := by
  unfold sums
  refine list_sum_le _ (fun e he => ?_)
  cases hp : p e with
  | false =>
    simp only [Bool.false_eq_true, if_false]
    split
    · exact hex e (List.mem_range.1 he) j
    · exact le_rfl
  | true => rw [h e hp]

omit [LinearOrder K] [IsStrictOrderedRing K] in
theorem sums_false (n : Nat) (ex : Nat → ConfusionMatrices K) (j : Nat) : sums n ex (fun _ => false) j = 0 := by
  unfold sums
  induction n with
  | zero => rfl
  | succ n ih => rw [List.range_succ, List.map_append, List.sum_append, ih]; simp

/-! ### Growing a rule -/

/-- What is assumed when a rule is grown: `stat` provides the confusion matrices of examples, `total` their sums. -/
structure Growing (round : Round K) (ev : Evaluation K) (majority : List Nat) (n c : Nat) (values : Nat → Nat → Option Rat) (h : Heuristic K)
    (total : List (Confusion K)) (ex : Nat → ConfusionMatrices K) : Prop where
  outputs : 0 < c
  evaluation : Supported c h ev
  roundOk : RoundOk round n c values
  majority : majority.Pairwise (· < ·)
  total : ∀ j < c, total[j]? = some (sums n ex (fun _ => true) j)
  zero : ∀ e, round.env.nonZero e = false → ex e = 0
  nonneg : ∀ e < n, ∀ j, 0 ≤ ex e j

variable {round : Round K} {ev : Evaluation K} {majority : List Nat} {n c : Nat} {values : Nat → Nat → Option Rat} {h : Heuristic K}
    {total : List (Confusion K)} {ex : Nat → ConfusionMatrices K}

/-- The search, for subspaces that can be reached. -/
def reachSearch (round : Round K) (n : Nat) (ev : Evaluation K) (majority : List Nat) (c : Nat) (total : List (Confusion K))
    (ex : Nat → ConfusionMatrices K) :
    Induction.Search {s : FeatureSpace.Subspace Unit // Tabular.Reachable round.env n s} Boosting.Condition (Predictor.Head K) (Option K) :=
  round.search ev majority c total (fun f s stat => Tabular.searchFeature round.env f s.1 stat) ex

omit [IsStrictOrderedRing K] in
theorem outputConfusions_ok {outputs : List Nat} (hlt : ∀ j ∈ outputs, j < c) (m : ConfusionMatrices K) :
    outputConfusions c outputs m = .ok (outputs.map m) := by
  unfold outputConfusions
  induction outputs with
  | nil => rfl
  | cons j l ih =>
    rw [List.mapM_cons, if_pos (hlt j List.mem_cons_self), ok_bind, ih (fun i hi => hlt i (List.mem_cons_of_mem _ hi)), ok_bind]
    rfl

/-- The labels that are considered by a search. -/
theorem Growing.outputsOk (g : Growing round ev majority n c values h total ex) {o : Option (Predictor.Head K)}
    (ho : ∀ hd, o = some hd → MinorityHead c majority hd) :
    (Boosting.searchOutputs c round.sampledOutputs o).1 ≠ [] ∧ (Boosting.searchOutputs c round.sampledOutputs o).1.Pairwise (· < ·) ∧
      (∀ j ∈ (Boosting.searchOutputs c round.sampledOutputs o).1, j < c) ∧
      ((Boosting.searchOutputs c round.sampledOutputs o).2 = true → (Boosting.searchOutputs c round.sampledOutputs o).1 = List.range c) := by
  have hrange : List.range c ≠ [] := by
    intro hh
    have := congrArg List.length hh
    have := g.outputs
    simp at *
    omega
  have hsorted : (List.range c).Pairwise (· < ·) := List.pairwise_lt_range
  cases o with
  | none =>
    simp only [Boosting.searchOutputs]
    cases hs : round.sampledOutputs with
    | none => exact ⟨hrange, hsorted, fun j hj => List.mem_range.1 hj, fun _ => rfl⟩
    | some l =>
      obtain ⟨h1, h2, h3⟩ := g.roundOk.sampled l hs
      exact ⟨h1, h2, h3, fun hf => (by cases hf)⟩
  | some hd =>
    obtain ⟨indices, rfl, h1, h2, h3⟩ := ho hd rfl
    have hmap : (indices.map (fun j => (j, (inverseMajority majority j : K)))).map Prod.fst = indices := by
      rw [List.map_map]
      exact List.map_id'' (fun _ => rfl) _
    simp only [Boosting.searchOutputs]
    rw [hmap]
    exact ⟨h1, h2, h3, fun hf => (by cases hf)⟩

/-- The qualities of labels. -/
def qualityOf (h : Heuristic K) (n : Nat) (ex : Nat → ConfusionMatrices K) (mask : Nat → Bool) (j : Nat) : K :=
  labelQuality h (sums n ex (fun _ => true) j) (sums n ex mask j)

theorem Growing.evalInput (g : Growing round ev majority n c values h total ex) {outputs : List Nat} (hs : outputs.Pairwise (· < ·))
    (hlt : ∀ j ∈ outputs, j < c) (mask : Nat → Bool) :
    EvalInput h majority outputs total (outputs.map (sums n ex mask)) (qualityOf h n ex mask) where
  majoritySorted := g.majority
  indicesSorted := hs
  quality i hi := ⟨_, _, g.total _ (hlt _ (List.getElem_mem hi)), by rw [List.getElem?_map, List.getElem?_eq_getElem hi]; rfl, rfl⟩

theorem Growing.quality_nonneg (g : Growing round ev majority n c values h total ex) (mask : Nat → Bool) (h1 : h.Accepted) (h2 : h ≠ .wra)
    (h3 : h ≠ .mEstimate none) (j : Nat) : 0 ≤ qualityOf h n ex mask j := by
  have a := sums_le g.nonneg (fun _ => false) mask (fun e he => (by cases he)) j
  have b := sums_le g.nonneg mask (fun _ => true) (fun e _ => rfl) j
  rw [sums_false] at a
  exact labelQuality_nonneg h h1 ⟨h2, h3⟩ _ _ ⟨a.1, a.2.1, a.2.2.1, a.2.2.2⟩ ⟨b.1, b.2.1, b.2.2.1, b.2.2.2⟩

/-- Evaluating a rule that covers some of the examples. -/
theorem Growing.evaluate (g : Growing round ev majority n c values h total ex) {outputs : List Nat × Bool} (h1 : outputs.1 ≠ [])
    (h2 : outputs.1.Pairwise (· < ·)) (h3 : ∀ j ∈ outputs.1, j < c) (h4 : outputs.2 = true → outputs.1 = List.range c) (mask : Nat → Bool) :
    ∃ r, ev.calculateScores outputs.2 majority outputs.1 total (outputs.1.map (sums n ex mask)) = .ok r ∧
      Evaluated majority outputs.1 (qualityOf h n ex mask) r :=
  evaluate_ok g.evaluation (g.evalInput h2 h3 mask) h1 h3 h4 (fun a1 a2 a3 j _ => g.quality_nonneg mask a1 a2 a3 j)

/-- What is known about a candidate. -/
theorem Growing.candidate (g : Growing round ev majority n c values h total ex) {m : Nat}
    {s : {s : FeatureSpace.Subspace Unit // Tabular.Reachable round.env n s}} {o : Option (Predictor.Head K)}
    (ho : ∀ hd, o = some hd → MinorityHead c majority hd) {r : List (List (Scored (Found Boosting.Condition (Predictor.Head K)) (Option K)))}
    (hr : (reachSearch round n ev majority c total ex).candidates m s o = .ok r)
    {x : Scored (Found Boosting.Condition (Predictor.Head K)) (Option K)} (hx : x ∈ r.flatten) :
    ∃ result, ev.calculateScores (Boosting.searchOutputs c round.sampledOutputs o).2 majority (Boosting.searchOutputs c round.sampledOutputs o).1 total
        ((Boosting.searchOutputs c round.sampledOutputs o).1.map
          (sums n ex (fun e => Tabular.covers s.1 e && x.refinement.condition.holds values e))) = .ok result ∧
      x.quality = result.quality ∧ x.refinement.head = headOf result ∧ Tabular.Typed round.env x.refinement.condition ∧
      ∃ s', Tabular.Adds round.env n values s.1 x.refinement.condition s' := by
  obtain ⟨o1, o2, o3, o4⟩ := g.outputsOk ho
  obtain ⟨l', h1, h2⟩ := List.mem_flatten.1 hx
  obtain ⟨f, hf, h3⟩ := TrainingLoss.mem_of_mapM hr l' h1
  unfold scoreFeature at h3
  obtain ⟨conds, hs⟩ := s.2
  obtain ⟨l, k1, k2⟩ := Tabular.searchFeature_ok g.roundOk.table hs f g.zero
  beta_reduce at h3
  rw [k1, ok_bind] at h3
  obtain ⟨cand, hc, h4⟩ := TrainingLoss.mem_of_mapM h3 x h2
  unfold scoreCandidate at h4
  rw [outputConfusions_ok o3, ok_bind] at h4
  obtain ⟨_, k3, _⟩ := k2 cand hc
  have hst : cand.stats = sums n ex (fun e => Tabular.covers s.1 e && (Boosting.conditionOf f cand).holds values e) := by
    rw [k3, sums_eq]
    refine sums_congr (fun e he => ?_)
    rw [Tabular.covers_eq g.roundOk.table hs]
    simp [he]
  obtain ⟨result, e1, e2⟩ := g.evaluate o1 o2 o3 o4 (fun e => Tabular.covers s.1 e && (Boosting.conditionOf f cand).holds values e)
  rw [hst, e1, ok_bind] at h4
  cases h4
  exact ⟨result, e1, rfl, rfl, Tabular.searchFeature_typed g.roundOk.table hs f k1 cand hc, Tabular.candidate_adds g.roundOk.table s.2 g.zero k1 hc⟩

end

end MLRL.SecoTraining
