import Verif.Lemma.JointBinned
import Verif.Props.LabelBinning
import Verif.Props.JointEval

/-!
# C68: rule evaluations for non-decomposable loss functions that assign labels to bins
-/

namespace MLRL.JointBinned

open Finset RuleEval Statistics JointEval
open LabelBinning (Config LabelInfo Accepted Spread prediction)

private theorem mapM_eq {α β : Type} {f : α → Res β} {F : α → β} : ∀ {l : List α}, (∀ x ∈ l, f x = .ok (F x)) → l.mapM f = .ok (l.map F)
  | [], _ => rfl
  | x :: l, h => by
    rw [List.mapM_cons, h x (by simp), ok_bind, mapM_eq (l := l) (fun y hy => h y (by simp [hy])), ok_bind]
    rfl

theorem diagonalStats_ok {g h : List Rat} (hh : triangularNumber g.length ≤ h.length) :
    diagonalStats g h = .ok ((List.range g.length).map (fun i => ⟨vec g i, matrix h i i⟩)) := by
  unfold diagonalStats
  rw [mapM_eq (F := fun p : Rat × Nat => (⟨p.1, matrix h p.2 p.2⟩ : Stat Rat))]
  · congr 1
    refine List.ext_getElem (by simp) (fun i h1 h2 => ?_)
    simp only [List.length_map, List.length_zipIdx] at h1
    simp [vec, h1]
  · rintro ⟨x, i⟩ hp
    have hi : i < g.length := by
      have := List.mem_zipIdx hp
      omega
    have e := diagonal_position i
    have hl := position_lt hi hi
    rw [matrix_position, ← e]
    rw [← e] at hl
    unfold vec
    simp only
    rw [readAt_of_lt (by omega), ok_bind, List.getElem?_eq_getElem (by omega)]
    rfl

/-- **C68**, what holds of it: for complete heads, if the criteria are not all equal among the negative (positive) ones and the arrays are large enough, the rule
evaluation fails only if the system of linear equations cannot be solved. Otherwise, no array is left, the arrays can be used again, each label gets the score of
its bin, labels with the same criterion bin have the same bin and vice versa, labels get no bin, i.e., zero as their score, if and only if their criterion is zero,
and no bin is empty. If the Hessians of different labels in the same bin are zero, the quality is the value of the objective for the predicted scores and, without
L1 regularisation and if the regularised Hessian matrix is positive semi-definite, no other scores that are equal for the labels in each bin and zero for those
without bin are better. Whatever the L1 regularisation weight, the derivative of the objective with respect to the score of a bin, without the L1 penalty, is the
weight, multiplied by the number of labels and with the opposite sign of the sum of gradients. In general, this applies to the objective without the Hessians of different labels in the same bin only. Missing are these Hessians
(`pairs_omitted`), L1 regularisation (`l1_joint_not_minimal`) and partial heads (`fixedBinned_wrong`). -/
theorem completeBinned_optimal_partial {dsysv : List Rat → List Rat → Nat → Res (List Rat)} (hd : DsysvSpec dsysv) (hf : DsysvFrame dsysv) {cfg : Config}
    (hcfg : Accepted cfg) {g h : List Rat} (hne : g ≠ []) (hlen : g.length < 2 ^ 32) (hh : triangularNumber g.length ≤ h.length) {maxBins : Nat} {l1 l2 : Rat}
    (h1 : 0 ≤ l1) (h2 : 0 ≤ l2) (hspread : Spread (criteria g h l1 l2))
    (hbins : (cfg.getLabelInfo (criteria g h l1 l2)).numPositiveBins + (cfg.getLabelInfo (criteria g h l1 l2)).numNegativeBins ≤ maxBins) {a : Arrays}
    (ha : a.Valid g.length maxBins) :
    (∃ A b m e, dsysv A b m = .error e ∧ completeBinned dsysv cfg maxBins l1 l2 g h a = .error e) ∨
    ∃ a' quality, ∃ p : Nat → Rat, ∃ idx : Nat → Nat, ∃ m, completeBinned dsysv cfg maxBins l1 l2 g h a = .ok (a', quality) ∧ a'.Valid g.length maxBins ∧
      (∀ i < g.length, a'.labelBins[i]? = some (idx i) ∧ prediction a'.labelBins a'.binValues i = some (p i)) ∧
      (∀ i < g.length, idx i = maxBins ↔ Stat.score ⟨vec g i, matrix h i i⟩ l1 l2 = 0) ∧
      (∀ i < g.length, ∀ j < g.length, idx i = idx j ↔ (cfg.getLabelInfo (criteria g h l1 l2)).binOf (Stat.score ⟨vec g i, matrix h i i⟩ l1 l2) =
        (cfg.getLabelInfo (criteria g h l1 l2)).binOf (Stat.score ⟨vec g j, matrix h j j⟩ l1 l2)) ∧
      (∀ i < g.length, idx i < m ∨ idx i = maxBins) ∧ m ≤ maxBins ∧ (∀ b < m, ∃ i < g.length, idx i = b) ∧
      quality = JointEval.objective (vec g) (withoutPairs (matrix h) idx) l1 l2 g.length p ∧
      ((∀ i < g.length, ∀ j < g.length, i ≠ j → idx i = idx j → matrix h i j * p i * p j = 0) →
        quality = JointEval.objective (vec g) (matrix h) l1 l2 g.length p) ∧
      (∀ b < m, (∑ i ∈ range g.length, if idx i = b then vec g i + (∑ j ∈ range g.length, withoutPairs (matrix h) idx i j * p j) + l2 * p i else 0) =
        (∑ i ∈ range g.length, if idx i = b then 1 else 0) * shrinkage (∑ i ∈ range g.length, if idx i = b then vec g i else 0) l1) ∧
      (l1 = 0 → (∀ v : Nat → Rat, 0 ≤ (∑ r ∈ range g.length, ∑ c ∈ range g.length, withoutPairs (matrix h) idx r c * v r * v c) +
          l2 * ∑ i ∈ range g.length, v i ^ 2) →
        quality ≤ 0 ∧ ∀ q : Nat → Rat, q maxBins = 0 →
          quality ≤ JointEval.objective (vec g) (withoutPairs (matrix h) idx) l1 l2 g.length (fun i => q (idx i))) := by
  have hcl : (criteria g h l1 l2).length = g.length := by simp [criteria]
  obtain ⟨bin, b1, b2, b3, b4, b5, -, -⟩ := LabelBinning.label_bins_partial hcfg (criteria := criteria g h l1 l2) (by omega) hspread
  have hget : ∀ (i : Nat) (hi : i < (criteria g h l1 l2).length), (criteria g h l1 l2)[i] = Stat.score ⟨vec g i, matrix h i i⟩ l1 l2 := by
    intro i hi
    simp [criteria]
  have hmem : ∀ i < g.length, Stat.score ⟨vec g i, matrix h i i⟩ l1 l2 ∈ criteria g h l1 l2 := by
    intro i hi
    rw [← hget i (by omega)]
    exact List.getElem_mem _
  generalize hnum : (cfg.getLabelInfo (criteria g h l1 l2)).numPositiveBins + (cfg.getLabelInfo (criteria g h l1 l2)).numNegativeBins = numBins at hbins
  have hb : ∀ i < g.length, ∀ b, bin (Stat.score ⟨vec g i, matrix h i i⟩ l1 l2) = some b → b < numBins := by
    intro i hi b hb
    have hm := hmem i hi
    rcases lt_trichotomy (Stat.score ⟨vec g i, matrix h i i⟩ l1 l2) 0 with h0 | h0 | h0
    · obtain ⟨b', m, M, k1, k2, k3, k4⟩ := b3 _ hm h0
      rw [hb] at k1
      cases k1
      have := k4.1
      omega
    · rw [(b2 _ hm).2 h0] at hb
      cases hb
    · obtain ⟨b', m, M, k1, k2, k3, k4⟩ := b4 _ hm h0
      rw [hb] at k1
      cases k1
      have := k4.1
      omega
  have hdef : completeBinned dsysv cfg maxBins l1 l2 g h a = binnedScores dsysv cfg maxBins l1 l2 (criteria g h l1 l2) g h a := by
    unfold completeBinned
    rw [diagonalStats_ok hh, ok_bind, List.map_map]
    rfl
  rw [hdef]
  rcases binnedScores_ok hd hf (cfg := cfg) h1 h2 (criteria := criteria g h l1 l2) (g := g) (h := h) ha (by omega) (by omega) (by rw [hcl]; exact hh)
    (by intro e; rw [e] at hcl; exact hne (List.length_eq_zero_iff.1 hcl.symm)) (β := fun i => bin (Stat.score ⟨vec g i, matrix h i i⟩ l1 l2)) hnum (fun i hi => by
      rw [hget i hi]
      exact b1 _ (hmem i (by omega))) (fun i hi b hb' => hb i (by omega) b hb') hbins with ⟨A, b, m, e, k1, k2⟩ | ⟨a', quality, m, γ, k1, k2, k3⟩
  · exact Or.inl ⟨A, b, m, e, k1, k2⟩
  right
  have hc := k3.compact
  have hq := k3.value
  have hmin := k3.minimal
  have hlb := k3.labelBins
  have hm := k3.le
  rw [hcl] at hc hq hmin hlb
  -- the index of a label determines its bin
  have hidx : ∀ i < g.length, ∀ j < g.length, (γ i).getD maxBins = (γ j).getD maxBins ↔ γ i = γ j := by
    intro i hi j hj
    refine ⟨fun e => ?_, fun e => by rw [e]⟩
    cases hi' : γ i with
    | none => cases hj' : γ j with
      | none => rfl
      | some b =>
        have := hc.lt j hj b hj'
        simp only [hi', hj', Option.getD_none, Option.getD_some] at e
        omega
    | some c => cases hj' : γ j with
      | none =>
        have := hc.lt i hi c hi'
        simp only [hi', hj', Option.getD_none, Option.getD_some] at e
        omega
      | some b =>
        simp only [hi', hj', Option.getD_some] at e
        rw [e]
  have hzero : vec a'.binValues maxBins = 0 := by
    unfold vec
    rw [k2.zero]
    rfl
  have hscore : ∀ i < g.length, scoreOf γ (vec a'.binValues) i = vec a'.binValues ((γ i).getD maxBins) := by
    intro i hi
    unfold scoreOf
    cases γ i with
    | none => simp [hzero]
    | some b => rfl
  refine ⟨a', quality, scoreOf γ (vec a'.binValues), fun i => (γ i).getD maxBins, m, k1, k2, fun i hi => ⟨hlb i hi, ?_⟩, fun i hi => ?_, fun i hi j hj => ?_,
    fun i hi => ?_, hm, fun b hb' => ?_, hq, fun hex => ?_, fun b hb' => ?_, fun h0 hpsd => ⟨?_, fun q hq0 => ?_⟩⟩
  · unfold prediction
    rw [hlb i hi, hscore i hi]
    have hle : (γ i).getD maxBins < a'.binValues.length := by
      rw [k2.binValues]
      cases hi' : γ i with
      | none => simp
      | some b =>
        have := hc.lt i hi b hi'
        simp only [Option.getD_some]
        omega
    unfold vec
    simp only [Option.bind_eq_bind, Option.bind_some]
    rw [List.getElem?_eq_getElem hle]
    rfl
  · rw [← b2 _ (hmem i hi), ← hc.none i hi]
    simp only
    cases hi' : γ i with
    | none => simp
    | some b =>
      have := hc.lt i hi b hi'
      simp only [Option.getD_some, reduceCtorEq, iff_false]
      omega
  · rw [hidx i hi j hj, hc.same i hi j hj, b1 _ (hmem i hi), b1 _ (hmem j hj)]
    simp
  · simp only
    cases hi' : γ i with
    | none => right; rfl
    | some b => left; exact hc.lt i hi b hi'
  · obtain ⟨i, hi, hi'⟩ := hc.onto b hb'
    exact ⟨i, hi, by simp [hi']⟩
  · rw [hq]
    unfold JointEval.objective
    congr 3
    congr 1
    refine sum_congr rfl (fun r hr => sum_congr rfl (fun c hc' => ?_))
    unfold withoutPairs
    split
    · rename_i e
      rw [hex r (mem_range.1 hr) c (mem_range.1 hc') e.1 e.2]
      ring
    · rfl
  · have e := k3.stationary b hb'
    rw [hcl] at e
    have hiff : ∀ i ∈ range g.length, (γ i = some b ↔ (γ i).getD maxBins = b) := by
      intro i hi
      cases hi' : γ i with
      | none =>
        simp only [Option.getD_none, reduceCtorEq, false_iff]
        omega
      | some c => simp
    have conv : ∀ F : Nat → Rat, (∑ i ∈ range g.length, if γ i = some b then F i else 0) = ∑ i ∈ range g.length, if (γ i).getD maxBins = b then F i else 0 :=
      fun F => sum_congr rfl (fun i hi => by simp only [hiff i hi])
    push_cast at e
    rw [conv, conv, conv] at e
    rw [e]
    congr 1
    unfold getL1RegularizationWeight shrinkage
    split_ifs <;> first | rfl | (exfalso; linarith)
  · have := hmin h0 (fun v => by rw [form_withL2]; exact hpsd v) (fun _ => 0)
    rw [objective_zero (x := scoreOf γ fun _ => 0) (by intro i _; unfold scoreOf; cases γ i <;> rfl)] at this
    exact this
  · have := hmin h0 (fun v => by rw [form_withL2]; exact hpsd v) q
    refine le_trans this (le_of_eq ?_)
    have e : ∀ i < g.length, scoreOf γ q i = q ((γ i).getD maxBins) := by
      intro i hi
      unfold scoreOf
      cases γ i with
      | none => simp [hq0]
      | some b => rfl
    unfold JointEval.objective
    rw [sum_congr rfl (fun i hi => by rw [e i (mem_range.1 hi)]),
      sum_congr (g := fun r => ∑ c ∈ range g.length, withoutPairs (matrix h) (fun i => (γ i).getD maxBins) r c * q ((γ r).getD maxBins) * q ((γ c).getD maxBins)) rfl
        (fun r hr => sum_congr rfl (fun c hc' => by rw [e r (mem_range.1 hr), e c (mem_range.1 hc')])),
      sum_congr (f := fun i => |scoreOf γ q i|) rfl (fun i hi => by rw [e i (mem_range.1 hi)]),
      sum_congr (f := fun i => scoreOf γ q i ^ 2) rfl (fun i hi => by rw [e i (mem_range.1 hi)])]

/-! ### Examples and counterexamples -/

theorem exSolve_frame : DsysvFrame exSolve := by
  intro a b n x hx i hi
  unfold exSolve at hx
  split at hx
  · split at hx
    · cases hx
    · cases hx
      rw [List.getElem?_set_ne (by omega)]
  · split at hx
    · simp only at hx
      split at hx
      · cases hx
      · cases hx
        rw [List.getElem?_set_ne (by omega), List.getElem?_set_ne (by omega)]
    · cases hx

/-- The members of a rule evaluation for three labels and at most two bins. -/
def exArrays (n : Nat) : Arrays := ⟨[9, 9], [9, 9, 9], [9, 9], [9, 9], List.replicate n 9, [9, 9, 0], [9, 9, 9, 9], [9, 9]⟩

example (n : Nat) : (exArrays n).Valid n 2 := ⟨rfl, rfl, rfl, rfl, by simp [exArrays], rfl, rfl, rfl, rfl⟩

/-- Four labels: the criteria are 2, 4, -1 and -3, i.e., there are two bins. The Hessians of labels in different bins are taken into account. -/
example : Spread (criteria [-2, -4, 1, 3] [1, 0, 1, 1 / 4, 0, 1, 0, 0, 0, 1] 0 0) ∧
    (completeBinned exSolve ⟨1 / 2, 1, 0⟩ 2 0 0 [-2, -4, 1, 3] [1, 0, 1, 1 / 4, 0, 1, 0, 0, 0, 1] (exArrays 4)).map
      (fun r => (r.1.labelBins, r.1.binValues, r.2)) = .ok ([1, 1, 0, 0], [-152 / 63, 208 / 63, 0], -928 / 63) := by
  refine ⟨⟨?_, ?_⟩, by decide +kernel⟩ <;> decide +kernel

/-- Negation of **C68**: the Hessians of different labels in the same bin are omitted. Here, both labels are in the same bin and get the score 3. The quality is
-9, whereas the value of the objective for this score is -9/2 and its minimum among equal scores is -6. -/
theorem pairs_omitted : Spread (criteria [-2, -4] [1, 1 / 2, 1] 0 0) ∧ (exArrays 2).Valid 2 2 ∧
    (completeBinned exSolve ⟨1 / 2, 1, 0⟩ 2 0 0 [-2, -4] [1, 1 / 2, 1] (exArrays 2)).map
      (fun r => (prediction r.1.labelBins r.1.binValues 0, prediction r.1.labelBins r.1.binValues 1, r.2)) = .ok (some 3, some 3, -9) ∧
    JointEval.objective (vec [(-2 : Rat), -4]) (matrix [1, 1 / 2, 1]) 0 0 2 (fun _ => 3) = -9 / 2 ∧
    JointEval.objective (vec [(-2 : Rat), -4]) (matrix [1, 1 / 2, 1]) 0 0 2 (fun _ => 2) = -6 := by
  refine ⟨⟨?_, ?_⟩, ⟨rfl, rfl, rfl, rfl, rfl, rfl, rfl, rfl, rfl⟩, ?_, ?_, ?_⟩
  all_goals decide +kernel

/-- Negation of **C68** for partial heads: the statistics of the first labels are aggregated instead of those that belong to the labels with the best scores.
Here, a head for the labels 1 and 2, of which the gradients are -4 and -2, is obtained from the gradients -1 and -4 of the labels 0 and 1: it predicts 5/2 for both,
and the quality is neither the value of the objective for these labels, nor is that value minimal among equal scores. -/
theorem fixedBinned_wrong :
    (fixedBinned exSolve ⟨1 / 2, 1, 0⟩ 2 (fun _ l => l.insertionSort (fun a b => |b.2| ≤ |a.2|)) 0 0 [0, 1, 2] 2 [-1, -4, -2] [1, 0, 1, 0, 0, 1]
      (exArrays 3)).map (fun r => (r.1, prediction r.2.1.labelBins r.2.1.binValues 0, prediction r.2.1.labelBins r.2.1.binValues 1, r.2.2)) =
        .ok ([1, 2], some (5 / 2), some (5 / 2), -25 / 4) ∧
    JointEval.objective (vec [(-4 : Rat), -2]) (matrix [1, 0, 1]) 0 0 2 (fun _ => 5 / 2) = -35 / 4 ∧
    JointEval.objective (vec [(-4 : Rat), -2]) (matrix [1, 0, 1]) 0 0 2 (fun _ => 3) = -9 := by
  refine ⟨?_, ?_, ?_⟩
  all_goals decide +kernel

/-- The same applies to heads that predict for a varying number of labels. -/
theorem dynamicBinned_wrong :
    (dynamicBinned exSolve ⟨1 / 2, 1, 0⟩ 2 (fun x => x) (2 / 3) 0 0 [0, 1, 2] [-1, -4, -2] [1, 0, 1, 0, 0, 1] (exArrays 3)).map
      (fun r => (r.1, prediction r.2.1.labelBins r.2.1.binValues 0, prediction r.2.1.labelBins r.2.1.binValues 1, r.2.2)) =
        .ok ([1, 2], some (5 / 2), some (5 / 2), -25 / 4) := by
  decide +kernel

end MLRL.JointBinned
