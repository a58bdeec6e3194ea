import Verif.Lemma.RuleEval
import Mathlib.Analysis.SpecialFunctions.Pow.Real

/-!
# C32, C42: rule evaluation for decomposable loss functions
-/

namespace MLRL.RuleEval

variable {K : Type} [Field K] [LinearOrder K] [IsStrictOrderedRing K]

/-! ### C32: scores and qualities -/

/-- The quality that is reported for a score is the value of the objective. -/
theorem quality_is_objective (g h l1 l2 x : K) : outputQuality x g h l1 l2 = objective g h l1 l2 x := by
  unfold outputQuality objective
  ring

/-- The soft-thresholded score is the unique minimiser of the objective. -/
theorem softThreshold_minimises (g h l1 l2 : K) (hd : 0 < h + l2) (hl : 0 ≤ l1) (y : K) :
    objective g h l1 l2 (softThreshold g h l1 l2) ≤ objective g h l1 l2 y ∧
      (objective g h l1 l2 y = objective g h l1 l2 (softThreshold g h l1 l2) → y = softThreshold g h l1 l2) := by
  have key : ∃ r : K, 0 ≤ r ∧ objective g h l1 l2 y =
      objective g h l1 l2 (softThreshold g h l1 l2) + (h + l2) / 2 * (y - softThreshold g h l1 l2) ^ 2 + r := by
    unfold softThreshold
    have hd' : h + l2 ≠ 0 := ne_of_gt hd
    have hay : -y ≤ |y| := neg_le_abs y
    have hay' : y ≤ |y| := le_abs_self y
    split
    · rename_i hg
      have hx : -(g - l1) / (h + l2) ≤ 0 := div_nonpos_of_nonpos_of_nonneg (by linarith) (le_of_lt hd)
      refine ⟨l1 * (|y| + y), mul_nonneg hl (by linarith), ?_⟩
      unfold objective
      rw [abs_of_nonpos hx]
      field_simp
      ring
    · split
      · rename_i hg
        have hx : 0 ≤ -(g + l1) / (h + l2) := div_nonneg (by linarith) (le_of_lt hd)
        refine ⟨l1 * (|y| - y), mul_nonneg hl (by linarith), ?_⟩
        unfold objective
        rw [abs_of_nonneg hx]
        field_simp
        ring
      · rename_i h1 h2
        refine ⟨g * y + l1 * |y|, ?_, ?_⟩
        · have h3 : |g| ≤ l1 := abs_le.2 ⟨not_lt.1 h2, not_lt.1 h1⟩
          have h4 : -(g * y) ≤ |g| * |y| := by rw [← abs_mul]; exact neg_le_abs _
          have h5 : |g| * |y| ≤ l1 * |y| := mul_le_mul_of_nonneg_right h3 (abs_nonneg y)
          linarith
        · unfold objective
          rw [abs_zero]
          ring
  obtain ⟨r, hr, he⟩ := key
  have hsq : 0 ≤ (h + l2) / 2 * (y - softThreshold g h l1 l2) ^ 2 := by positivity
  refine ⟨by rw [he]; linarith, fun heq => ?_⟩
  rw [he] at heq
  have h0 : (h + l2) / 2 * (y - softThreshold g h l1 l2) ^ 2 = 0 := by linarith
  rcases mul_eq_zero.1 h0 with h0 | h0
  · exfalso; linarith
  · exact sub_eq_zero.1 (pow_eq_zero_iff (two_ne_zero)|>.1 h0)

/-- **C32**, what holds of it: without L1 regularisation, the score is the unique minimiser of the objective and its quality is the
minimum, which is not positive. Missing is L1 regularisation, for which the score is never a minimiser (`l1_never_minimal`) and the
quality may be positive (`l1_quality`). -/
theorem score_minimises_partial (g h l2 : K) (hd : 0 < h + l2) :
    (∀ y, outputQuality (outputScore g h 0 l2) g h 0 l2 ≤ objective g h 0 l2 y) ∧
      (∀ y, objective g h 0 l2 y = outputQuality (outputScore g h 0 l2) g h 0 l2 → y = outputScore g h 0 l2) ∧
      outputQuality (outputScore g h 0 l2) g h 0 l2 = -(g ^ 2 / (2 * (h + l2))) ∧
      outputQuality (outputScore g h 0 l2) g h 0 l2 ≤ 0 := by
  have hd' : h + l2 ≠ 0 := ne_of_gt hd
  have hs : outputScore g h 0 l2 = -g / (h + l2) := by
    unfold outputScore divideOrZero getL1RegularizationWeight
    rw [if_neg hd']
    split_ifs <;> simp
  have hsoft : softThreshold g h 0 l2 = -g / (h + l2) := by
    unfold softThreshold
    split_ifs with h1 h2
    · simp
    · simp
    · have : g = 0 := le_antisymm (not_lt.1 h1) (by simpa using not_lt.1 h2)
      rw [this]; simp
  have hmin := softThreshold_minimises g h 0 l2 hd (le_refl 0)
  have hval : outputQuality (-g / (h + l2)) g h 0 l2 = -(g ^ 2 / (2 * (h + l2))) := by
    unfold outputQuality
    field_simp
    ring
  have hnn : 0 ≤ g ^ 2 / (2 * (h + l2)) := by positivity
  rw [hs]
  refine ⟨fun y => ?_, fun y hy => ?_, hval, by rw [hval]; linarith⟩
  · rw [quality_is_objective, ← hsoft]; exact (hmin y).1
  · rw [quality_is_objective, ← hsoft] at hy
    rw [← hsoft]
    exact (hmin y).2 hy

/-- If the sum of Hessian and L2 regularisation weight is zero, the score and its quality are zero. -/
theorem score_degenerate (g h l1 l2 : K) (hd : h + l2 = 0) :
    outputScore g h l1 l2 = 0 ∧ outputQuality (outputScore g h l1 l2) g h l1 l2 = 0 := by
  have : outputScore g h l1 l2 = 0 := by
    unfold outputScore divideOrZero
    rw [if_pos hd]
  rw [this]
  refine ⟨rfl, ?_⟩
  unfold outputQuality
  simp

/-- Negation of **C32**: with L1 regularisation, the score minimises the objective for no gradient other than zero. -/
theorem l1_never_minimal (g h l1 l2 : K) (hd : 0 < h + l2) (hl : 0 < l1) (hg : g ≠ 0) :
    objective g h l1 l2 (softThreshold g h l1 l2) < outputQuality (outputScore g h l1 l2) g h l1 l2 := by
  rw [quality_is_objective]
  obtain ⟨h1, h2⟩ := softThreshold_minimises g h l1 l2 hd (le_of_lt hl) (outputScore g h l1 l2)
  refine lt_of_le_of_ne h1 (fun he => ?_)
  have := h2 he.symm
  revert this
  have hd' : h + l2 ≠ 0 := ne_of_gt hd
  unfold outputScore divideOrZero getL1RegularizationWeight softThreshold
  rw [if_neg hd']
  intro this
  split_ifs at this with c1 c2
  · rw [div_left_inj' hd'] at this; linarith
  · rw [div_left_inj' hd'] at this; linarith
  · rw [div_eq_zero_iff] at this
    rcases this with this | this
    · apply hg; linarith
    · exact hd' this

/-- With L1 regularisation, the quality of the score for a gradient that exceeds `l1` is positive if and only if the gradient is less than
`3 * l1` (in terms of absolute values). -/
theorem l1_quality (g h l1 l2 : K) (hd : 0 < h + l2) (hl : 0 ≤ l1) (hg : l1 < |g|) :
    outputQuality (outputScore g h l1 l2) g h l1 l2 = (|g| + l1) * (3 * l1 - |g|) / (2 * (h + l2)) := by
  have hd' : h + l2 ≠ 0 := ne_of_gt hd
  unfold outputScore divideOrZero getL1RegularizationWeight
  rw [if_neg hd']
  rcases le_total 0 g with h0 | h0
  · rw [abs_of_nonneg h0] at hg ⊢
    rw [if_pos hg]
    have hx : (-g + -l1) / (h + l2) ≤ 0 := div_nonpos_of_nonpos_of_nonneg (by linarith) (le_of_lt hd)
    unfold outputQuality
    rw [abs_of_nonpos hx]
    field_simp
    ring
  · rw [abs_of_nonpos h0] at hg ⊢
    rw [if_neg (by linarith), if_pos (by linarith)]
    have hx : 0 ≤ (-g + l1) / (h + l2) := div_nonneg (by linarith) (le_of_lt hd)
    unfold outputQuality
    rw [abs_of_nonneg hx]
    field_simp
    ring

/-- Negation of **C32**, the quality is positive: gradient 2, Hessian 1, L1 weight 1. -/
theorem l1_quality_positive : outputScore (2 : Rat) 1 1 0 = -3 ∧ outputQuality (-3 : Rat) 2 1 1 0 = 3 / 2 ∧
    objective (2 : Rat) 1 1 0 (-1) = -1 / 2 := by
  decide +kernel

/-- **C32** for complete heads: without L1 regularisation, the scores minimise the sum of the objectives of all outputs, and the quality
is the minimum. -/
theorem complete_minimises_partial (l2 : K) (outputs : List Nat) (values : List K) (stats : List (Stat K))
    (hv : values.length = stats.length) (hd : ∀ t ∈ stats, 0 < t.hessian + l2) :
    ∃ scores quality, complete 0 l2 outputs values stats = .ok ⟨outputs, scores, quality⟩ ∧ scores.length = stats.length ∧
      quality = ((stats.zip scores).map (fun p => objective p.1.gradient p.1.hessian 0 l2 p.2)).sum ∧ quality ≤ 0 ∧
      ∀ ys : List K, ys.length = stats.length →
        quality ≤ ((stats.zip ys).map (fun p => objective p.1.gradient p.1.hessian 0 l2 p.2)).sum := by
  refine ⟨_, _, complete_ok 0 l2 outputs values stats hv, by simp, ?_, ?_, ?_⟩
  · clear hv hd
    induction stats with
    | nil => simp
    | cons t stats ih =>
      simp only [List.map_cons, List.zip_cons_cons, List.sum_cons]
      rw [ih]
      congr 1
      exact quality_is_objective _ _ _ _ _
  · clear hv
    induction stats with
    | nil => simp
    | cons t stats ih =>
      simp only [List.map_cons, List.sum_cons]
      have h1 := (score_minimises_partial t.gradient t.hessian l2 (hd t List.mem_cons_self)).2.2.2
      have h2 := ih (fun t ht => hd t (List.mem_cons_of_mem _ ht))
      exact add_nonpos h1 h2
  · clear hv
    induction stats with
    | nil => simp
    | cons t stats ih =>
      intro ys hy
      cases ys with
      | nil => simp at hy
      | cons y ys =>
        simp only [List.map_cons, List.zip_cons_cons, List.sum_cons]
        have h1 := (score_minimises_partial t.gradient t.hessian l2 (hd t List.mem_cons_self)).1 y
        have h2 := ih (fun t ht => hd t (List.mem_cons_of_mem _ ht)) ys (by simpa using hy)
        exact add_le_add h1 h2

example : complete (0 : Rat) 1 [0, 1] [9, 9] [⟨2, 1⟩, ⟨-3, 2⟩] = .ok ⟨[0, 1], [-1, 1], -5 / 2⟩ := by decide +kernel

/-! ### C42: partial heads -/

/-- **C42**, single-output heads: the output with the largest absolute score is predicted, the first one in case of ties. -/
theorem single_best (l1 l2 : K) (outputs : List Nat) (stats : List (Stat K)) (hne : stats ≠ []) (ho : outputs.length = stats.length) :
    ∃ b t o, stats[b]? = some t ∧ outputs[b]? = some o ∧
      single l1 l2 outputs stats = .ok ⟨[o], [t.score l1 l2], t.quality l1 l2 (t.score l1 l2)⟩ ∧
      (∀ (i : Nat) t', stats[i]? = some t' → |t'.score l1 l2| ≤ |t.score l1 l2|) ∧
      (∀ (i : Nat) t', i < b → stats[i]? = some t' → |t'.score l1 l2| < |t.score l1 l2|) :=
  single_ok l1 l2 outputs stats hne ho

/-- Without statistics, the array is left. -/
theorem single_empty (l1 l2 : K) (outputs : List Nat) : single l1 l2 outputs [] = .error .outOfBounds := rfl

/-- Among outputs with the same Hessian, the one with the largest absolute score also has the best quality (without L1
regularisation). -/
theorem larger_score_better (g g' h l2 : K) (hd : 0 < h + l2) (hs : |outputScore g' h 0 l2| ≤ |outputScore g h 0 l2|) :
    outputQuality (outputScore g h 0 l2) g h 0 l2 ≤ outputQuality (outputScore g' h 0 l2) g' h 0 l2 := by
  have hd' : h + l2 ≠ 0 := ne_of_gt hd
  have e : ∀ g : K, outputScore g h 0 l2 = -g / (h + l2) := by
    intro g
    unfold outputScore divideOrZero getL1RegularizationWeight
    rw [if_neg hd']
    split_ifs <;> simp
  rw [(score_minimises_partial g h l2 hd).2.2.1, (score_minimises_partial g' h l2 hd).2.2.1]
  rw [e, e, abs_div, abs_div, abs_neg, abs_neg, div_le_div_iff_of_pos_right (abs_pos.2 hd')] at hs
  have := sq_le_sq.2 hs
  rw [neg_le_neg_iff]
  exact div_le_div_of_nonneg_right this (by positivity)

/-- **C42**, heads of a fixed size: as many outputs as requested are predicted, each of them once, together with their scores. Their
absolute scores are not less than those of all other outputs. -/
theorem fixed_best {partialSort : Nat → List (Nat × K) → List (Nat × K)} (l1 l2 : K) (outputs : List Nat) (tmp : List (Nat × K))
    (indices : List Nat) (values : List K) (stats : List (Stat K)) (ho : outputs.length = stats.length)
    (ht : stats.length ≤ tmp.length) (hv : values.length = indices.length) (hk : indices.length ≤ stats.length)
    (hs : ∀ l, PartiallySorted indices.length l (partialSort indices.length l)) :
    ∃ (chosen : List (Nat × Stat K)) (result : List Nat),
      fixed partialSort l1 l2 outputs tmp indices values stats = .ok ⟨result, chosen.map (fun c => c.2.score l1 l2),
        (chosen.map (fun c => c.2.quality l1 l2 (c.2.score l1 l2))).sum⟩ ∧
      result.map some = chosen.map (fun c => outputs[c.1]?) ∧
      chosen.length = indices.length ∧ (∀ c ∈ chosen, stats[c.1]? = some c.2) ∧ (chosen.map Prod.fst).Nodup ∧
      chosen.Pairwise (fun a b => |b.2.score l1 l2| ≤ |a.2.score l1 l2|) ∧
      ∀ (i : Nat) t, stats[i]? = some t → i ∉ chosen.map Prod.fst → ∀ c ∈ chosen, |t.score l1 l2| ≤ |c.2.score l1 l2| :=
  fixed_ok l1 l2 outputs tmp indices values stats ho ht hv hk hs

/-- **C42**, dynamic heads: exactly those outputs are predicted whose weighted score reaches the threshold, in the order of the outputs,
together with their scores. -/
theorem dynamic_exact (pow : K → K) (threshold l1 l2 : K) (outputs : List Nat) (indices : List Nat) (values : List K)
    (stats : List (Stat K)) (hne : stats ≠ []) (ho : outputs.length = stats.length) (hi : indices.length = stats.length)
    (hv : values.length = stats.length) :
    ∃ m M, MinMax l1 l2 stats m M ∧
      let chosen := (outputs.zip stats).filter (fun c => decide (pow (M - m) * (1 - threshold) ≤ pow (|c.2.score l1 l2| - m)))
      dynamic pow threshold l1 l2 outputs indices values stats =
        .ok ⟨chosen.map Prod.fst, chosen.map (fun c => c.2.score l1 l2),
          (chosen.map (fun c => c.2.quality l1 l2 (c.2.score l1 l2))).sum⟩ :=
  dynamic_ok pow threshold l1 l2 outputs indices values stats hne ho hi hv

/-- **C42**, dynamic heads over the real numbers: for exponents greater than zero, an output is predicted if and only if its absolute
score is not less than `m + (1 - threshold)^(1/exponent) * (M - m)`, where `m` and `M` are the smallest and the largest absolute score. In
particular, all outputs with the largest absolute score are predicted. -/
theorem dynamic_cutoff (exponent threshold l1 l2 : ℝ) (he : 0 < exponent) (ht0 : 0 < threshold) (ht1 : threshold < 1)
    (outputs : List Nat) (indices : List Nat) (values : List ℝ) (stats : List (Stat ℝ)) (hne : stats ≠ [])
    (ho : outputs.length = stats.length) (hi : indices.length = stats.length) (hv : values.length = stats.length) :
    ∃ m M, MinMax l1 l2 stats m M ∧ ∃ chosen : List (Nat × Stat ℝ),
      dynamic (fun x => x ^ exponent) threshold l1 l2 outputs indices values stats =
        .ok ⟨chosen.map Prod.fst, chosen.map (fun c => c.2.score l1 l2),
          (chosen.map (fun c => c.2.quality l1 l2 (c.2.score l1 l2))).sum⟩ ∧ chosen.Sublist (outputs.zip stats) ∧
      (∀ c ∈ outputs.zip stats, c ∈ chosen ↔ m + (1 - threshold) ^ (1 / exponent) * (M - m) ≤ |c.2.score l1 l2|) ∧
      ∀ c ∈ outputs.zip stats, |c.2.score l1 l2| = M → c ∈ chosen := by
  obtain ⟨m, M, h1, h2⟩ := dynamic_ok (fun x : ℝ => x ^ exponent) threshold l1 l2 outputs indices values stats hne ho hi hv
  have key : ∀ c ∈ outputs.zip stats, ((M - m) ^ exponent * (1 - threshold) ≤ (|c.2.score l1 l2| - m) ^ exponent ↔
      m + (1 - threshold) ^ (1 / exponent) * (M - m) ≤ |c.2.score l1 l2|) := by
    intro c hc
    have hcm : c.2 ∈ stats := (List.of_mem_zip hc).2
    have a1 : 0 ≤ |c.2.score l1 l2| - m := by have := h1.least _ hcm; linarith
    have a2 : 0 ≤ M - m := by have := h1.least _ hcm; have := h1.greatest _ hcm; linarith
    have a3 : (0 : ℝ) ≤ 1 - threshold := by linarith
    have e : (M - m) ^ exponent * (1 - threshold) = ((1 - threshold) ^ (1 / exponent) * (M - m)) ^ exponent := by
      rw [Real.mul_rpow (Real.rpow_nonneg a3 _) a2, ← Real.rpow_mul a3, one_div_mul_cancel (ne_of_gt he), Real.rpow_one, mul_comm]
    rw [e, Real.rpow_le_rpow_iff (mul_nonneg (Real.rpow_nonneg a3 _) a2) a1 he]
    constructor <;> intro h <;> linarith
  refine ⟨m, M, h1, _, h2, List.filter_sublist, ?_, ?_⟩
  · intro c hc
    rw [List.mem_filter, decide_eq_true_eq, ← key c hc]
    exact ⟨fun h => h.2, fun h => ⟨hc, h⟩⟩
  · intro c hc hM
    rw [List.mem_filter, decide_eq_true_eq, key c hc, hM]
    refine ⟨hc, ?_⟩
    have hcm : c.2 ∈ stats := (List.of_mem_zip hc).2
    have a2 : 0 ≤ M - m := by have := h1.least _ hcm; rw [hM] at this; linarith
    have a4 : (1 - threshold) ^ (1 / exponent) ≤ 1 := Real.rpow_le_one (by linarith) (by linarith) (by positivity)
    have := mul_le_mul_of_nonneg_right a4 a2
    linarith

/-- Examples: three outputs with scores -1, 3 and 2. -/
example : single (0 : Rat) 1 [4, 5, 6] [⟨2, 1⟩, ⟨-6, 1⟩, ⟨-4, 1⟩] = .ok ⟨[5], [3], -9⟩ := by decide +kernel

example : PartiallySorted 2 [(0, (-1 : Rat)), (1, 3), (2, 2)] [(1, 3), (2, 2), (0, -1)] ∧
    fixed (fun _ _ => [(1, 3), (2, 2), (0, -1)]) (0 : Rat) 1 [4, 5, 6] [(0, 0), (0, 0), (0, 0)] [0, 0] [0, 0]
      [⟨2, 1⟩, ⟨-6, 1⟩, ⟨-4, 1⟩] = .ok ⟨[5, 6], [3, 2], -13⟩ :=
  ⟨⟨by decide, by decide +kernel, by decide +kernel⟩, by decide +kernel⟩

example : dynamic (fun x => x ^ 2) (9 / 10 : Rat) 0 1 [4, 5, 6] [0, 0, 0] [0, 0, 0] [⟨2, 1⟩, ⟨-6, 1⟩, ⟨-4, 1⟩] =
    .ok ⟨[5, 6], [3, 2], -13⟩ := by decide +kernel

end MLRL.RuleEval
