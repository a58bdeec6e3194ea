import Verif.Lemma.LabelBinning
import Verif.Props.RuleEval
import Mathlib.Order.Bounds.Basic

/-!
# C41, C62: label binning and rule evaluations that make use of it
-/

namespace MLRL.LabelBinning

open RuleEval Sampling Finset

/-- The configurations that are accepted by the setters, label_binning_equal_width.cpp:176-201. -/
structure Accepted (cfg : Config) : Prop where
  ratio_pos : 0 < cfg.binRatio
  ratio_lt : cfg.binRatio < 1
  min_pos : 1 ≤ cfg.minBins

theorem binIndex_inBin {c m M : Rat} {n : Nat} (hn : 0 < n) (hn' : n < 2 ^ 32) (hmM : m < M) (h1 : m ≤ c) (h2 : c ≤ M) :
    ∃ b, binIndex c (some m) (some ((M - m) / n)) n = .ok b ∧ InBin m M n b c := by
  have hn0 : (0 : Rat) < n := by exact_mod_cast hn
  have hpos : 0 < (M - m) / n := div_pos (by linarith) hn0
  have hx0 : 0 ≤ (c - m) / ((M - m) / n) := div_nonneg (by linarith) (le_of_lt hpos)
  have hf0 : 0 ≤ ⌊(c - m) / ((M - m) / n)⌋ := Int.floor_nonneg.2 hx0
  refine ⟨_, binIndex_ok hn hn' hmM h1 h2, by omega, ?_, ?_⟩
  · have k1 : ((min (n - 1) ⌊(c - m) / ((M - m) / n)⌋.toNat : Nat) : Rat) ≤ (c - m) / ((M - m) / n) := by
      have : ((min (n - 1) ⌊(c - m) / ((M - m) / n)⌋.toNat : Nat) : Int) ≤ ⌊(c - m) / ((M - m) / n)⌋ := by omega
      exact le_trans (by exact_mod_cast this) (Int.floor_le _)
    rw [le_div_iff₀ hpos] at k1
    linarith
  · rcases Nat.le_total ⌊(c - m) / ((M - m) / n)⌋.toNat (n - 1) with hle | hle
    · rw [min_eq_right hle]
      have k1 := Int.lt_floor_add_one ((c - m) / ((M - m) / n))
      have k2 : ((⌊(c - m) / ((M - m) / n)⌋.toNat : Nat) : Rat) = (⌊(c - m) / ((M - m) / n)⌋ : Rat) := by
        have : ((⌊(c - m) / ((M - m) / n)⌋.toNat : Nat) : Int) = ⌊(c - m) / ((M - m) / n)⌋ := Int.toNat_of_nonneg hf0
        exact_mod_cast this
      rw [k2]
      rw [div_lt_iff₀ hpos] at k1
      linarith
    · rw [min_eq_left hle]
      have : ((n - 1 : Nat) : Rat) + 1 = n := by exact_mod_cast Nat.sub_add_cancel hn
      rw [this, mul_div_cancel₀ _ (ne_of_gt hn0)]
      linarith

/-- **C41.** If the negative criteria are not all equal and the positive criteria are not all equal, each criterion is assigned to a bin
without undefined behaviour: zeros to none, negative criteria to the first bins, which divide the range of the negative criteria into parts
of equal width, positive criteria to the following bins, which divide their range. Larger criteria are not assigned to bins with smaller
indices. The numbers of bins are the configured fractions of the numbers of negative and positive criteria. -/
theorem label_bins_partial {cfg : Config} (hcfg : Accepted cfg) {criteria : List Rat} (hlen : criteria.length < 2 ^ 32)
    (hspread : Spread criteria) :
    ∃ bin : Rat → Option Nat, (∀ c ∈ criteria, (cfg.getLabelInfo criteria).binOf c = .ok (bin c)) ∧
      (∀ c ∈ criteria, bin c = none ↔ c = 0) ∧
      (∀ c ∈ criteria, c < 0 → ∃ b m M, bin c = some b ∧ IsLeast {c | c ∈ criteria ∧ c < 0} m ∧
        IsGreatest {c | c ∈ criteria ∧ c < 0} M ∧ InBin m M (cfg.getLabelInfo criteria).numNegativeBins b c) ∧
      (∀ c ∈ criteria, c > 0 → ∃ b m M, bin c = some ((cfg.getLabelInfo criteria).numNegativeBins + b) ∧
        IsLeast {c | c ∈ criteria ∧ c > 0} m ∧ IsGreatest {c | c ∈ criteria ∧ c > 0} M ∧
        InBin m M (cfg.getLabelInfo criteria).numPositiveBins b c) ∧
      (∀ c ∈ criteria, ∀ c' ∈ criteria, c ≤ c' → ∀ b, bin c = some b → ∀ b', bin c' = some b' → b ≤ b') ∧
      (cfg.getLabelInfo criteria).numNegativeBins = cfg.numBins (criteria.countP (fun c => decide (c < 0))) ∧
      (cfg.getLabelInfo criteria).numPositiveBins = cfg.numBins (criteria.countP (fun c => decide (c > 0))) := by
  by_cases hne : criteria = []
  · subst hne
    exact ⟨fun _ => none, by simp, by simp, by simp, by simp, by simp, rfl, rfl⟩
  obtain ⟨v1, v2, v3, v4⟩ := visit_all criteria
  have hinfo : cfg.getLabelInfo criteria = ⟨cfg.numBins (criteria.countP (fun c => decide (c < 0))),
      cfg.numBins (criteria.countP (fun c => decide (c > 0))), some (criteria.foldl visit (0, 0, ⟨0, none, none, 0⟩)).2.2⟩ := by
    unfold Config.getLabelInfo
    rw [if_pos (List.length_pos_iff.2 hne)]
    simp only [v1, v2]
  rw [hinfo]
  generalize (criteria.foldl visit (0, 0, ⟨0, none, none, 0⟩)).2.2 = r at v3 v4
  have hnb : ∀ p : Rat → Bool, cfg.numBins (criteria.countP p) < 2 ^ 32 := by
    intro p
    have h1 := numBins_le (cfg := cfg) (le_of_lt hcfg.ratio_lt) (criteria.countP p)
    have h2 := List.countP_le_length (p := p) (l := criteria)
    omega
  have hpos : ∀ (p : Rat → Bool) (c : Rat), c ∈ criteria → p c = true → 0 < cfg.numBins (criteria.countP p) :=
    fun p c hc hp => numBins_pos hcfg.ratio_pos hcfg.min_pos (List.countP_pos_iff.2 ⟨c, hc, hp⟩)
  generalize hnn : cfg.numBins (criteria.countP (fun c => decide (c < 0))) = nn
  generalize hnp : cfg.numBins (criteria.countP (fun c => decide (c > 0))) = np
  -- negative criteria
  have hneg : ∀ c ∈ criteria, c < 0 → ∃ m M, IsLeast {c | c ∈ criteria ∧ c < 0} m ∧ IsGreatest {c | c ∈ criteria ∧ c < 0} M ∧ m < M ∧
      r.minNegative = m ∧ r.maxNegative = some M ∧ 0 < nn ∧ r.spanNegative nn = some ((M - m) / nn) := by
    intro c hc h0
    obtain ⟨p1, p2, p3⟩ := v3.exists_ ⟨c, hc, h0⟩
    obtain ⟨M, q1, q2, q3, q4⟩ := v3.maxSome ⟨c, hc, h0⟩
    have hn0 : 0 < nn := by rw [← hnn]; exact hpos _ c hc (decide_eq_true h0)
    have hlt : r.minNegative < M := by
      obtain ⟨c', k1, k2, k3⟩ := hspread.1 _ p1 p2
      exact lt_of_lt_of_le (lt_of_le_of_ne (p3 c' k1 k2) (Ne.symm k3)) (q4 c' k1 k2)
    refine ⟨r.minNegative, M, ⟨⟨p1, p2⟩, fun x hx => p3 x hx.1 hx.2⟩, ⟨⟨q1, q2⟩, fun x hx => q4 x hx.1 hx.2⟩, hlt, rfl, q3, hn0, ?_⟩
    unfold Ranges.spanNegative floatDiv
    rw [if_pos p2, q3]
    simp only [Option.map_some]
    rw [if_neg (by exact_mod_cast Nat.pos_iff_ne_zero.1 hn0)]
  have hposr : ∀ c ∈ criteria, c > 0 → ∃ m M, IsLeast {c | c ∈ criteria ∧ c > 0} m ∧ IsGreatest {c | c ∈ criteria ∧ c > 0} M ∧ m < M ∧
      r.minPositive = some m ∧ 0 < np ∧ r.spanPositive np = some ((M - m) / np) := by
    intro c hc h0
    obtain ⟨p1, p2, p3⟩ := v4.exists_ ⟨c, hc, h0⟩
    obtain ⟨m, q1, q2, q3, q4⟩ := v4.minSome ⟨c, hc, h0⟩
    have hn0 : 0 < np := by rw [← hnp]; exact hpos _ c hc (decide_eq_true h0)
    have hlt : m < r.maxPositive := by
      obtain ⟨c', k1, k2, k3⟩ := hspread.2 _ q1 q2
      exact lt_of_lt_of_le (lt_of_le_of_ne (q4 c' k1 k2) (Ne.symm k3)) (p3 c' k1 k2)
    refine ⟨m, r.maxPositive, ⟨⟨q1, q2⟩, fun x hx => q4 x hx.1 hx.2⟩, ⟨⟨p1, p2⟩, fun x hx => p3 x hx.1 hx.2⟩, hlt, q3, hn0, ?_⟩
    unfold Ranges.spanPositive floatDiv
    rw [if_pos p2, q3]
    simp only [Option.map_some]
    rw [if_neg (by exact_mod_cast Nat.pos_iff_ne_zero.1 hn0)]
  have hnn' : nn < 2 ^ 32 := by rw [← hnn]; exact hnb _
  have hnp' : np < 2 ^ 32 := by rw [← hnp]; exact hnb _
  -- the bin of each criterion
  have hstep : ∀ c ∈ criteria, (c < 0 → ∃ m M b, IsLeast {c | c ∈ criteria ∧ c < 0} m ∧ IsGreatest {c | c ∈ criteria ∧ c < 0} M ∧ m < M ∧
        0 < nn ∧ (⟨nn, np, some r⟩ : LabelInfo).binOf c = .ok (some b) ∧ InBin m M nn b c ∧
        b = min (nn - 1) ⌊(c - m) / ((M - m) / nn)⌋.toNat) ∧
      (c > 0 → ∃ m M b, IsLeast {c | c ∈ criteria ∧ c > 0} m ∧ IsGreatest {c | c ∈ criteria ∧ c > 0} M ∧ m < M ∧
        0 < np ∧ (⟨nn, np, some r⟩ : LabelInfo).binOf c = .ok (some (nn + b)) ∧ InBin m M np b c ∧
        b = min (np - 1) ⌊(c - m) / ((M - m) / np)⌋.toNat) ∧
      (c = 0 → (⟨nn, np, some r⟩ : LabelInfo).binOf c = .ok none) := by
    intro c hc
    refine ⟨fun h0 => ?_, fun h0 => ?_, fun h0 => ?_⟩
    · obtain ⟨m, M, k1, k2, k3, k4, k5, k6, k7⟩ := hneg c hc h0
      obtain ⟨b, hb1, hb2⟩ := binIndex_inBin k6 hnn' k3 (k1.2 ⟨hc, h0⟩) (k2.2 ⟨hc, h0⟩)
      have hb3 := binIndex_ok k6 hnn' k3 (k1.2 ⟨hc, h0⟩) (k2.2 ⟨hc, h0⟩)
      rw [hb1] at hb3
      refine ⟨m, M, b, k1, k2, k3, k6, ?_, hb2, Except.ok.inj hb3⟩
      unfold LabelInfo.binOf
      simp only [useInit]
      rw [ok_bind, if_pos h0, k4, k7, hb1]
      rfl
    · obtain ⟨m, M, k1, k2, k3, k4, k6, k7⟩ := hposr c hc h0
      obtain ⟨b, hb1, hb2⟩ := binIndex_inBin k6 hnp' k3 (k1.2 ⟨hc, h0⟩) (k2.2 ⟨hc, h0⟩)
      have hb3 := binIndex_ok k6 hnp' k3 (k1.2 ⟨hc, h0⟩) (k2.2 ⟨hc, h0⟩)
      rw [hb1] at hb3
      refine ⟨m, M, b, k1, k2, k3, k6, ?_, hb2, Except.ok.inj hb3⟩
      unfold LabelInfo.binOf
      simp only [useInit]
      rw [ok_bind, if_neg (not_lt.2 (le_of_lt h0)), if_pos h0, k4, k7, hb1]
      rfl
    · subst h0
      rfl
  refine ⟨fun c => match (⟨nn, np, some r⟩ : LabelInfo).binOf c with
    | .ok b => b
    | .error _ => none, ?_, ?_, ?_, ?_, ?_, rfl, rfl⟩
  · intro c hc
    obtain ⟨s1, s2, s3⟩ := hstep c hc
    rcases lt_trichotomy c 0 with h0 | h0 | h0
    · obtain ⟨m, M, b, -, -, -, -, hb, -, -⟩ := s1 h0
      simp only [hb]
    · simp only [s3 h0]
    · obtain ⟨m, M, b, -, -, -, -, hb, -, -⟩ := s2 h0
      simp only [hb]
  · intro c hc
    obtain ⟨s1, s2, s3⟩ := hstep c hc
    rcases lt_trichotomy c 0 with h0 | h0 | h0
    · obtain ⟨m, M, b, -, -, -, -, hb, -, -⟩ := s1 h0
      simp only [hb, reduceCtorEq, false_iff]
      exact ne_of_lt h0
    · exact ⟨fun _ => h0, fun _ => by simp only [s3 h0]⟩
    · obtain ⟨m, M, b, -, -, -, -, hb, -, -⟩ := s2 h0
      simp only [hb, reduceCtorEq, false_iff]
      exact ne_of_gt h0
  · intro c hc h0
    obtain ⟨m, M, b, k1, k2, -, -, hb, k3, -⟩ := (hstep c hc).1 h0
    exact ⟨b, m, M, by simp only [hb], k1, k2, k3⟩
  · intro c hc h0
    obtain ⟨m, M, b, k1, k2, -, -, hb, k3, -⟩ := (hstep c hc).2.1 h0
    exact ⟨b, m, M, by simp only [hb], k1, k2, k3⟩
  · intro c hc c' hc' hle b hb b' hb'
    obtain ⟨s1, s2, s3⟩ := hstep c hc
    obtain ⟨s1', s2', s3'⟩ := hstep c' hc'
    rcases lt_trichotomy c 0 with h0 | h0 | h0
    · obtain ⟨m, M, b1, k1, k2, k3, k4, k5, k6, k7⟩ := s1 h0
      simp only [k5] at hb
      cases hb
      rcases lt_trichotomy c' 0 with h0' | h0' | h0'
      · obtain ⟨m', M', b2, k1', k2', k3', k4', k5', k6', k7'⟩ := s1' h0'
        simp only [k5'] at hb'
        cases hb'
        cases k1.unique k1'
        cases k2.unique k2'
        have := floor_mono k4 k3 hle
        omega
      · simp only [s3' h0'] at hb'
        cases hb'
      · obtain ⟨m', M', b2, k1', k2', k3', k4', k5', k6', k7'⟩ := s2' h0'
        simp only [k5'] at hb'
        cases hb'
        have := k6.1
        omega
    · simp only [s3 h0] at hb
      cases hb
    · obtain ⟨m, M, b1, k1, k2, k3, k4, k5, k6, k7⟩ := s2 h0
      simp only [k5] at hb
      cases hb
      obtain ⟨m', M', b2, k1', k2', k3', k4', k5', k6', k7'⟩ := s2' (lt_of_lt_of_le h0 hle)
      simp only [k5'] at hb'
      cases hb'
      cases k1.unique k1'
      cases k2.unique k2'
      have := floor_mono k4 k3 hle
      omega

/-- A case with negative, positive and zero criteria. -/
example : Spread [-3, 1, 0, -1, 4, -1, 2] ∧
    [-3, 1, 0, -1, 4, -1, 2].mapM (((⟨1 / 2, 1, 0⟩ : Config).getLabelInfo [-3, 1, 0, -1, 4, -1, 2]).binOf ·) =
      .ok [some 0, some 2, none, some 1, some 3, some 1, some 2] := by
  refine ⟨⟨?_, ?_⟩, by decide +kernel⟩ <;> decide +kernel

private theorem floatDiv_zero_zero (x : Rat) : floatDiv (some 0) (floatDiv (some 0) (some x)) = none := by
  unfold floatDiv
  by_cases h : x = 0
  · simp [h]
  · simp [h]

/-- Negation of **C41**: if all negative criteria are equal, for example because there is only one, the width of the bins is zero and the
result of a division by zero is converted into an integer. -/
theorem equal_negative_undefined {cfg : Config} {criteria : List Rat} {c : Rat} (hc : c ∈ criteria) (h0 : c < 0)
    (hall : ∀ c' ∈ criteria, c' < 0 → c' = c) : (cfg.getLabelInfo criteria).binOf c = .error .badCast := by
  obtain ⟨v1, v2, v3, v4⟩ := visit_all criteria
  obtain ⟨p1, p2, -⟩ := v3.exists_ ⟨c, hc, h0⟩
  obtain ⟨M, q1, q2, q3, -⟩ := v3.maxSome ⟨c, hc, h0⟩
  unfold Config.getLabelInfo LabelInfo.binOf
  rw [if_pos (List.length_pos_of_mem hc)]
  simp only [useInit]
  rw [ok_bind, if_pos h0]
  unfold Ranges.spanNegative
  rw [if_pos p2, q3, hall _ p1 p2, hall _ q1 q2]
  unfold binIndex
  simp only [Option.map_some, sub_self]
  rw [floatDiv_zero_zero]
  rfl

/-- The same for positive criteria. -/
theorem equal_positive_undefined {cfg : Config} {criteria : List Rat} {c : Rat} (hc : c ∈ criteria) (h0 : c > 0)
    (hall : ∀ c' ∈ criteria, c' > 0 → c' = c) : (cfg.getLabelInfo criteria).binOf c = .error .badCast := by
  obtain ⟨v1, v2, v3, v4⟩ := visit_all criteria
  obtain ⟨p1, p2, -⟩ := v4.exists_ ⟨c, hc, h0⟩
  obtain ⟨M, q1, q2, q3, -⟩ := v4.minSome ⟨c, hc, h0⟩
  unfold Config.getLabelInfo LabelInfo.binOf
  rw [if_pos (List.length_pos_of_mem hc)]
  simp only [useInit]
  rw [ok_bind, if_neg (not_lt.2 (le_of_lt h0)), if_pos h0]
  unfold Ranges.spanPositive
  rw [if_pos p2, q3, hall _ p1 p2, hall _ q1 q2]
  unfold binIndex
  simp only [Option.map_some, sub_self]
  rw [floatDiv_zero_zero]
  rfl

/-- **C41.** The arrays that are allocated are large enough if the number of bins is not restricted by a minimum greater than one or a
maximum. -/
theorem bins_allocated_partial {cfg : Config} (hcfg : Accepted cfg) (hmin : cfg.minBins = 1) (hmax : cfg.maxBins = 0) {criteria : List Rat}
    {numLabels : Nat} (hlen : criteria.length ≤ numLabels) :
    (cfg.getLabelInfo criteria).numPositiveBins + (cfg.getLabelInfo criteria).numNegativeBins ≤ cfg.getMaxBins numLabels := by
  have hfrac : ∀ n, calculateBoundedFraction n cfg.binRatio cfg.minBins cfg.maxBins = ⌈cfg.binRatio * n⌉₊ := by
    intro n
    unfold calculateBoundedFraction
    rw [hmin, hmax]
    have : 0 < n → 0 < ⌈cfg.binRatio * n⌉₊ := fun h => Nat.ceil_pos.2 (mul_pos hcfg.ratio_pos (by exact_mod_cast h))
    simp only
    split_ifs <;> omega
  unfold Config.getMaxBins
  rw [hfrac]
  have key : ∀ a b, a + b ≤ numLabels → ⌈cfg.binRatio * a⌉₊ + ⌈cfg.binRatio * b⌉₊ ≤ ⌈cfg.binRatio * numLabels⌉₊ + 1 := by
    intro a b hab
    have h0 := hcfg.ratio_pos
    have h1 := Nat.ceil_lt_add_one (a := cfg.binRatio * a) (by positivity)
    have h2 := Nat.ceil_lt_add_one (a := cfg.binRatio * b) (by positivity)
    have h3 : cfg.binRatio * (a + b) ≤ cfg.binRatio * numLabels :=
      mul_le_mul_of_nonneg_left (by exact_mod_cast hab) (le_of_lt h0)
    have h4 := Nat.le_ceil (cfg.binRatio * numLabels)
    have h5 : ((⌈cfg.binRatio * a⌉₊ + ⌈cfg.binRatio * b⌉₊ : Nat) : Rat) < ((⌈cfg.binRatio * numLabels⌉₊ + 2 : Nat) : Rat) := by
      push_cast
      linarith
    have h6 : ⌈cfg.binRatio * a⌉₊ + ⌈cfg.binRatio * b⌉₊ < ⌈cfg.binRatio * numLabels⌉₊ + 2 := by exact_mod_cast h5
    omega
  have hnum : ∀ n, cfg.numBins n = ⌈cfg.binRatio * n⌉₊ := by
    intro n
    unfold Config.numBins
    split
    · exact hfrac n
    · have : n = 0 := by omega
      subst this
      simp
  unfold Config.getLabelInfo
  split
  · obtain ⟨v1, v2, -, -⟩ := visit_all criteria
    simp only [v1, v2, hnum]
    refine key _ _ (le_trans ?_ hlen)
    rw [List.length_eq_countP_add_countP (fun c => decide (c > 0)) (l := criteria)]
    refine Nat.add_le_add_left (List.countP_mono_left (fun c _ h => ?_)) _
    simp only [decide_eq_true_eq, Bool.not_eq_true'] at h ⊢
    exact not_lt.2 (le_of_lt h)
  · simp

/-- Negation of **C41**: with a minimum number of bins, or a maximum, more bins may be created than have been allocated, because the limits
are applied to negative and positive criteria separately. -/
theorem bins_exceed_allocated :
    Accepted ⟨1 / 25, 5, 0⟩ ∧ (⟨1 / 25, 5, 0⟩ : Config).getMaxBins 10 = 6 ∧
    (fun info : LabelInfo => info.numPositiveBins + info.numNegativeBins)
      ((⟨1 / 25, 5, 0⟩ : Config).getLabelInfo [-5, -4, -3, -2, -1, 1, 2, 3, 4, 5]) = 10 ∧
    Accepted ⟨1 / 2, 1, 2⟩ ∧ (⟨1 / 2, 1, 2⟩ : Config).getMaxBins 8 = 3 ∧
    (fun info : LabelInfo => info.numPositiveBins + info.numNegativeBins)
      ((⟨1 / 2, 1, 2⟩ : Config).getLabelInfo [-4, -3, -2, -1, 1, 2, 3, 4]) = 4 :=
  ⟨⟨by decide +kernel, by decide +kernel, by decide⟩, by decide +kernel, by decide +kernel,
    ⟨by decide +kernel, by decide +kernel, by decide⟩, by decide +kernel, by decide +kernel⟩

theorem setZeros_error {α : Type} (zero : α) {a : List α} {n : Nat} (hn : a.length < n) : setZeros zero a n = .error .outOfBounds := by
  unfold setZeros loop
  have key : ∀ (k i : Nat) (b : List α), b.length = a.length → a.length < i + k → i ≤ a.length →
      loopFrom (fun i a => writeAt a i zero) i k b = .error .outOfBounds := by
    intro k
    induction k with
    | zero =>
      intro i b _ h1 h2
      omega
    | succ k ih =>
      intro i b hb h1 h2
      rw [loopFrom_succ]
      by_cases hi : i < b.length
      · rw [writeAt_of_lt hi, ok_bind]
        exact ih (i + 1) _ (by simp [hb]) (by omega) (by omega)
      · rw [writeAt_of_le (by omega)]
        rfl
  exact key n 0 a rfl (by omega) (by omega)

/-- In this case, the rule evaluation leaves the array that has been allocated for the aggregated statistics. -/
theorem too_many_bins {cfg : Config} {maxBins : Nat} {l1 l2 : Rat} {criteria : List Rat} {stats : List (Stat Rat)} {a : Arrays}
    (h1 : a.statistics.length = maxBins)
    (h : maxBins < (cfg.getLabelInfo criteria).numPositiveBins + (cfg.getLabelInfo criteria).numNegativeBins) :
    binnedScores cfg maxBins l1 l2 criteria stats a = .error .outOfBounds := by
  unfold binnedScores
  simp only
  rw [setZeros_error _ (by omega)]
  rfl

/-! ### C62: rule evaluation -/

/-- **C62**, what holds of it: for complete heads, if the scores of the outputs are not all equal among the negative (positive) ones and
the arrays are large enough, outputs in the same bin get the same score, the quality is the value of the objective for these scores and,
without L1 regularisation, no other scores that are equal for the outputs in each bin and zero for outputs without bin are better. Missing
are L1 regularisation and heads that predict for some outputs only (`fixedBinned_wrong`). -/
theorem completeBinned_optimal_partial {cfg : Config} (hcfg : Accepted cfg) {stats : List (Stat Rat)} (hne : stats ≠ [])
    (hlen : stats.length < 2 ^ 32) {maxBins : Nat} {l1 l2 : Rat} (hspread : Spread (stats.map (fun t => t.score l1 l2)))
    (hbins : (cfg.getLabelInfo (stats.map (fun t => t.score l1 l2))).numPositiveBins +
      (cfg.getLabelInfo (stats.map (fun t => t.score l1 l2))).numNegativeBins ≤ maxBins) {a : Arrays}
    (h1 : a.statistics.length = maxBins) (h2 : a.numElementsPerBin.length = maxBins) (h3 : a.binIndices.length = stats.length)
    (h4 : a.binValues.length = maxBins + 1) (h5 : a.binValues[maxBins]? = some 0) :
    ∃ a' quality, ∃ p : Nat → Rat, ∃ idx : Nat → Nat, completeBinned cfg maxBins l1 l2 stats a = .ok (a', quality) ∧
      (∀ i < stats.length, a'.binIndices[i]? = some (idx i) ∧ prediction a'.binIndices a'.binValues i = some (p i)) ∧
      (∀ i < stats.length, idx i = maxBins ↔ (statAt stats i).score l1 l2 = 0) ∧
      (∀ i < stats.length, (cfg.getLabelInfo (stats.map (fun t => t.score l1 l2))).binOf ((statAt stats i).score l1 l2) =
        .ok (if idx i = maxBins then none else some (idx i))) ∧
      quality = totalObjective stats l1 l2 p ∧
      (l1 = 0 → (∀ i < stats.length, 0 < (statAt stats i).hessian + l2) →
        quality ≤ 0 ∧ ∀ q : Nat → Rat, q maxBins = 0 → quality ≤ totalObjective stats l1 l2 (fun i => q (idx i))) := by
  obtain ⟨bin, b1, b2, b3, b4, b5, -, -⟩ := label_bins_partial hcfg (criteria := stats.map (fun t => t.score l1 l2))
    (by rw [List.length_map]; exact hlen) hspread
  have hcl : (stats.map (fun t => t.score l1 l2)).length = stats.length := List.length_map _
  have hget : ∀ (i : Nat) (hi : i < (stats.map (fun t => t.score l1 l2)).length),
      (stats.map (fun t => t.score l1 l2))[i] = (statAt stats i).score l1 l2 := by
    intro i hi
    rw [List.getElem_map]
    unfold statAt
    rw [List.getElem?_eq_getElem (by omega)]
    rfl
  have hmem : ∀ i < stats.length, (statAt stats i).score l1 l2 ∈ stats.map (fun t => t.score l1 l2) := by
    intro i hi
    rw [← hget i (by omega)]
    exact List.getElem_mem _
  generalize hnum : (cfg.getLabelInfo (stats.map (fun t => t.score l1 l2))).numPositiveBins +
      (cfg.getLabelInfo (stats.map (fun t => t.score l1 l2))).numNegativeBins = numBins at hbins
  have hb : ∀ i < stats.length, ∀ b, bin ((statAt stats i).score l1 l2) = some b → b < numBins := by
    intro i hi b hb
    have hm := hmem i hi
    rcases lt_trichotomy ((statAt stats i).score l1 l2) 0 with h0 | h0 | h0
    · obtain ⟨b', m, M, k1, k2, k3, k4⟩ := b3 _ hm h0
      rw [hb] at k1
      cases k1
      have := k4.1
      omega
    · rw [(b2 _ hm).2 h0] at hb
      cases hb
    · obtain ⟨b', m, M, k1, k2, k3, k4⟩ := b4 _ hm h0
      rw [hb] at k1
      cases k1
      have := k4.1
      omega
  obtain ⟨a', r1, r2, r3, r4, r5, r6⟩ := binnedScores_ok (cfg := cfg) (maxBins := maxBins) (l1 := l1) (l2 := l2)
    (criteria := stats.map (fun t => t.score l1 l2)) (stats := stats) (a := a) (β := fun i => bin ((statAt stats i).score l1 l2))
    hnum (by simpa using hne) (fun i hi => by
      rw [hget i hi]
      exact b1 _ (hmem i (by omega))) (fun i hi b hb' => hb i (by omega) b hb') (by omega) hbins h1 h2 (by omega) h4 _ _ rfl rfl
  rw [hcl] at r1 r3 r5
  -- the value of each bin
  let val : Nat → Rat := fun b => a'.binValues[b]?.getD 0
  have hval : ∀ b < numBins, val b = Stat.score ⟨sumOver (fun i => bin ((statAt stats i).score l1 l2)) stats.length b
        (fun j => (statAt stats j).gradient), sumOver (fun i => bin ((statAt stats i).score l1 l2)) stats.length b
        (fun j => (statAt stats j).hessian)⟩ (countIn (fun i => bin ((statAt stats i).score l1 l2)) stats.length b * l1)
        (countIn (fun i => bin ((statAt stats i).score l1 l2)) stats.length b * l2) := by
    intro b hb'
    simp only [val, r5 b hb']
    rfl
  have hval0 : val maxBins = 0 := by
    simp only [val, r6, h5]
    rfl
  have hidx : ∀ i < stats.length, (bin ((statAt stats i).score l1 l2)).getD maxBins = maxBins ↔ bin ((statAt stats i).score l1 l2) = none := by
    intro i hi
    cases hbi : bin ((statAt stats i).score l1 l2) with
    | none => simp
    | some b =>
      have := hb i hi b hbi
      simp only [Option.getD_some, reduceCtorEq, iff_false]
      omega
  have hq : (∑ b ∈ range numBins, Stat.quality ⟨sumOver (fun i => bin ((statAt stats i).score l1 l2)) stats.length b
        (fun j => (statAt stats j).gradient), sumOver (fun i => bin ((statAt stats i).score l1 l2)) stats.length b
        (fun j => (statAt stats j).hessian)⟩ (countIn (fun i => bin ((statAt stats i).score l1 l2)) stats.length b * l1)
        (countIn (fun i => bin ((statAt stats i).score l1 l2)) stats.length b * l2) (val b)) =
      totalObjective stats l1 l2 (fun i => val ((bin ((statAt stats i).score l1 l2)).getD maxBins)) := by
    have e := sum_bins (fun i => bin ((statAt stats i).score l1 l2)) (n := stats.length) (numBins := numBins) (maxBins := maxBins)
      stats l1 l2 val hval0 hb
    unfold totalObjective
    rw [← e]
    refine sum_congr rfl (fun b _ => ?_)
    exact quality_is_objective _ _ _ _ _
  refine ⟨a', _, fun i => val ((bin ((statAt stats i).score l1 l2)).getD maxBins),
    fun i => (bin ((statAt stats i).score l1 l2)).getD maxBins, r1, ?_, ?_, ?_, ?_, ?_⟩
  · intro i hi
    refine ⟨r3 i hi, ?_⟩
    unfold prediction
    rw [r3 i hi]
    simp only [Option.bind_eq_bind, Option.bind_some, val]
    have : (bin ((statAt stats i).score l1 l2)).getD maxBins < a'.binValues.length := by
      cases hbi : bin ((statAt stats i).score l1 l2) with
      | none => simp only [Option.getD_none]; omega
      | some b =>
        have := hb i hi b hbi
        simp only [Option.getD_some]
        omega
    rw [List.getElem?_eq_getElem this]
    rfl
  · intro i hi
    rw [hidx i hi]
    exact b2 _ (hmem i hi)
  · intro i hi
    rw [b1 _ (hmem i hi)]
    congr 1
    beta_reduce
    have hbi' := hb i hi
    generalize bin ((statAt stats i).score l1 l2) = o at hbi' ⊢
    cases o with
    | none => simp
    | some b =>
      have := hbi' b rfl
      simp only [Option.getD_some]
      rw [if_neg (by omega)]
  · rw [← hq]
    refine sum_congr rfl (fun b hb' => ?_)
    rw [hval b (mem_range.1 hb')]
  · intro hl1 hH
    subst hl1
    have hopt : ∀ q : Nat → Rat, q maxBins = 0 → totalObjective stats 0 l2 (fun i => val ((bin ((statAt stats i).score 0 l2)).getD maxBins)) ≤
        totalObjective stats 0 l2 (fun i => q ((bin ((statAt stats i).score 0 l2)).getD maxBins)) := by
      intro q hq0
      have e := sum_bins (fun i => bin ((statAt stats i).score 0 l2)) (n := stats.length) (numBins := numBins) (maxBins := maxBins)
        stats 0 l2 q hq0 hb
      unfold totalObjective at hq ⊢
      rw [← hq, ← e]
      refine sum_le_sum (fun b hb' => ?_)
      rw [hval b (mem_range.1 hb')]
      simp only [mul_zero]
      -- the sum of the Hessians and weights in the bin
      by_cases hex : ∃ i < stats.length, bin ((statAt stats i).score 0 l2) = some b
      · refine (score_minimises_partial _ _ _ ?_).1 _
        change 0 < _ + _
        have e2 : sumOver (fun i => bin ((statAt stats i).score 0 l2)) stats.length b (fun j => (statAt stats j).hessian) +
            countIn (fun i => bin ((statAt stats i).score 0 l2)) stats.length b * l2 =
            ∑ j ∈ range stats.length, if bin ((statAt stats j).score 0 l2) = some b then (statAt stats j).hessian + l2 else 0 := by
          unfold sumOver countIn
          push_cast
          rw [sum_mul, ← sum_add_distrib]
          refine sum_congr rfl (fun j _ => ?_)
          split <;> ring
        rw [e2]
        obtain ⟨i, hi, hbi⟩ := hex
        refine sum_pos' (fun j hj => ?_) ⟨i, mem_range.2 hi, ?_⟩
        · split
          · exact le_of_lt (hH j (mem_range.1 hj))
          · exact le_refl _
        · rw [if_pos hbi]
          exact hH i hi
      · have z : ∀ f, sumOver (fun i => bin ((statAt stats i).score 0 l2)) stats.length b f = 0 := by
          intro f
          unfold sumOver
          refine sum_eq_zero (fun j hj => ?_)
          rw [if_neg (fun h => hex ⟨j, mem_range.1 hj, h⟩)]
        have z2 : countIn (fun i => bin ((statAt stats i).score 0 l2)) stats.length b = 0 := by
          unfold countIn
          refine sum_eq_zero (fun j hj => ?_)
          rw [if_neg (fun h => hex ⟨j, mem_range.1 hj, h⟩)]
        rw [z, z, z2]
        unfold Stat.quality outputQuality objective Stat.score outputScore divideOrZero
        simp
    have hval' : (∑ b ∈ range numBins, Stat.quality ⟨sumOver (fun i => bin ((statAt stats i).score 0 l2)) stats.length b
          (fun j => (statAt stats j).gradient), sumOver (fun i => bin ((statAt stats i).score 0 l2)) stats.length b
          (fun j => (statAt stats j).hessian)⟩ (countIn (fun i => bin ((statAt stats i).score 0 l2)) stats.length b * 0)
          (countIn (fun i => bin ((statAt stats i).score 0 l2)) stats.length b * l2)
          (Stat.score ⟨sumOver (fun i => bin ((statAt stats i).score 0 l2)) stats.length b
          (fun j => (statAt stats j).gradient), sumOver (fun i => bin ((statAt stats i).score 0 l2)) stats.length b
          (fun j => (statAt stats j).hessian)⟩ (countIn (fun i => bin ((statAt stats i).score 0 l2)) stats.length b * 0)
          (countIn (fun i => bin ((statAt stats i).score 0 l2)) stats.length b * l2))) =
        totalObjective stats 0 l2 (fun i => val ((bin ((statAt stats i).score 0 l2)).getD maxBins)) := by
      rw [← hq]
      refine sum_congr rfl (fun b hb' => ?_)
      rw [hval b (mem_range.1 hb')]
    rw [hval']
    refine ⟨?_, hopt⟩
    have := hopt (fun _ => 0) rfl
    have e0 : totalObjective stats 0 l2 (fun _ => 0) = 0 := by
      unfold totalObjective objective
      simp
    rw [e0] at this
    exact this

/-- The order of the scores by decreasing absolute values. -/
private def byAbs (_ : Nat) (l : List (Nat × Rat)) : List (Nat × Rat) := l.insertionSort (fun a b => |b.2| ≤ |a.2|)

/-- Positive and negative scores, and an output without bin. -/
example : (completeBinned ⟨1 / 2, 1, 0⟩ 4 0 1 [⟨-2, 1⟩, ⟨0, 1⟩, ⟨-4, 1⟩, ⟨2, 1⟩, ⟨4, 1⟩, ⟨3, 1⟩]
    ⟨List.replicate 4 ⟨7, 7⟩, List.replicate 4 7, List.replicate 6 7, [7, 7, 7, 7, 0]⟩).map (fun r => (r.1.binIndices, r.1.binValues, r.2)) =
    .ok ([2, 4, 2, 1, 0, 1], [-2, -5 / 4, 3 / 2, 7, 0], -93 / 8) := by decide +kernel

/-- Negation of **C62** for partial heads: the statistics of the first outputs are aggregated instead of those that belong to the outputs
with the best scores. Here, a head for the outputs with indices 1 and 2 is obtained from the statistics of the outputs 0 and 1: it predicts
`5 / 2` for both, and the quality is neither the value of the objective for these outputs, nor is that value minimal among equal scores. -/
theorem fixedBinned_wrong :
    let stats : List (Stat Rat) := [⟨-1, 1⟩, ⟨-4, 1⟩, ⟨-2, 1⟩]
    ∃ a quality, fixedBinned ⟨1 / 2, 1, 0⟩ 2 byAbs 0 0 [0, 1, 2] 2 stats ⟨[⟨0, 0⟩, ⟨0, 0⟩], [0, 0], [0, 0], [0, 0, 0]⟩ =
        .ok ([1, 2], a, quality) ∧
      prediction a.binIndices a.binValues 0 = some (5 / 2) ∧ prediction a.binIndices a.binValues 1 = some (5 / 2) ∧
      quality = -25 / 4 ∧ totalObjective (stats.drop 1) 0 0 (fun _ => 5 / 2) = -35 / 4 ∧
      totalObjective (stats.drop 1) 0 0 (fun _ => 3) = -9 := by
  refine ⟨⟨[⟨-5, 2⟩, ⟨0, 0⟩], [2, 0], [0, 0], [5 / 2, 0, 0]⟩, -25 / 4, by decide +kernel, by decide +kernel, by decide +kernel, rfl,
    by decide +kernel, by decide +kernel⟩

/-- The same applies to heads that predict for a varying number of outputs. -/
theorem dynamicBinned_wrong :
    let stats : List (Stat Rat) := [⟨-1, 1⟩, ⟨-4, 1⟩, ⟨-2, 1⟩]
    ∃ a quality, dynamicBinned ⟨1 / 2, 1, 0⟩ 2 (fun x => x) (2 / 3) 0 0 [0, 1, 2] stats ⟨[⟨0, 0⟩, ⟨0, 0⟩], [0, 0], [0, 0], [0, 0, 0]⟩ =
        .ok ([1, 2], a, quality) ∧
      prediction a.binIndices a.binValues 0 = some (5 / 2) ∧ prediction a.binIndices a.binValues 1 = some (5 / 2) ∧
      quality = -25 / 4 := by
  refine ⟨⟨[⟨-5, 2⟩, ⟨0, 0⟩], [2, 0], [0, 0], [5 / 2, 0, 0]⟩, -25 / 4, by decide +kernel, by decide +kernel, by decide +kernel, rfl⟩

end MLRL.LabelBinning
