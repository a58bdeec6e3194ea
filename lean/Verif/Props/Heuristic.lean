import Verif.Spec.Heuristic
import Mathlib.Algebra.Order.Ring.Rat
import Mathlib.Algebra.Field.Rat
import Mathlib.Tactic.Linarith
import Mathlib.Tactic.Positivity
import Mathlib.Tactic.FieldSimp
import Mathlib.Tactic.Ring
import Mathlib.Tactic.NormNum

/-!
# C46, C64: heuristics
-/

namespace MLRL.Seco

open RuleEval

variable {K : Type} [Field K] [LinearOrder K] [IsStrictOrderedRing K]

/-! ### Fractions -/

theorem divideOrZero_unit {a b : K} (ha : 0 ≤ a) (hab : a ≤ b) : 0 ≤ divideOrZero a b ∧ divideOrZero a b ≤ 1 := by
  unfold divideOrZero
  split
  · exact ⟨le_refl _, zero_le_one⟩
  · exact ⟨div_nonneg ha (ha.trans hab), div_le_one_of_le₀ hab (ha.trans hab)⟩

/-- A fraction of correct among all elements does not decrease if correct elements are added or incorrect ones are removed. -/
theorem divideOrZero_mono {a b a' b' : K} (ha : 0 ≤ a) (hb : 0 ≤ b) (hb' : 0 ≤ b') (haa : a ≤ a') (hbb : b' ≤ b) :
    divideOrZero a (a + b) ≤ divideOrZero a' (a' + b') := by
  have ha' : 0 ≤ a' := ha.trans haa
  unfold divideOrZero
  split
  · split
    · exact le_refl _
    · exact div_nonneg ha' (by linarith)
  · next h =>
    have hpos : 0 < a + b := lt_of_le_of_ne (by linarith) (Ne.symm h)
    split
    · next h' =>
      have : a = 0 := by linarith
      rw [this, zero_div]
    · next h' =>
      have hpos' : 0 < a' + b' := lt_of_le_of_ne (by linarith) (Ne.symm h')
      rw [div_le_div_iff₀ hpos hpos']
      nlinarith [mul_le_mul haa hbb hb' ha']

/-- WRA in terms of the correct and incorrect elements that are covered (`a`, `b`) or not covered (`c`, `d`). -/
def wraValue (a b c d : K) : K := if a + b > 0 then (a * d - b * c) / (a + b + (c + d)) ^ 2 else 0

theorem wraValue_correct {a b c d x : K} (ha : 0 ≤ a) (hb : 0 ≤ b) (hd : 0 ≤ d) (hx : 0 ≤ x) (hc : 0 ≤ c - x) :
    wraValue a b c d ≤ wraValue (a + x) b (c - x) d := by
  unfold wraValue
  by_cases h : a + b > 0
  · rw [if_pos h, if_pos (by linarith), show a + x + b + (c - x + d) = a + b + (c + d) by ring]
    refine div_le_div_of_nonneg_right ?_ (sq_nonneg _)
    nlinarith [mul_nonneg hx hd, mul_nonneg hx hb]
  · rw [if_neg h]
    split
    · refine div_nonneg ?_ (sq_nonneg _)
      have : b = 0 := by linarith
      rw [this, zero_mul, sub_zero]
      exact mul_nonneg (by linarith) hd
    · exact le_refl _

theorem wraValue_incorrect {a b c d x : K} (ha : 0 ≤ a) (hb : 0 ≤ b) (hc : 0 ≤ c) (hx : 0 ≤ x) :
    wraValue a (b + x) c (d - x) ≤ wraValue a b c d := by
  unfold wraValue
  by_cases h : a + b > 0
  · rw [if_pos h, if_pos (by linarith), show a + (b + x) + (c + (d - x)) = a + b + (c + d) by ring]
    refine div_le_div_of_nonneg_right ?_ (sq_nonneg _)
    nlinarith [mul_nonneg hx ha, mul_nonneg hx hc]
  · rw [if_neg h]
    split
    · refine div_nonpos_of_nonpos_of_nonneg ?_ (sq_nonneg _)
      have : a = 0 := by linarith
      rw [this, zero_mul, zero_sub, neg_nonpos]
      exact mul_nonneg (by linarith) hc
    · exact le_refl _

/-- The m-estimate in terms of the same numbers. -/
def mEstimateValue (m a b c d : K) : K := if a + b + (c + d) > 0 then (a + m * ((a + c) / (a + b + (c + d)))) / (a + b + m) else 0

theorem mEstimateValue_correct {m a b c d x : K} (hm : 0 < m) (ha : 0 ≤ a) (hb : 0 ≤ b) (hc : 0 ≤ c) (hd : 0 ≤ d) (hx : 0 ≤ x) :
    mEstimateValue m a b c d ≤ mEstimateValue m (a + x) b (c - x) d := by
  unfold mEstimateValue
  rw [show a + x + b + (c - x + d) = a + b + (c + d) by ring, show a + x + (c - x) = a + c by ring]
  split
  · next ht =>
    have hf' : (a + c) / (a + b + (c + d)) ≤ 1 := (div_le_one ht).2 (by linarith)
    generalize (a + c) / (a + b + (c + d)) = f at *
    rw [div_le_div_iff₀ (by linarith) (by linarith)]
    nlinarith [mul_nonneg hx hb, mul_nonneg (mul_nonneg hx hm.le) (sub_nonneg.2 hf')]
  · exact le_refl _

theorem mEstimateValue_incorrect {m a b c d x : K} (hm : 0 < m) (ha : 0 ≤ a) (hb : 0 ≤ b) (hc : 0 ≤ c) (hx : 0 ≤ x) :
    mEstimateValue m a (b + x) c (d - x) ≤ mEstimateValue m a b c d := by
  unfold mEstimateValue
  rw [show a + (b + x) + (c + (d - x)) = a + b + (c + d) by ring]
  split
  · next ht =>
    have hf : 0 ≤ (a + c) / (a + b + (c + d)) := div_nonneg (by linarith) ht.le
    generalize (a + c) / (a + b + (c + d)) = f at *
    have := mul_nonneg hm.le hf
    exact div_le_div_of_nonneg_left (by linarith) (by linarith) (by linarith)
  · exact le_refl _

theorem mEstimate_eq {m : K} (hm : m > 0) (e : Elements K) :
    mEstimate (some m) e = mEstimateValue m (e.cin + e.crp) (e.cip + e.crn) (e.uin + e.urp) (e.uip + e.urn) := by
  simp only [mEstimate]
  rw [if_pos hm]
  unfold mEstimateValue
  rw [show e.cin + e.crp + (e.cip + e.crn) + (e.uin + e.urp + (e.uip + e.urn)) =
      e.cin + e.crp + e.cip + e.crn + (e.uin + e.urp) + e.uip + e.urn by ring,
    show e.cin + e.crp + (e.cip + e.crn) = e.cin + e.crp + e.cip + e.crn by ring]

theorem wra_eq (e : Elements K) (h : e.Nonneg) : wra e = wraValue (e.cin + e.crp) (e.cip + e.crn) (e.uin + e.urp) (e.uip + e.urn) := by
  obtain ⟨h1, h2, h3, h4, h5, h6, h7, h8⟩ := h
  unfold wra wraValue
  rw [← add_assoc, ← add_assoc (e.uin + e.urp)]
  simp only
  by_cases hc : e.cin + e.crp + e.cip + e.crn > 0
  · have ht : e.cin + e.crp + e.cip + e.crn + (e.uin + e.urp + e.uip + e.urn) > 0 := by linarith
    rw [if_pos ⟨hc, ht⟩, if_pos hc]
    have hc' := ne_of_gt hc
    have ht' := ne_of_gt ht
    field_simp
    ring
  · rw [if_neg (fun h => hc h.1), if_neg hc]

theorem fMeasure_eq {beta : K} (hb : beta > 0) (e : Elements K) : fMeasure (some beta) e =
    divideOrZero ((1 + beta * beta) * (e.cin + e.crp))
      ((1 + beta * beta) * (e.cin + e.crp) + (beta * beta * (e.uin + e.urp) + (e.cip + e.crn))) := by
  simp only [fMeasure]
  rw [if_pos hb, add_assoc]

theorem precision_eq (e : Elements K) : precision e.cin e.cip e.crn e.crp = divideOrZero (e.cin + e.crp) (e.cin + e.crp + (e.cip + e.crn)) := by
  simp only [precision]
  rw [add_assoc]

theorem recall_eq (e : Elements K) : recall e.cin e.crp e.uin e.urp = divideOrZero (e.cin + e.crp) (e.cin + e.crp + (e.uin + e.urp)) := by
  simp only [recall]
  rw [add_assoc]

/-! ### C46 -/

/-- Part of **C46**: all heuristics, except for WRA (and the m-estimate with an infinite parameter, which is the same), return a value in
[0, 1]. -/
theorem heuristic_unit_partial (h : Heuristic K) (hacc : h.Accepted) (hw : h ≠ .wra ∧ h ≠ .mEstimate none) (e : Elements K) (he : e.Nonneg) :
    0 ≤ h.evaluate e ∧ h.evaluate e ≤ 1 := by
  obtain ⟨h1, h2, h3, h4, h5, h6, h7, h8⟩ := he
  have hp : 0 ≤ precision e.cin e.cip e.crn e.crp ∧ precision e.cin e.cip e.crn e.crp ≤ 1 := divideOrZero_unit (by linarith) (by linarith)
  have hr : 0 ≤ recall e.cin e.crp e.uin e.urp ∧ recall e.cin e.crp e.uin e.urp ≤ 1 := divideOrZero_unit (by linarith) (by linarith)
  cases h with
  | accuracy => exact divideOrZero_unit (by linarith) (by linarith)
  | precision => exact hp
  | recall => exact hr
  | laplace =>
    show 0 ≤ laplace e ∧ laplace e ≤ 1
    simp only [laplace]
    have hd : (0 : K) < e.cin + e.crp + e.cip + e.crn + 2 := by linarith
    exact ⟨div_nonneg (by linarith) hd.le, (div_le_one hd).2 (by linarith)⟩
  | wra => exact absurd rfl hw.1
  | fMeasure beta =>
    cases beta with
    | none => exact hr
    | some beta =>
      show 0 ≤ fMeasure (some beta) e ∧ fMeasure (some beta) e ≤ 1
      by_cases hb : beta > 0
      · rw [fMeasure_eq hb]
        have hb2 : 0 ≤ beta * beta := by positivity
        have ha : 0 ≤ (1 + beta * beta) * (e.cin + e.crp) := mul_nonneg (by linarith) (by linarith)
        have hc : 0 ≤ beta * beta * (e.uin + e.urp) := mul_nonneg hb2 (by linarith)
        exact divideOrZero_unit ha (by linarith)
      · simp only [fMeasure]
        rw [if_neg hb]
        exact hp
  | mEstimate m =>
    cases m with
    | none => exact absurd rfl hw.2
    | some m =>
      show 0 ≤ mEstimate (some m) e ∧ mEstimate (some m) e ≤ 1
      simp only [mEstimate]
      by_cases hm : m > 0
      · rw [if_pos hm]
        split
        · next ht =>
          have hf : 0 ≤ (e.cin + e.crp + (e.uin + e.urp)) / (e.cin + e.crp + e.cip + e.crn + (e.uin + e.urp) + e.uip + e.urn) :=
            div_nonneg (by linarith) ht.le
          have hf' : (e.cin + e.crp + (e.uin + e.urp)) / (e.cin + e.crp + e.cip + e.crn + (e.uin + e.urp) + e.uip + e.urn) ≤ 1 :=
            (div_le_one ht).2 (by linarith)
          have hd : 0 < e.cin + e.crp + e.cip + e.crn + m := by linarith
          have := mul_nonneg hm.le hf
          refine ⟨div_nonneg (by linarith) hd.le, (div_le_one hd).2 ?_⟩
          have : m * ((e.cin + e.crp + (e.uin + e.urp)) / (e.cin + e.crp + e.cip + e.crn + (e.uin + e.urp) + e.uip + e.urn)) ≤ m * 1 :=
            mul_le_mul_of_nonneg_left hf' hm.le
          linarith
        · exact ⟨le_refl _, zero_le_one⟩
      · rw [if_neg hm]
        exact hp

/-- The range of WRA is [-1/4, 1/4]. -/
theorem wra_range (e : Elements K) (he : e.Nonneg) : -(1 / 4) ≤ wra e ∧ wra e ≤ 1 / 4 := by
  rw [wra_eq e he]
  obtain ⟨h1, h2, h3, h4, h5, h6, h7, h8⟩ := he
  have ha : 0 ≤ e.cin + e.crp := by linarith
  have hb : 0 ≤ e.cip + e.crn := by linarith
  have hcc : 0 ≤ e.uin + e.urp := by linarith
  have hd : 0 ≤ e.uip + e.urn := by linarith
  generalize e.cin + e.crp = a at *
  generalize e.uin + e.urp = c at *
  generalize e.cip + e.crn = b at *
  generalize e.uip + e.urn = d at *
  unfold wraValue
  split
  · next hc =>
    have ht : 0 < a + b + (c + d) := by linarith
    have ht2 := pow_pos ht 2
    rw [le_div_iff₀ ht2, div_le_iff₀ ht2]
    constructor
    · nlinarith [mul_nonneg ha hd, mul_nonneg hb hcc, sq_nonneg (b - c), mul_nonneg ha hb, mul_nonneg ha hcc, mul_nonneg hd hb, mul_nonneg hd hcc,
        sq_nonneg a, sq_nonneg d]
    · nlinarith [mul_nonneg ha hd, mul_nonneg hb hcc, sq_nonneg (a - d), mul_nonneg ha hb, mul_nonneg ha hcc, mul_nonneg hd hb, mul_nonneg hd hcc,
        sq_nonneg b, sq_nonneg c]
  · constructor <;> norm_num

/-- Part of **C46**: precision, recall, F-measure and WRA return 0 if nothing is covered. -/
theorem heuristic_nothing_covered_partial (h : Heuristic K)
    (hh : h = .precision ∨ h = .recall ∨ h = .wra ∨ (∃ beta, h = .fMeasure beta) ∨ h = .mEstimate none ∨ h = .mEstimate (some 0))
    (e : Elements K) (he : e.Nonneg) (hn : e.NothingCovered) : h.evaluate e = 0 := by
  have he' := he
  obtain ⟨h1, h2, h3, h4, h5, h6, h7, h8⟩ := he
  unfold Elements.NothingCovered at hn
  have z1 : e.cin = 0 := by linarith
  have z2 : e.cip = 0 := by linarith
  have z3 : e.crn = 0 := by linarith
  have z4 : e.crp = 0 := by linarith
  have hp : precision e.cin e.cip e.crn e.crp = 0 := by simp [precision, divideOrZero, z1, z2, z3, z4]
  have hr : recall e.cin e.crp e.uin e.urp = 0 := by simp [recall, divideOrZero, z1, z4]
  have hw : wra e = 0 := by
    rw [wra_eq e he', wraValue, if_neg (by rw [z1, z2, z3, z4]; simp)]
  rcases hh with rfl | rfl | rfl | ⟨beta, rfl⟩ | rfl | rfl
  · exact hp
  · exact hr
  · exact hw
  · cases beta with
    | none => exact hr
    | some beta =>
      show fMeasure (some beta) e = 0
      by_cases hb : beta > 0
      · rw [fMeasure_eq hb, z1, z4]
        simp [divideOrZero]
      · simp only [fMeasure]
        rw [if_neg hb, hp]
  · exact hw
  · show mEstimate (some 0) e = 0
    simp only [mEstimate]
    rw [if_neg (lt_irrefl _), hp]

/-- Part of **C46**: all heuristics, except for accuracy, treat positive and negative labels equally. -/
theorem heuristic_invert_partial (h : Heuristic K) (hh : h ≠ .accuracy) (e : Elements K) : h.evaluate e.invert = h.evaluate e := by
  have i1 : e.invert.cin + e.invert.crp = e.cin + e.crp := add_comm _ _
  have i2 : e.invert.uin + e.invert.urp = e.uin + e.urp := add_comm _ _
  have i3 : ∀ x, x + e.invert.cip + e.invert.crn = x + e.cip + e.crn := fun x => add_right_comm _ _ _
  have i4 : ∀ x, x + e.invert.uip + e.invert.urn = x + e.uip + e.urn := fun x => add_right_comm _ _ _
  have hp : precision e.invert.cin e.invert.cip e.invert.crn e.invert.crp = precision e.cin e.cip e.crn e.crp := by
    simp only [precision, Elements.invert]
    rw [add_comm e.crp e.cin, add_right_comm]
  have hr : recall e.invert.cin e.invert.crp e.invert.uin e.invert.urp = recall e.cin e.crp e.uin e.urp := by
    simp only [recall, Elements.invert]
    rw [add_comm e.crp e.cin, add_right_comm]
  have hw : wra e.invert = wra e := by
    unfold wra
    dsimp only
    rw [i1, i2, i3, i4]
  cases h with
  | accuracy => exact absurd rfl hh
  | precision => exact hp
  | recall => exact hr
  | laplace =>
    show laplace e.invert = laplace e
    simp only [laplace, Elements.invert]
    rw [add_comm e.crp e.cin, add_right_comm _ e.crn]
  | wra => exact hw
  | fMeasure beta =>
    cases beta with
    | none => exact hr
    | some beta =>
      show fMeasure (some beta) e.invert = fMeasure (some beta) e
      by_cases hb : beta > 0
      · rw [fMeasure_eq hb, fMeasure_eq hb]
        simp only [Elements.invert]
        rw [add_comm e.crp e.cin, add_comm e.urp e.uin, add_comm e.crn e.cip]
      · simp only [fMeasure]
        rw [if_neg hb, if_neg hb, hp]
  | mEstimate m =>
    cases m with
    | none => exact hw
    | some m =>
      show mEstimate (some m) e.invert = mEstimate (some m) e
      by_cases hb : m > 0
      · simp only [mEstimate]
        rw [if_pos hb, if_pos hb, i1, i2, i3, i4]
      · simp only [mEstimate]
        rw [if_neg hb, if_neg hb, hp]

/-- Negation of **C46**: WRA (and the m-estimate with an infinite parameter) may be negative. -/
theorem wra_negative : ∃ e : Elements ℚ, e.Nonneg ∧ (Heuristic.wra : Heuristic ℚ).evaluate e < 0 ∧
    (Heuristic.mEstimate none).evaluate e < 0 := by
  refine ⟨{ cin := 0, cip := 1, crn := 0, crp := 0, uin := 0, uip := 0, urn := 0, urp := 1 }, ⟨by decide, by decide, by decide, by decide, by decide,
    by decide, by decide, by decide⟩, ?_, ?_⟩
  · show wra (_ : Elements ℚ) < 0
    norm_num [wra]
  · show wra (_ : Elements ℚ) < 0
    norm_num [wra]

/-- Negation of **C46**: accuracy, Laplace and the m-estimate do not return 0 if nothing is covered. For accuracy, `numUncoveredCorrect` even
includes elements that are covered neither correctly nor incorrectly. -/
theorem nothing_covered_nonzero : ∃ e : Elements ℚ, e.Nonneg ∧ e.NothingCovered ∧ Heuristic.accuracy.evaluate e = 1 / 2 ∧
    Heuristic.laplace.evaluate e = 1 / 2 ∧ (Heuristic.mEstimate (some (22466 / 1000))).evaluate e = 1 / 2 := by
  refine ⟨{ cin := 0, cip := 0, crn := 0, crp := 0, uin := 0, uip := 1, urn := 0, urp := 1 }, ⟨by decide, by decide, by decide, by decide, by decide,
    by decide, by decide, by decide⟩, by simp [Elements.NothingCovered], ?_, ?_, ?_⟩
  · show accuracy (_ : Elements ℚ) = _
    norm_num [accuracy, divideOrZero]
  · show laplace (_ : Elements ℚ) = _
    norm_num [laplace]
  · show mEstimate (some (22466 / 1000)) (_ : Elements ℚ) = _
    norm_num [mEstimate]

/-- Negation of **C46**: accuracy does not treat positive and negative labels equally. -/
theorem accuracy_not_symmetric : ∃ e : Elements ℚ, e.Nonneg ∧ Heuristic.accuracy.evaluate e.invert ≠ Heuristic.accuracy.evaluate e := by
  refine ⟨{ cin := 0, cip := 0, crn := 0, crp := 1, uin := 0, uip := 1, urn := 0, urp := 0 }, ⟨by decide, by decide, by decide, by decide, by decide,
    by decide, by decide, by decide⟩, ?_⟩
  show accuracy (Elements.invert _ : Elements ℚ) ≠ accuracy _
  norm_num [accuracy, divideOrZero, Elements.invert]

/-! ### C64 -/

/-- **C64**, first part: covering further labels for which the prediction is correct does not decrease any of the heuristics. -/
theorem heuristic_coverCorrect (h : Heuristic K) (hacc : h.Accepted) (e : Elements K) (he : e.Nonneg) {i r : K} (hi : 0 ≤ i) (hr : 0 ≤ r)
    (hi' : i ≤ e.uin) (hr' : r ≤ e.urp) : h.evaluate e ≤ h.evaluate (e.coverCorrect i r) := by
  have he2 : (e.coverCorrect i r).Nonneg := by
    obtain ⟨h1, h2, h3, h4, h5, h6, h7, h8⟩ := he
    refine ⟨?_, ?_, ?_, ?_, ?_, ?_, ?_, ?_⟩ <;> simp only [Elements.coverCorrect] <;> linarith
  have he' := he
  obtain ⟨h1, h2, h3, h4, h5, h6, h7, h8⟩ := he
  have hp : precision e.cin e.cip e.crn e.crp ≤ precision (e.coverCorrect i r).cin (e.coverCorrect i r).cip (e.coverCorrect i r).crn
      (e.coverCorrect i r).crp := by
    rw [precision_eq, precision_eq]
    simp only [Elements.coverCorrect]
    exact divideOrZero_mono (by linarith) (by linarith) (by linarith) (by linarith) (by linarith)
  have hrec : recall e.cin e.crp e.uin e.urp ≤ recall (e.coverCorrect i r).cin (e.coverCorrect i r).crp (e.coverCorrect i r).uin
      (e.coverCorrect i r).urp := by
    rw [recall_eq, recall_eq]
    simp only [Elements.coverCorrect]
    exact divideOrZero_mono (by linarith) (by linarith) (by linarith) (by linarith) (by linarith)
  have hw : wra e ≤ wra (e.coverCorrect i r) := by
    rw [wra_eq e he', wra_eq _ he2]
    have := wraValue_correct (a := e.cin + e.crp) (b := e.cip + e.crn) (c := e.uin + e.urp) (d := e.uip + e.urn) (x := i + r) (by linarith)
      (by linarith) (by linarith) (by linarith) (by linarith)
    rw [show e.cin + e.crp + (i + r) = e.cin + i + (e.crp + r) by ring, show e.uin + e.urp - (i + r) = e.uin - i + (e.urp - r) by ring] at this
    exact this
  cases h with
  | accuracy =>
    show accuracy e ≤ accuracy _
    simp only [accuracy, Elements.coverCorrect]
    rw [show e.cin + e.crp + (e.uin + e.uip) + e.cip + e.crn + e.urn + e.urp =
        e.cin + e.crp + (e.uin + e.uip) + (e.cip + e.crn + e.urn + e.urp) by ring,
      show e.cin + i + (e.crp + r) + (e.uin - i + e.uip) + e.cip + e.crn + e.urn + (e.urp - r) =
        e.cin + i + (e.crp + r) + (e.uin - i + e.uip) + (e.cip + e.crn + e.urn + (e.urp - r)) by ring]
    exact divideOrZero_mono (by linarith) (by linarith) (by linarith) (by linarith) (by linarith)
  | precision => exact hp
  | recall => exact hrec
  | laplace =>
    show laplace e ≤ laplace _
    simp only [laplace, Elements.coverCorrect]
    rw [div_le_div_iff₀ (by linarith) (by linarith)]
    nlinarith [mul_nonneg (add_nonneg hi hr) (add_nonneg h2 h3)]
  | wra => exact hw
  | fMeasure beta =>
    cases beta with
    | none => exact hrec
    | some beta =>
      show fMeasure (some beta) e ≤ fMeasure (some beta) _
      by_cases hb : beta > 0
      · rw [fMeasure_eq hb, fMeasure_eq hb]
        simp only [Elements.coverCorrect]
        have hb2 : 0 ≤ beta * beta := by positivity
        have hb3 : 0 ≤ 1 + beta * beta := by linarith
        refine divideOrZero_mono (mul_nonneg hb3 (by linarith)) (add_nonneg (mul_nonneg hb2 (by linarith)) (by linarith))
          (add_nonneg (mul_nonneg hb2 (by linarith)) (by linarith)) (mul_le_mul_of_nonneg_left (by linarith) hb3) ?_
        have := mul_le_mul_of_nonneg_left (show e.uin - i + (e.urp - r) ≤ e.uin + e.urp by linarith) hb2
        linarith
      · simp only [fMeasure]
        rw [if_neg hb, if_neg hb]
        exact hp
  | mEstimate m =>
    cases m with
    | none => exact hw
    | some m =>
      show mEstimate (some m) e ≤ mEstimate (some m) _
      by_cases hb : m > 0
      · rw [mEstimate_eq hb, mEstimate_eq hb]
        have := mEstimateValue_correct hb (a := e.cin + e.crp) (b := e.cip + e.crn) (c := e.uin + e.urp) (d := e.uip + e.urn) (x := i + r)
          (by linarith) (by linarith) (by linarith) (by linarith) (by linarith)
        rw [show e.cin + e.crp + (i + r) = e.cin + i + (e.crp + r) by ring, show e.uin + e.urp - (i + r) = e.uin - i + (e.urp - r) by ring] at this
        exact this
      · simp only [mEstimate]
        rw [if_neg hb, if_neg hb]
        exact hp

/-- **C64**, second part: covering further labels for which the prediction is incorrect does not increase any of the heuristics. -/
theorem heuristic_coverIncorrect (h : Heuristic K) (hacc : h.Accepted) (e : Elements K) (he : e.Nonneg) {i r : K} (hi : 0 ≤ i) (hr : 0 ≤ r)
    (hi' : i ≤ e.uip) (hr' : r ≤ e.urn) : h.evaluate (e.coverIncorrect i r) ≤ h.evaluate e := by
  have he2 : (e.coverIncorrect i r).Nonneg := by
    obtain ⟨h1, h2, h3, h4, h5, h6, h7, h8⟩ := he
    refine ⟨?_, ?_, ?_, ?_, ?_, ?_, ?_, ?_⟩ <;> simp only [Elements.coverIncorrect] <;> linarith
  have he' := he
  obtain ⟨h1, h2, h3, h4, h5, h6, h7, h8⟩ := he
  have hp : precision (e.coverIncorrect i r).cin (e.coverIncorrect i r).cip (e.coverIncorrect i r).crn (e.coverIncorrect i r).crp ≤
      precision e.cin e.cip e.crn e.crp := by
    rw [precision_eq, precision_eq]
    simp only [Elements.coverIncorrect]
    exact divideOrZero_mono (by linarith) (by linarith) (by linarith) (by linarith) (by linarith)
  have hrec : recall (e.coverIncorrect i r).cin (e.coverIncorrect i r).crp (e.coverIncorrect i r).uin (e.coverIncorrect i r).urp ≤
      recall e.cin e.crp e.uin e.urp := le_refl _
  have hw : wra (e.coverIncorrect i r) ≤ wra e := by
    rw [wra_eq e he', wra_eq _ he2]
    have := wraValue_incorrect (a := e.cin + e.crp) (b := e.cip + e.crn) (c := e.uin + e.urp) (d := e.uip + e.urn) (x := i + r) (by linarith)
      (by linarith) (by linarith) (by linarith)
    rw [show e.cip + e.crn + (i + r) = e.cip + i + (e.crn + r) by ring, show e.uip + e.urn - (i + r) = e.uip - i + (e.urn - r) by ring] at this
    exact this
  cases h with
  | accuracy =>
    show accuracy _ ≤ accuracy e
    simp only [accuracy, Elements.coverIncorrect]
    rw [show e.cin + e.crp + (e.uin + e.uip) + e.cip + e.crn + e.urn + e.urp =
        e.cin + e.crp + (e.uin + e.uip) + (e.cip + e.crn + e.urn + e.urp) by ring,
      show e.cin + e.crp + (e.uin + (e.uip - i)) + (e.cip + i) + (e.crn + r) + (e.urn - r) + e.urp =
        e.cin + e.crp + (e.uin + (e.uip - i)) + (e.cip + i + (e.crn + r) + (e.urn - r) + e.urp) by ring]
    exact divideOrZero_mono (by linarith) (by linarith) (by linarith) (by linarith) (by linarith)
  | precision => exact hp
  | recall => exact hrec
  | laplace =>
    show laplace _ ≤ laplace e
    simp only [laplace, Elements.coverIncorrect]
    rw [div_le_div_iff₀ (by linarith) (by linarith)]
    nlinarith [mul_nonneg (add_nonneg hi hr) (add_nonneg h1 h4)]
  | wra => exact hw
  | fMeasure beta =>
    cases beta with
    | none => exact hrec
    | some beta =>
      show fMeasure (some beta) _ ≤ fMeasure (some beta) e
      by_cases hb : beta > 0
      · rw [fMeasure_eq hb, fMeasure_eq hb]
        simp only [Elements.coverIncorrect]
        have hb2 : 0 ≤ beta * beta := by positivity
        have hb3 : 0 ≤ 1 + beta * beta := by linarith
        refine divideOrZero_mono (mul_nonneg hb3 (by linarith)) (add_nonneg (mul_nonneg hb2 (by linarith)) (by linarith))
          (add_nonneg (mul_nonneg hb2 (by linarith)) (by linarith)) (le_refl _) (by linarith)
      · simp only [fMeasure]
        rw [if_neg hb, if_neg hb]
        exact hp
  | mEstimate m =>
    cases m with
    | none => exact hw
    | some m =>
      show mEstimate (some m) _ ≤ mEstimate (some m) e
      by_cases hb : m > 0
      · rw [mEstimate_eq hb, mEstimate_eq hb]
        have := mEstimateValue_incorrect hb (a := e.cin + e.crp) (b := e.cip + e.crn) (c := e.uin + e.urp) (d := e.uip + e.urn) (x := i + r)
          (by linarith) (by linarith) (by linarith) (by linarith)
        rw [show e.cip + e.crn + (i + r) = e.cip + i + (e.crn + r) by ring, show e.uip + e.urn - (i + r) = e.uip - i + (e.urn - r) by ring] at this
        exact this
      · simp only [mEstimate]
        rw [if_neg hb, if_neg hb]
        exact hp

/-! ### Examples -/

/-- A confusion matrix for which all heuristics, with the default parameters, provide different values. -/
def exampleElements : Elements ℚ := { cin := 1, cip := 1, crn := 0, crp := 3, uin := 2, uip := 4, urn := 1, urp := 1 }

example : exampleElements.Nonneg ∧ ¬exampleElements.NothingCovered ∧ (Heuristic.fMeasure (some (1 / 4 : ℚ))).Accepted ∧
    (Heuristic.mEstimate (some (2 : ℚ))).Accepted :=
  ⟨⟨by decide, by decide, by decide, by decide, by decide, by decide, by decide, by decide⟩, by norm_num [Elements.NothingCovered, exampleElements],
    by norm_num [Heuristic.Accepted], by norm_num [Heuristic.Accepted]⟩

example : [Heuristic.accuracy, .precision, .recall, .laplace, .wra, .fMeasure (some (1 / 4)), .fMeasure (some 0), .mEstimate (some 2)].map
      (fun h => h.evaluate exampleElements) = [10 / 13, 4 / 5, 4 / 7, 5 / 7, 17 / 169, 68 / 87, 4 / 5, 66 / 91] := by
  decide +kernel

/-- Covering another relevant label correctly, and covering two labels incorrectly. -/
example : Heuristic.precision.evaluate exampleElements < Heuristic.precision.evaluate (exampleElements.coverCorrect 0 1) ∧
    Heuristic.wra.evaluate (exampleElements.coverIncorrect 1 1) < Heuristic.wra.evaluate exampleElements := by
  constructor <;> decide +kernel

end MLRL.Seco
