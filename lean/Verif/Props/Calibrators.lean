import Verif.Model.Calibrators
import Verif.Props.ProbabilityPrediction

/-!
# C92: probabilities after fitting calibration models
-/

namespace MLRL.Probability

open Predictor LabelVectors Isotonic

variable {K : Type}

/-- The labels of example `e` are given by a matrix with `n` columns: `rel` are the indices of relevant labels in increasing order. -/
def Labels.Describes (labels : Labels) (n e : Nat) (rel : List Nat) : Prop :=
  rel.Pairwise (· < ·) ∧
  match labels with
  | .dense rows => rows[e]? = some (Loss.row n (fun j => decide (j ∈ rel)))
  | .csr rows => rows[e]? = some rel

/-- The examples that are used for calibration: there is at least one, and its labels and scores are available. -/
structure Calibration [Zero K] (examples : List Nat) (n : Nat) (labels : Labels) (scores : List (List K)) (rel : Nat → List Nat) (sc : Nat → Nat → K) :
    Prop where
  ne : examples ≠ []
  labels : ∀ e ∈ examples, labels.Describes n e (rel e)
  scores : ∀ e ∈ examples, scores[e]? = some (Loss.row n (sc e))

/-! ### Helper lemmas -/

theorem replicate_nil_row (n : Nat) : (List.replicate n ([] : List (K × K))) = Loss.row n (fun _ => []) := by
  simp [Loss.row]

theorem relevant_some {labels : Labels} {n e : Nat} {rel : List Nat} (h : labels.Describes n e rel) : ∃ r, labels.relevant[e]? = some r := by
  cases labels with
  | dense rows =>
    have h2 : rows[e]? = _ := h.2
    simp only [Labels.relevant, List.getElem?_map, h2, Option.map_some]
    exact ⟨_, rfl⟩
  | csr rows => exact ⟨_, h.2⟩

/-- The relevant labels of an example, if the indices of all of them are valid. -/
theorem relevant_eq {labels : Labels} {n e : Nat} {rel : List Nat} (h : labels.Describes n e rel) (hlt : ∀ j ∈ rel, j < n) :
    labels.relevant[e]? = some rel := by
  cases labels with
  | dense rows =>
    have h2 : rows[e]? = _ := h.2
    simp only [Labels.relevant, List.getElem?_map, h2, Option.map_some, Option.some.injEq]
    refine List.Pairwise.eq_of_mem_iff (r := (· < ·)) (List.pairwise_lt_range.filter _) h.1 (fun j => ?_)
    rw [List.mem_filter, List.mem_range, decide_eq_true_eq]
    constructor
    · rintro ⟨hj, hr⟩
      have hj' : j < n := by simpa [Loss.row] using hj
      rw [LossUpdate.row_getElem? hj'] at hr
      simpa using hr
    · intro hj
      refine ⟨by simpa [Loss.row] using hlt j hj, ?_⟩
      rw [LossUpdate.row_getElem? (hlt j hj)]
      simpa using hj
  | csr rows => exact h.2

/-- Fitting lists of bins with probabilities of zero or one. -/
theorem fit_ok [Field K] [LinearOrder K] [IsStrictOrderedRing K] {sort : List (K × K) → List (K × K)} (hsort : SortByThreshold sort)
    {isEqual : K → K → Bool} (hrefl : ∀ x, isEqual x x = true) {examples : List Nat} (hne : examples ≠ []) {fuel : Nat}
    (hf : 2 * examples.length < fuel) {n : Nat} (p : Nat → Nat → K) (y : Nat → Nat → Prop) [∀ i e, Decidable (y i e)] :
    ∃ r, fit sort isEqual fuel (Loss.row n (fun i => examples.map (fun e => (p i e, if y i e then (1 : K) else 0)))) = Run.done r ∧ r.length = n ∧
      (∀ bins ∈ r, Fitted bins) ∧
      ∀ i bins, r[i]? = some bins → fitBins sort isEqual fuel (examples.map (fun e => (p i e, if y i e then (1 : K) else 0))) = Run.done bins ∧
        ∀ b ∈ bins, ∃ e ∈ examples, b.1 = p i e := by
  have hb : ∀ i, ∀ b ∈ examples.map (fun e => (p i e, if y i e then (1 : K) else 0)), 0 ≤ b.2 ∧ b.2 ≤ 1 := by
    intro i b hb
    obtain ⟨e, -, rfl⟩ := List.mem_map.1 hb
    by_cases h : y i e <;> simp [h]
  have hne' : ∀ i, examples.map (fun e => (p i e, if y i e then (1 : K) else 0)) ≠ [] := fun i => by simpa using hne
  obtain ⟨r, h1, h2, h3⟩ := fit_lists_partial hsort hrefl fuel (Loss.row n (fun i => examples.map (fun e => (p i e, if y i e then (1 : K) else 0))))
    (fun bins hbins => by
      obtain ⟨i, -, rfl⟩ := List.mem_map.1 hbins
      exact ⟨hne' i, hb i, by simpa using hf⟩)
  have hlen : r.length = n := by rw [h2]; simp [Loss.row]
  refine ⟨r, h1, hlen, fun bins hbins => ?_, fun i bins hi => ?_⟩
  · obtain ⟨i, hi⟩ := List.mem_iff_getElem?.1 hbins
    have : i < n := by rw [← hlen]; exact (List.getElem?_eq_some_iff.1 hi).1
    exact (h3 i _ _ (LossUpdate.row_getElem? this) hi).2
  · have : i < n := by rw [← hlen]; exact (List.getElem?_eq_some_iff.1 hi).1
    have h4 := (h3 i _ _ (LossUpdate.row_getElem? this) hi).1
    refine ⟨h4, fun b hbm => ?_⟩
    obtain ⟨r', g1, -, -, g4⟩ := fit_fitted_partial hsort hrefl (hne' i) (hb i) fuel (by simpa using hf)
    have : r' = bins := Run.done_inj (g1.symm.trans h4)
    subst this
    obtain ⟨q, hq, h5⟩ := List.mem_map.1 (g4 b hbm)
    obtain ⟨e, he, rfl⟩ := List.mem_map.1 hq
    exact ⟨e, he, h5.symm⟩

/-- The lowest threshold is preserved. -/
theorem fitBins_first [Field K] [LinearOrder K] [IsStrictOrderedRing K] {sort : List (K × K) → List (K × K)} (hsort : SortByThreshold sort)
    {bins : List (K × K)} (hne : bins ≠ []) {t : K} (ht : t ∈ bins.map Prod.fst) (hmin : ∀ b ∈ bins, t ≤ b.1) (hb : ∀ b ∈ bins, 0 ≤ b.2 ∧ b.2 ≤ 1)
    (fuel : Nat) (hf : 2 * bins.length < fuel) :
    ∃ v r, fitBins sort (fun x y => decide (x = y)) fuel bins = Run.done ((t, v) :: r) := by
  obtain ⟨m, h1, h2, h3, h4, h5, h6⟩ := eliminate_thresholds hsort (isEqual := fun x y => decide (x = y)) (by simp) hne hb
  obtain ⟨r', last, k1, -, -, -, k5⟩ := eliminate_means_partial hsort hne
  have hm : m = r' ++ [last] := Except.ok.inj (h1.symm.trans k1)
  obtain ⟨r, g1, g2, g3, g4, g5, g6, g7⟩ := aggregate_increasing h2 h4 h5 fuel (by omega)
  have hmt : t ∈ m.map Prod.fst := by
    rw [hm]
    exact (k5 t).2 ht
  have hhead : ∃ a m', m = a :: m' ∧ a.1 = t := by
    cases m with
    | nil => exact absurd rfl h2
    | cons a m' =>
      refine ⟨a, m', rfl, ?_⟩
      obtain ⟨b, hb1, hb2⟩ := List.mem_map.1 (h6 a (List.mem_cons_self ..))
      refine le_antisymm ?_ (by rw [← hb2]; exact hmin b hb1)
      obtain ⟨c, hc1, hc2⟩ := List.mem_map.1 hmt
      rcases List.mem_cons.1 hc1 with rfl | hc1
      · exact hc2.le
      · rw [← hc2]
        exact ((List.pairwise_cons.1 h4).1 c hc1).le
  obtain ⟨a, m', hm', ha⟩ := hhead
  rw [hm', List.head?_cons, Option.map_some] at g7
  cases r with
  | nil => exact absurd rfl g2
  | cons c r =>
    rw [List.head?_cons, Option.map_some, Option.some.injEq] at g7
    refine ⟨c.2, r, ?_⟩
    unfold fitBins
    rw [h1, Run.lift_ok, Run.done_bind, g1]
    congr 2
    rw [← ha, ← g7]

/-! ### Fitting -/

/-- **C92 (marginal probabilities).** Fitting a model to at least one example succeeds. There is a list of bins for each label and thresholds are the probabilities of
examples. Each list of bins is fitted to the probabilities of all examples and their ground truth. -/
theorem fitMarginal_ok {sort : List (ℝ × ℝ) → List (ℝ × ℝ)} (hsort : SortByThreshold sort) {isEqual : ℝ → ℝ → Bool} (hrefl : ∀ x, isEqual x x = true)
    {examples : List Nat} {n : Nat} {labels : Labels} {scores : List (List ℝ)} {rel : Nat → List Nat} {sc : Nat → Nat → ℝ}
    (h : Calibration examples n labels scores rel sc) {fuel : Nat} (hf : 2 * examples.length < fuel) :
    ∃ binLists, fitMarginal Loss.logisticFunction sort isEqual fuel examples n labels scores = Run.done (.isotonic binLists) ∧
      (CalibrationModel.isotonic binLists).Ok n ∧ (CalibrationModel.isotonic binLists).Positive ∧
      (∀ c bins, binLists[c]? = some bins → ∀ b ∈ bins, ∃ e ∈ examples, b.1 = Loss.logisticFunction (sc e c)) ∧
      ∀ c bins, binLists[c]? = some bins → fitBins sort isEqual fuel
        (examples.map (fun e => (Loss.logisticFunction (sc e c), if c ∈ rel e then (1 : ℝ) else 0))) = Run.done bins := by
  obtain ⟨r, h1, h2, h3, h4⟩ := fit_ok hsort hrefl h.ne hf (n := n) (fun j e => Loss.logisticFunction (sc e j)) (fun j e => j ∈ rel e)
  have hx : extractMarginal (fun _ => Loss.logisticFunction) examples n labels scores (List.replicate n []) =
      .ok (Loss.row n (fun j => examples.map (fun e => (Loss.logisticFunction (sc e j), if j ∈ rel e then (1 : ℝ) else 0)))) := by
    rw [replicate_nil_row]
    cases labels with
    | dense rows =>
      simp only [extractMarginal]
      rw [extractDenseDense_ok (fun _ => Loss.logisticFunction) (rel := fun e j => decide (j ∈ rel e)) (fun e he => (h.labels e he).2) h.scores]
      simp [indicator]
    | csr rows =>
      simp only [extractMarginal]
      rw [extractCsrDense_ok (fun _ => Loss.logisticFunction) (fun e he => (h.labels e he).2) (fun e he => (h.labels e he).1) h.scores]
      simp [indicator]
  refine ⟨r, ?_, ⟨h2.ge, h3⟩, fun bins hb b hbb => ?_, fun c bins hc b hbb => (h4 c bins hc).2 b hbb, fun c bins hc => (h4 c bins hc).1⟩
  · unfold fitMarginal
    rw [hx, Run.lift_ok, Run.done_bind, h1, Run.done_bind, Run.pure_eq]
  · obtain ⟨i, hi⟩ := List.mem_iff_getElem?.1 hb
    obtain ⟨e, -, he⟩ := (h4 i bins hi).2 b hbb
    rw [he]
    exact (logistic_bounds _).1

theorem fitJoint_eq [Field K] [LinearOrder K] [IsStrictOrderedRing K] {logistic : K → K} {sort : List (K × K) → List (K × K)} (hsort : SortByThreshold sort)
    {isEqual : K → K → Bool} (hrefl : ∀ x, isEqual x x = true) {examples : List Nat} {n : Nat} {labels : Labels} {scores : List (List K)}
    {rel : Nat → List Nat} {sc : Nat → Nat → K} (h : Calibration examples n labels scores rel sc) {fuel : Nat} (hf : 2 * examples.length < fuel)
    {marginalModel : CalibrationModel K} {vectors : List (List Nat)} {p : Nat → Nat → K}
    (hp : ∀ i v, vectors[i]? = some v → ∀ e ∈ examples,
      transformScores (transformScore logistic marginalModel) .no (Loss.row n (sc e)) i v = .ok (p i e)) :
    ∃ binLists, fitJoint logistic sort isEqual fuel examples labels scores marginalModel vectors = Run.done (.isotonic binLists) ∧
      binLists.length = vectors.length ∧ (CalibrationModel.isotonic binLists).Ok vectors.length ∧
      (∀ i bins, binLists[i]? = some bins → ∀ b ∈ bins, ∃ e ∈ examples, b.1 = p i e) ∧
      ∃ (y : Nat → Nat → Bool), (∀ i bins, binLists[i]? = some bins →
        fitBins sort isEqual fuel (examples.map (fun e => (p i e, if y i e then (1 : K) else 0))) = Run.done bins) ∧
        ∀ e ∈ examples, (∀ j ∈ rel e, j < n) → ∀ i v, vectors[i]? = some v → (y i e = true ↔ v <+: rel e) := by
  have hv : vectors = Loss.row vectors.length (fun i => (vectors[i]?).getD []) := by
    refine List.ext_getElem? (fun i => ?_)
    by_cases hi : i < vectors.length
    · rw [LossUpdate.row_getElem? hi, List.getElem?_eq_getElem hi]
      rfl
    · rw [List.getElem?_eq_none (by omega), List.getElem?_eq_none (by simp [Loss.row]; omega)]
  have hrel : ∃ rl : Nat → List Nat, ∀ e ∈ examples, labels.relevant[e]? = some (rl e) := by
    refine ⟨fun e => (labels.relevant[e]?).getD [], fun e he => ?_⟩
    obtain ⟨r, hr⟩ := relevant_some (h.labels e he)
    simp only [hr, Option.getD_some]
  obtain ⟨rl, hrl⟩ := hrel
  have hx := extractJoint_bins_partial (joint := fun i labelVector e => do
      let row ← readAt scores e
      transformScores (transformScore logistic marginalModel) .no row i labelVector) (p := p) (indices := examples) hv hrl (fun i hi e he => by
    rw [readAt_of_getElem? (h.scores e he), ok_bind]
    refine hp i _ ?_ e he
    rw [List.getElem?_eq_getElem hi]
    rfl)
  obtain ⟨r, h1, h2, h3, h4⟩ := fit_ok hsort hrefl h.ne hf (n := vectors.length) p (fun i e => (vectors[i]?).getD [] <+: rl e)
  refine ⟨r, ?_, h2, ⟨h2.ge, h3⟩, fun c bins hc b hbb => (h4 c bins hc).2 b hbb, fun i e => decide ((vectors[i]?).getD [] <+: rl e), fun i bins hi => ?_, fun e he hlt i v hi => ?_⟩
  · unfold fitJoint
    rw [replicate_nil_row, hx, Run.lift_ok, Run.done_bind, h1, Run.done_bind, Run.pure_eq]
  · have := (h4 i bins hi).1
    simpa using this
  · have hr := (hrl e he).symm.trans (relevant_eq (h.labels e he) hlt)
    show decide ((vectors[i]?).getD [] <+: rl e) = true ↔ _
    rw [Option.some.inj hr, hi]
    simp

/-- **C92 (joint probabilities).** Fitting a model to at least one example succeeds, given a model for marginal probabilities that has been fitted. Thresholds are positive if
the joint probabilities of all examples are positive, which is the case if marginal probabilities are not calibrated. Each list of bins is fitted to the joint probabilities
of all examples and to whether the label vector is a prefix of their relevant labels (see C54). -/
theorem fitJoint_ok_partial {sort : List (ℝ × ℝ) → List (ℝ × ℝ)} (hsort : SortByThreshold sort) {isEqual : ℝ → ℝ → Bool}
    (hrefl : ∀ x, isEqual x x = true) {examples : List Nat} {n : Nat} {labels : Labels} {scores : List (List ℝ)} {rel : Nat → List Nat}
    {sc : Nat → Nat → ℝ} (h : Calibration examples n labels scores rel sc) {fuel : Nat} (hf : 2 * examples.length < fuel)
    {marginalModel : CalibrationModel ℝ} (hm : marginalModel.Ok n) {vectors : List (List Nat)} (hv : ∀ v ∈ vectors, v.Pairwise (· < ·)) :
    ∃ jointModel, fitJoint Loss.logisticFunction sort isEqual fuel examples labels scores marginalModel vectors = Run.done jointModel ∧
      jointModel.Ok vectors.length ∧ ((∀ v ∈ vectors, ∀ e ∈ examples, 0 < jointOf n marginalModel (sc e) v) → jointModel.Positive) ∧
      (marginalModel = .no → jointModel.Positive) ∧
      ((∀ e ∈ examples, ∀ j ∈ rel e, j < n) → ∃ binLists, jointModel = .isotonic binLists ∧ ∀ (i : Nat) v bins, vectors[i]? = some v →
        binLists[i]? = some bins → fitBins sort isEqual fuel
          (examples.map (fun e => (jointOf n marginalModel (sc e) v, if v <+: rel e then (1 : ℝ) else 0))) = Run.done bins) := by
  obtain ⟨r, h1, hlen, h2, h3, y, h5, h6⟩ := fitJoint_eq (logistic := Loss.logisticFunction) hsort hrefl h hf (marginalModel := marginalModel) (vectors := vectors)
    (p := fun i e => jointOf n marginalModel (sc e) ((vectors[i]?).getD [])) (fun i v hi e he => by
      rw [transformScores_ok (m := marginalOf marginalModel) (fun c hc x => ((marginal_spec hm hc).1 x).1) .no (sc e) i (hv v (List.mem_of_getElem? hi)), hi]
      rfl)
  have hpos : (∀ v ∈ vectors, ∀ e ∈ examples, 0 < jointOf n marginalModel (sc e) v) → (CalibrationModel.isotonic r).Positive := by
    intro hz bins hb b hbb
    obtain ⟨i, hi⟩ := List.mem_iff_getElem?.1 hb
    obtain ⟨e, he, hbe⟩ := h3 i bins hi b hbb
    rw [hbe]
    by_cases hiv : i < vectors.length
    · rw [List.getElem?_eq_getElem hiv]
      exact hz _ (List.getElem_mem hiv) e he
    · exfalso
      have := (List.getElem?_eq_some_iff.1 hi).1
      omega
  refine ⟨_, h1, h2, hpos, ?_, fun hlt => ⟨r, rfl, fun i v bins hi hb => ?_⟩⟩
  · rintro rfl
    exact hpos (fun v _ e _ => (joint_bounds hm (sc e) v).2.2 rfl)
  · rw [← h5 i bins hb]
    congr 1
    refine List.map_congr_left (fun e he => ?_)
    have hy := h6 e he (hlt e he) i v hi
    rw [hi]
    by_cases hp : v <+: rel e
    · rw [if_pos hp, if_pos (hy.2 hp)]
      rfl
    · rw [if_neg hp, if_neg (fun h => hp (hy.1 h))]
      rfl

/-- **C92 (both).** Fitting the calibration models of a learner succeeds if there is at least one example to be used. All hypotheses about calibration models of C91 are
met, unless marginal and joint probabilities are both calibrated. -/
theorem fitCalibrationModels_ok_partial {sort : List (ℝ × ℝ) → List (ℝ × ℝ)} (hsort : SortByThreshold sort) {isEqual : ℝ → ℝ → Bool}
    (hrefl : ∀ x, isEqual x x = true) (config : CalibratorConfig) {partition : Partition} {n : Nat} {labels : Labels} {scores : List (List ℝ)}
    {rel : Nat → List Nat} {sc : Nat → Nat → ℝ}
    (h : ∀ u, config.marginal = some u ∨ config.joint = some u → Calibration (partition.calibrationExamples u) n labels scores rel sc) {fuel : Nat}
    (hf : ∀ u, 2 * (partition.calibrationExamples u).length < fuel) {vectors : List (List Nat)} (hv : ∀ v ∈ vectors, v.Pairwise (· < ·)) :
    ∃ marginalModel jointModel, fitCalibrationModels Loss.logisticFunction sort isEqual fuel config partition n labels scores vectors =
        Run.done (marginalModel, jointModel) ∧
      marginalModel.Ok n ∧ jointModel.Ok vectors.length ∧ (config.marginal = none ∨ config.joint = none → marginalModel = .no ∨ jointModel.Positive) := by
  have h1 : ∃ marginalModel, (match config.marginal with
      | none => Run.done .no
      | some useHoldoutSet => fitMarginal Loss.logisticFunction sort isEqual fuel (partition.calibrationExamples useHoldoutSet) n labels scores) =
        Run.done marginalModel ∧ marginalModel.Ok n ∧ (config.marginal = none → marginalModel = .no) := by
    cases hm : config.marginal with
    | none => exact ⟨.no, rfl, trivial, fun _ => rfl⟩
    | some u =>
      obtain ⟨r, g1, g2, -⟩ := fitMarginal_ok hsort hrefl (h u (Or.inl hm)) (hf u)
      exact ⟨_, g1, g2, fun h => by cases h⟩
  obtain ⟨marginalModel, g1, g2, g3⟩ := h1
  have h2 : ∃ jointModel, (match config.joint with
      | none => Run.done .no
      | some useHoldoutSet =>
        fitJoint Loss.logisticFunction sort isEqual fuel (partition.calibrationExamples useHoldoutSet) labels scores marginalModel vectors) =
        Run.done jointModel ∧ jointModel.Ok vectors.length ∧ (config.joint = none → jointModel = .no) := by
    cases hj : config.joint with
    | none => exact ⟨.no, rfl, trivial, fun _ => rfl⟩
    | some u =>
      obtain ⟨r, k1, k2, -⟩ := fitJoint_ok_partial hsort hrefl (h u (Or.inr hj)) (hf u) g2 hv
      exact ⟨_, k1, k2, fun h => by cases h⟩
  obtain ⟨jointModel, k1, k2, k3⟩ := h2
  refine ⟨marginalModel, jointModel, ?_, g2, k2, ?_⟩
  · unfold fitCalibrationModels
    cases hm : config.marginal with
    | none =>
      rw [g3 hm] at k1 ⊢
      cases hj : config.joint with
      | none =>
        rw [k3 hj]
        rfl
      | some u =>
        rw [hj] at k1
        simp only at k1 ⊢
        rw [Run.done_bind, k1]
        rfl
    | some u =>
      rw [hm] at g1
      simp only at g1 ⊢
      rw [g1, Run.done_bind]
      cases hj : config.joint with
      | none =>
        rw [k3 hj]
        rfl
      | some u =>
        rw [hj] at k1
        simp only at k1 ⊢
        rw [k1]
        rfl
  · rintro (hn | hn)
    · exact Or.inl (g3 hn)
    · rw [k3 hn]
      exact Or.inr trivial

/-- **C92 (trained models).** After the calibration models have been fitted, probabilities can be predicted for any query examples: output-wise probabilities are always
valid, marginalized probabilities are valid unless marginal and joint probabilities are both calibrated. -/
theorem calibrated_predictions_partial {sort : List (ℝ × ℝ) → List (ℝ × ℝ)} (hsort : SortByThreshold sort) {isEqual : ℝ → ℝ → Bool}
    (hrefl : ∀ x, isEqual x x = true) (config : CalibratorConfig) {partition : Partition} {n : Nat} {labels : Labels} {scores : List (List ℝ)}
    {rel : Nat → List Nat} {sc : Nat → Nat → ℝ}
    (h : ∀ u, config.marginal = some u ∨ config.joint = some u → Calibration (partition.calibrationExamples u) n labels scores rel sc) {fuel : Nat}
    (hf : ∀ u, 2 * (partition.calibrationExamples u).length < fuel) {vectors : List (List Nat)} (hv : ∀ v ∈ vectors, v.Pairwise (· < ·))
    (hlt : ∀ v ∈ vectors, ∀ c ∈ v, c < n) :
    ∃ marginalModel jointModel, fitCalibrationModels Loss.logisticFunction sort isEqual fuel config partition n labels scores vectors =
        Run.done (marginalModel, jointModel) ∧
      ∀ (features : Features), features.Ok → ∀ (model : RuleList (Rule ℝ)) (maxRules : Nat) (rules : List (Rule ℝ)), model.usedToList maxRules = .ok rules →
        ∀ (covered : Nat → Rule ℝ → Bool), (∀ e < features.numRows, ∀ r ∈ rules, r.body.coversDense (features.row e) = .ok (covered e r)) →
        (∀ r ∈ rules, Spec.HeadFits n r.head) → ∀ (schedule : Schedule (Rows ℝ)), schedule.Ok features.numRows →
        (∃ p : Nat → Nat → ℝ, predict features model n (some (outputWise (transformScore Loss.logisticFunction marginalModel))) schedule maxRules =
            .ok ((List.range features.numRows).map (fun e => Loss.row n (p e))) ∧ ∀ e c, c < n → 0 ≤ p e c ∧ p e c ≤ 1) ∧
        (config.marginal = none ∨ config.joint = none → ∀ array : List ℝ, array.length = vectors.length →
          ∃ p : Nat → Nat → ℝ, predict features model n
              (some (marginalized (transformScores (transformScore Loss.logisticFunction marginalModel) jointModel) vectors array)) schedule maxRules =
            .ok ((List.range features.numRows).map (fun e => Loss.row n (p e))) ∧ ∀ e c, 0 ≤ p e c ∧ p e c ≤ 1) := by
  obtain ⟨marginalModel, jointModel, h1, h2, h3, h4⟩ := fitCalibrationModels_ok_partial hsort hrefl config h hf hv
  refine ⟨marginalModel, jointModel, h1, fun features hfe model maxRules rules hr covered hc hh schedule hs => ⟨?_, fun hn array ha => ?_⟩⟩
  · obtain ⟨g1, g2⟩ := predict_outputWise hfe hr hc hh h2 hs
    exact ⟨_, g1, fun e c hcn => g2 c hcn _⟩
  · obtain ⟨g1, g2⟩ := predict_marginalized_partial hfe hr hc hh h2 h3 (h4 hn) hv hlt ha hs
    exact ⟨_, g1, fun e c => g2 _ c⟩

/-- **C92 (joint probabilities of zero).** If the model for joint probabilities is fitted to an example, for which the joint probability of a label vector is zero, then
calibrating the joint probability of this label vector for this example divides zero by zero afterwards, regardless of the other examples. -/
theorem fitJoint_zero_nan [Field K] [LinearOrder K] [IsStrictOrderedRing K] {logistic : K → K} {sort : List (K × K) → List (K × K)}
    (hsort : SortByThreshold sort) {examples : List Nat} {n : Nat} {labels : Labels} {scores : List (List K)} {rel : Nat → List Nat} {sc : Nat → Nat → K}
    (h : Calibration examples n labels scores rel sc) {fuel : Nat} (hf : 2 * examples.length < fuel) {marginalModel : CalibrationModel K}
    {vectors : List (List Nat)} {p : Nat → Nat → K} (hp : ∀ i v, vectors[i]? = some v → ∀ e ∈ examples,
      transformScores (transformScore logistic marginalModel) .no (Loss.row n (sc e)) i v = .ok (p i e)) (hnn : ∀ i e, 0 ≤ p i e)
    {i : Nat} {v : List Nat} (hi : vectors[i]? = some v) {e : Nat} (he : e ∈ examples) (hz : p i e = 0) :
    ∃ jointModel, fitJoint logistic sort (fun x y => decide (x = y)) fuel examples labels scores marginalModel vectors = Run.done jointModel ∧
      transformScores (transformScore logistic marginalModel) jointModel (Loss.row n (sc e)) i v = .error .divByZero := by
  obtain ⟨r, h1, hlen, -, -, y, h4, -⟩ := fitJoint_eq (isEqual := fun x y => decide (x = y)) hsort (by simp) h hf hp
  refine ⟨_, h1, ?_⟩
  have hir : i < r.length := by
    rw [hlen]
    exact (List.getElem?_eq_some_iff.1 hi).1
  have h5 := h4 i _ (List.getElem?_eq_getElem hir)
  obtain ⟨w, r', h6⟩ := fitBins_first hsort (bins := examples.map (fun e => (p i e, if y i e then (1 : K) else 0))) (by simpa using h.ne) (t := 0)
    (by
      rw [List.map_map, List.mem_map]
      exact ⟨e, he, hz⟩) (fun b hb => by
      obtain ⟨e', -, rfl⟩ := List.mem_map.1 hb
      exact hnn i e') (fun b hb => by
      obtain ⟨e', -, rfl⟩ := List.mem_map.1 hb
      by_cases hy : y i e' <;> simp [hy]) fuel (by simpa using hf)
  have h7 : r[i] = (0, w) :: r' := Run.done_inj (h5.symm.trans h6)
  have h8 := hp i v hi e he
  unfold transformScores at h8 ⊢
  obtain ⟨s, h9, h10⟩ := TabularData.ok_of_bind h8
  rw [h9, ok_bind]
  simp only [CalibrationModel.calibrate, Except.ok.injEq] at h10 ⊢
  rw [readAt_of_lt hir, ok_bind, h7, h10, hz]
  exact calibrate_zero_nan w r'

/-! ### Examples -/

/-- One label, two training examples, only the second one of which is relevant. All examples are used for calibration. -/
example : (do
      let m ← fitCalibrationModels exampleFunction sortExample (fun x y => decide (x = y)) 20 ⟨some true, none⟩ (.single 2) 1 (.csr [[], [0]]) [[0], [2]]
        [[], [0]]
      return match m with
        | (.isotonic l, .no) => l
        | _ => []) = Run.done [[(1 / 2, 0), (3 / 5, 1)]] := by decide +kernel

/-- **Probabilities of training examples that are not numbers.** If marginal and joint probabilities are both calibrated in the previous example, predicting for the first
training example divides zero by zero: its calibrated marginal probability and thus the joint probability of the label vector [0] are zero. -/
theorem calibrated_nan :
    (do
      let m ← fitCalibrationModels exampleFunction sortExample (fun x y => decide (x = y)) 20 ⟨some true, some true⟩ (.single 2) 1 (.csr [[], [0]])
        [[0], [2]] [[], [0]]
      Run.lift (marginalized (transformScores (transformScore exampleFunction m.1) m.2) [[], [0]] [0, 0] ⟨[0], none⟩)) =
      Run.lift (.error .divByZero) := by decide +kernel

/-- **Empty holdout sets.** If the holdout set is empty, fitting a model to it accesses a bin that does not exist. -/
theorem fit_empty_holdout : fitCalibrationModels exampleFunction sortExample (fun x y => decide (x = y)) 20 ⟨some true, none⟩
    (.bi (BiPartition.create [0, 1] [])) 1 (.csr [[], [0]]) [[0], [2]] [[], [0]] = Run.lift (.error .outOfBounds) := by rfl

/-- The hypotheses of the theorems can be met. -/
example : Calibration [0, 1] 1 (.csr [[], [0]]) [[(0 : ℝ)], [2]] (fun e => if e = 1 then [0] else []) (fun e _ => if e = 1 then 2 else 0) := by
  refine ⟨by simp, ?_, ?_⟩
  · intro e he
    rcases List.mem_cons.1 he with rfl | he
    · exact ⟨by simp, rfl⟩
    · rw [List.mem_singleton] at he
      subst he
      exact ⟨by simp, rfl⟩
  · intro e he
    rcases List.mem_cons.1 he with rfl | he
    · simp [Loss.row]
    · rw [List.mem_singleton] at he
      subst he
      simp [Loss.row]

end MLRL.Probability
