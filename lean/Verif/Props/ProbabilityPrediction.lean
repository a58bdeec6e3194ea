import Verif.Lemma.ProbabilityPrediction
import Verif.Props.Loss

/-!
# C91: prediction of probabilities
-/

namespace MLRL.Probability

open Predictor LabelVectors Isotonic Finset

variable {K : Type}

/-- **C91 (one-shot prediction).** However many threads are used and however their steps are interleaved, the matrix of probabilities consists of the transformed
scores of the individual examples, although scores are overwritten by probabilities. -/
theorem predict_spec [AddCommMonoid K] {features : Features} (hf : features.Ok) {model : RuleList (Rule K)} {maxRules n : Nat} {rules : List (Rule K)}
    (hr : model.usedToList maxRules = .ok rules) {covered : Nat → Rule K → Bool}
    (hc : ∀ e < features.numRows, ∀ r ∈ rules, r.body.coversDense (features.row e) = .ok (covered e r)) (hh : ∀ r ∈ rules, Spec.HeadFits n r.head)
    {transformation : Rows K → Res (Rows K)} {t : (Nat → K) → Nat → K} (ht : Transforms n transformation t) {schedule : Schedule (Rows K)}
    (hs : schedule.Ok features.numRows) :
    predict features model n (some transformation) schedule maxRules =
      .ok ((List.range features.numRows).map (fun e => Loss.row n (t (score rules (covered e))))) := by
  unfold predict
  simp only
  rw [hr, ok_bind]
  obtain ⟨h1, h2⟩ := schedule_ok hs (predictForExample features rules transformation)
  have hz : List.replicate n (0 : K) = Loss.row n (fun _ => 0) := by
    simp [Loss.row]
  rw [execute_ok _ _ (fun e => ⟨Loss.row n (t (score rules (covered e))), none⟩) (by simpa using h1) (fun e r hr => by
    rw [List.getElem?_replicate] at hr
    split at hr
    · rename_i he
      cases hr
      rw [h2 e he, hz, (predictForExample_ok hf he (hc e he) hh ht _).1]
      simp
    · cases hr), ok_bind]
  simp only [List.length_replicate, List.map_map]
  rfl

/-- **C91 (no label vectors).** Without label vectors, joint probabilities are not available and all probabilities are zero, regardless of the model. Otherwise, they
are obtained via `marginalized`. -/
theorem predict_none [Field K] [LinearOrder K] (features : Features) (model : RuleList (Rule K)) (n : Nat) (joint : List K → Nat → List Nat → Res K)
    (vectors : List (List Nat)) (array : List K) (schedule : Schedule (Rows K)) (maxRules : Nat) :
    predict features model n (createMarginalized joint [] array) schedule maxRules =
        .ok (List.replicate features.numRows (List.replicate n 0)) ∧
      (vectors ≠ [] → createMarginalized joint vectors array = some (marginalized joint vectors array)) := by
  constructor
  · simp [createMarginalized, predict, Rows.result]
  · intro h
    simp [createMarginalized, List.length_pos_iff.2 h]

/-- **C91 (incremental prediction).** After at least one call to `applyNext`, the matrix of probabilities consists of the transformed scores that result from the rules
that have been applied so far. Each call may be executed in a different way by different threads, and the previous content of the matrix of probabilities is
irrelevant. -/
theorem incremental_spec [AddCommMonoid K] {features : Features} (hf : features.Ok) {model : RuleList (Rule K)} {maxRules n : Nat} {rules : List (Rule K)}
    (hr : model.usedToList maxRules = .ok rules) {covered : Nat → Rule K → Bool}
    (hc : ∀ e < features.numRows, ∀ r ∈ rules, r.body.coversDense (features.row e) = .ok (covered e r)) (hh : ∀ r ∈ rules, Spec.HeadFits n r.head)
    {transformation : Rows K → Res (Rows K)} {t : (Nat → K) → Nat → K} (ht : Transforms n transformation t) (scores probabilities : Nat → List K)
    (hp : ∀ e, (probabilities e).length = n) (calls : List (Nat × Schedule (Rows K))) (hs : ∀ p ∈ calls, p.2.Ok features.numRows) (hne : calls ≠ []) :
    ∃ p, Incremental.applyAll features (some transformation) calls
        (Incremental.create model maxRules features.numRows n true scores probabilities) = .ok p ∧
      p.getNumNext = rules.length - min (calls.map Prod.fst).sum rules.length ∧
      p.result = (List.range features.numRows).map (fun e =>
        Loss.row n (t (score (rules.take (min (calls.map Prod.fst).sum rules.length)) (covered e)))) := by
  have hb : (model.usedCbegin maxRules).index ≤ (model.usedCend maxRules).index := by
    simp [RuleList.usedCbegin, RuleList.usedCend, RuleList.ConstIterator.create]
  have hlen := Predictor.collect_length _ _ _ hr
  have hzero : ∀ e, Loss.row n (score [] (covered e)) = List.replicate n (0 : K) := fun e => by
    show (List.range n).map (fun _ => (0 : K)) = _
    simp
  obtain ⟨mem, h1, h2, h3⟩ := Incremental.applyAll_ok hf hc hh ht (b := model.usedCbegin maxRules) (e := model.usedCend maxRules) hr hb calls hs 0
    (Nat.zero_le _) (Incremental.create model maxRules features.numRows n true scores probabilities).mem
    ⟨by simp [Incremental.create], fun e r h => by
      simp only [Incremental.create, List.getElem?_map, if_true] at h
      by_cases he : e < features.numRows
      · rw [List.getElem?_range he, Option.map_some, Option.some.injEq] at h
        refine ⟨probabilities e, ?_, hp e⟩
        rw [← h]
        congr 1
        rw [List.take_zero]
        exact (hzero e).symm
      · rw [List.getElem?_eq_none (by simp; omega)] at h
        cases h⟩
  rw [Nat.zero_add] at h1 h2 h3
  refine ⟨_, h1, ?_, ?_⟩
  · simp only [Incremental.getNumNext, RuleList.ConstIterator.add]
    omega
  · rcases h3 with ⟨h3, -⟩ | h3
    · exact absurd h3 hne
    · exact h3

/-- **C91 (no label vectors).** If no label vectors are known, incremental predictions are zero as well, even before `applyNext` is called. -/
theorem incremental_none [AddCommMonoid K] (features : Features) (model : RuleList (Rule K)) (maxRules n : Nat) (scores probabilities : Nat → List K)
    (calls : List (Nat × Schedule (Rows K))) :
    ∃ p, Incremental.applyAll features none calls (Incremental.create model maxRules features.numRows n false scores probabilities) = .ok p ∧
      p.result = List.replicate features.numRows (List.replicate n 0) := by
  have key : ∀ (calls : List (Nat × Schedule (Rows K))) (p : Incremental K), ∃ p', Incremental.applyAll features none calls p = .ok p' ∧ p'.mem = p.mem := by
    intro calls
    induction calls with
    | nil => intro p; exact ⟨p, rfl, rfl⟩
    | cons c calls ih =>
      intro p
      obtain ⟨p', h1, h2⟩ := ih { p with current := p.current.add (min c.1 p.getNumNext) }
      exact ⟨p', h1, h2⟩
  obtain ⟨p, h1, h2⟩ := key calls (Incremental.create model maxRules features.numRows n false scores probabilities)
  refine ⟨p, h1, ?_⟩
  rw [Incremental.result, h2]
  simp only [Incremental.create, List.map_map]
  refine List.ext_getElem? (fun e => ?_)
  by_cases he : e < features.numRows
  · simp [he, Rows.result]
  · simp [he]

/-- **C91 (incremental and one-shot prediction).** For boosted models (default rule first), whatever calls have been made to build the model: if at least one rule
has been applied incrementally, the probabilities are those of a one-shot prediction that is limited to the number of rules that have been applied. -/
theorem incremental_eq_oneShot [AddCommMonoid K] {features : Features} (hf : features.Ok) (built : List (RuleListCall (Rule K))) (maxRules : Nat) {n : Nat}
    (hlen : (RuleList.Spec.addedRules built).length + 1 < 2 ^ 32)
    (hused : RuleList.Spec.lastUsed built ≤ (RuleList.Spec.allRules true (RuleList.Spec.lastDefault built) (RuleList.Spec.addedRules built)).length)
    {covered : Nat → Rule K → Bool}
    (hc : ∀ e < features.numRows, ∀ r ∈ RuleList.Spec.allRules true (RuleList.Spec.lastDefault built) (RuleList.Spec.addedRules built),
      r.body.coversDense (features.row e) = .ok (covered e r))
    (hh : ∀ r ∈ RuleList.Spec.allRules true (RuleList.Spec.lastDefault built) (RuleList.Spec.addedRules built), Spec.HeadFits n r.head)
    {transformation : Rows K → Res (Rows K)} {t : (Nat → K) → Nat → K} (ht : Transforms n transformation t) (scores probabilities : Nat → List K)
    (hp : ∀ e, (probabilities e).length = n) (calls : List (Nat × Schedule (Rows K))) (hs : ∀ p ∈ calls, p.2.Ok features.numRows)
    {schedule : Schedule (Rows K)} (hs' : schedule.Ok features.numRows) :
    let model := built.foldl RuleListCall.apply (RuleList.init true)
    let all := RuleList.Spec.allRules true (RuleList.Spec.lastDefault built) (RuleList.Spec.addedRules built)
    let used := if RuleList.Spec.lastUsed built = 0 then all.length else RuleList.Spec.lastUsed built
    let total := if maxRules = 0 then used else min used maxRules
    let applied := min (calls.map Prod.fst).sum total
    1 ≤ applied → ∃ p, Incremental.applyAll features (some transformation) calls
        (Incremental.create model maxRules features.numRows n true scores probabilities) = .ok p ∧ p.getNumNext = total - applied ∧
      predict features model n (some transformation) schedule applied = .ok p.result := by
  intro model all used total applied hpos
  have hall : RuleList.Spec.firstRules true (RuleList.Spec.lastDefault built) (RuleList.Spec.addedRules built) = fun k => all.take k := by
    funext k
    simp [RuleList.Spec.firstRules, all, RuleList.Spec.allRules]
  have hu : used ≤ all.length := by
    show (if _ then _ else _) ≤ _
    split
    · exact Nat.le_refl _
    · exact hused
  have htot : total ≤ used := by
    show (if maxRules = 0 then used else min used maxRules) ≤ used
    split <;> omega
  have h1 := RuleList.iterate_used true built maxRules hlen hused
  rw [hall] at h1
  have h1' : model.usedToList maxRules = .ok (all.take total) := h1
  have h5 := RuleList.iterate_used true built applied hlen hused
  rw [hall] at h5
  have h5' : model.usedToList applied = .ok (all.take (if applied = 0 then used else min used applied)) := h5
  have happle : applied ≤ total := Nat.min_le_right _ _
  rw [if_neg (by omega), Nat.min_eq_right (by omega)] at h5'
  have hne : calls ≠ [] := by
    rintro rfl
    simp [applied] at hpos
  obtain ⟨p, g1, g2, g3⟩ := incremental_spec hf h1' (fun e he r hr => hc e he r (List.mem_of_mem_take hr)) (fun r hr => hh r (List.mem_of_mem_take hr))
    ht scores probabilities hp calls hs hne
  have hl : (all.take total).length = total := by
    rw [List.length_take]
    omega
  rw [hl] at g2 g3
  refine ⟨p, g1, g2, ?_⟩
  rw [predict_spec hf h5' (fun e he r hr => hc e he r (List.mem_of_mem_take hr)) (fun r hr => hh r (List.mem_of_mem_take hr)) ht hs', g3,
    List.take_take]
  have : min (min (calls.map Prod.fst).sum total) total = applied := by
    show _ = min (calls.map Prod.fst).sum total
    omega
  rw [this]

/-! ### Output-wise probabilities -/

theorem logistic_bounds (x : ℝ) : 0 < Loss.logisticFunction x ∧ Loss.logisticFunction x < 1 := by
  rw [Loss.logisticFunction_eq]
  have := Real.exp_pos x
  constructor
  · positivity
  · rw [div_lt_one (by positivity)]
    linarith

theorem logistic_mono {x y : ℝ} (h : x ≤ y) : Loss.logisticFunction x ≤ Loss.logisticFunction y := by
  rw [Loss.logisticFunction_eq, Loss.logisticFunction_eq]
  have h1 := Real.exp_pos x
  have h2 := Real.exp_le_exp.2 h
  rw [div_le_div_iff₀ (by positivity) (by positivity)]
  nlinarith

/-- The probability that corresponds to the score `x` of label `c`. -/
noncomputable def marginalOf (model : CalibrationModel ℝ) (c : Nat) (x : ℝ) : ℝ :=
  match transformScore Loss.logisticFunction model c x with
  | .ok p => p
  | .error _ => 0

/-- **C91 (marginal probabilities).** If the calibration model has been fitted, scores are mapped to probabilities in [0,1] without faults, greater scores do not
correspond to smaller probabilities, and the binary prediction for a label is relevant if and only if its probability is greater than 1/2. The case that is not
handled by the calibration of probabilities, a probability of zero, does not occur, as the logistic function is positive. -/
theorem marginal_spec {n : Nat} {model : CalibrationModel ℝ} (hm : model.Ok n) {c : Nat} (hc : c < n) :
    (∀ x, transformScore Loss.logisticFunction model c x = .ok (marginalOf model c x) ∧ 0 ≤ marginalOf model c x ∧ marginalOf model c x ≤ 1 ∧
      discretizeScore (transformScore Loss.logisticFunction model) c x = .ok (decide (marginalOf model c x > 1 / 2))) ∧
    (∀ x y, x ≤ y → marginalOf model c x ≤ marginalOf model c y) ∧
    (model = .no → ∀ x, marginalOf model c x = Loss.logisticFunction x ∧ (marginalOf model c x > 1 / 2 ↔ 0 < x)) := by
  have key : ∀ x, ∃ p, transformScore Loss.logisticFunction model c x = .ok p ∧ 0 ≤ p ∧ p ≤ 1 := by
    intro x
    obtain ⟨h0, h1⟩ := logistic_bounds x
    cases model with
    | no => exact ⟨_, rfl, h0.le, h1.le⟩
    | isotonic binLists =>
      obtain ⟨h2, h3⟩ := hm
      obtain ⟨v, h4, h5, h6⟩ := calibrate_valid_partial (h3 _ (List.getElem_mem (show c < binLists.length by omega))) h0.le h1.le (Or.inl h0)
      refine ⟨v, ?_, h5, h6⟩
      simp only [transformScore, CalibrationModel.calibrate]
      rw [readAt_of_lt (show c < binLists.length by omega), ok_bind, h4]
  have hval : ∀ x, transformScore Loss.logisticFunction model c x = .ok (marginalOf model c x) ∧ 0 ≤ marginalOf model c x ∧ marginalOf model c x ≤ 1 := by
    intro x
    obtain ⟨p, h1, h2⟩ := key x
    unfold marginalOf
    rw [h1]
    exact ⟨rfl, h2⟩
  refine ⟨fun x => ⟨(hval x).1, (hval x).2.1, (hval x).2.2, ?_⟩, fun x y hxy => ?_, ?_⟩
  · unfold discretizeScore
    rw [(hval x).1]
    rfl
  · cases model with
    | no => exact logistic_mono hxy
    | isotonic binLists =>
      obtain ⟨h2, h3⟩ := hm
      obtain ⟨v, v', h4, h5, h6⟩ := calibrate_monotone_partial (h3 _ (List.getElem_mem (show c < binLists.length by omega))) (logistic_bounds x).1.le
        (logistic_mono hxy) (logistic_bounds y).2.le (Or.inl (logistic_bounds x).1)
      simp only [marginalOf, transformScore, CalibrationModel.calibrate]
      rw [readAt_of_lt (show c < binLists.length by omega), ok_bind, h4, ok_bind, h5]
      exact h6
  · rintro rfl x
    refine ⟨rfl, ?_⟩
    show Loss.logisticFunction x > 1 / 2 ↔ _
    rw [Loss.logisticFunction_eq, gt_iff_lt, div_lt_div_iff₀ (by norm_num) (by positivity)]
    rw [← Real.one_lt_exp_iff]
    constructor <;> intro h <;> linarith

/-- **C91 (output-wise probabilities).** The probability of each label results from the sum of what the covering rules contribute, for dense and sparse feature matrices
and any execution by threads. It lies in [0,1]. -/
theorem predict_outputWise {features : Features} (hf : features.Ok) {model : RuleList (Rule ℝ)} {maxRules n : Nat} {rules : List (Rule ℝ)}
    (hr : model.usedToList maxRules = .ok rules) {covered : Nat → Rule ℝ → Bool}
    (hc : ∀ e < features.numRows, ∀ r ∈ rules, r.body.coversDense (features.row e) = .ok (covered e r)) (hh : ∀ r ∈ rules, Spec.HeadFits n r.head)
    {calibration : CalibrationModel ℝ} (hm : calibration.Ok n) {schedule : Schedule (Rows ℝ)} (hs : schedule.Ok features.numRows) :
    predict features model n (some (outputWise (transformScore Loss.logisticFunction calibration))) schedule maxRules =
      .ok ((List.range features.numRows).map (fun e => Loss.row n (fun c => marginalOf calibration c (score rules (covered e) c)))) ∧
    ∀ c < n, ∀ x, 0 ≤ marginalOf calibration c x ∧ marginalOf calibration c x ≤ 1 :=
  ⟨predict_spec hf hr hc hh (outputWise_transforms (fun c hc x => ((marginal_spec hm hc).1 x).1)) hs,
    fun c hc x => ⟨((marginal_spec hm hc).1 x).2.1, ((marginal_spec hm hc).1 x).2.2.1⟩⟩

/-! ### Marginalized probabilities -/

/-- The joint probability of the label vector `v`, given the scores `s` of an example, before calibration. -/
noncomputable def jointOf (n : Nat) (marginalModel : CalibrationModel ℝ) (s : Nat → ℝ) (v : List Nat) : ℝ :=
  independent n (fun c => marginalOf marginalModel c (s c)) (fun c => c ∈ v)

/-- The calibrated joint probability of the label vector with index `i`. -/
noncomputable def calibratedJointOf (n : Nat) (marginalModel jointModel : CalibrationModel ℝ) (vectors : List (List Nat)) (s : Nat → ℝ) (i : Nat) : ℝ :=
  match jointModel.calibrate i (jointOf n marginalModel s ((vectors[i]?).getD [])) with
  | .ok p => p
  | .error _ => 0

theorem joint_bounds {n : Nat} {marginalModel : CalibrationModel ℝ} (hm : marginalModel.Ok n) (s : Nat → ℝ) (v : List Nat) :
    0 ≤ jointOf n marginalModel s v ∧ jointOf n marginalModel s v ≤ 1 ∧ (marginalModel = .no → 0 < jointOf n marginalModel s v) := by
  have h1 := (independent_distribution n (fun c => marginalOf marginalModel c (s c)) (fun c hc =>
    ⟨((marginal_spec hm hc).1 (s c)).2.1, ((marginal_spec hm hc).1 (s c)).2.2.1⟩)).1 (fun c => c ∈ v)
  refine ⟨h1.1, h1.2, ?_⟩
  rintro rfl
  unfold jointOf independent
  refine prod_pos (fun c _ => ?_)
  obtain ⟨h2, h3⟩ := logistic_bounds (s c)
  have h4 : marginalOf .no c (s c) = Loss.logisticFunction (s c) := rfl
  simp only [h4]
  split
  · exact h2
  · linarith

/-- **C91 (joint probabilities).** The joint probability of a label vector is the calibrated product of marginal probabilities and lies in [0,1], provided that a
product of zero is not calibrated by a bin with threshold zero. This is not possible if marginal probabilities are not calibrated. -/
theorem joint_spec_partial {n : Nat} {marginalModel jointModel : CalibrationModel ℝ} (hm : marginalModel.Ok n) {vectors : List (List Nat)}
    (hj : jointModel.Ok vectors.length) (hz : marginalModel = .no ∨ jointModel.Positive) (s : Nat → ℝ) {i : Nat} {v : List Nat} (hv : vectors[i]? = some v)
    (hsort : v.Pairwise (· < ·)) :
    transformScores (transformScore Loss.logisticFunction marginalModel) jointModel (Loss.row n s) i v =
        .ok (calibratedJointOf n marginalModel jointModel vectors s i) ∧
      0 ≤ calibratedJointOf n marginalModel jointModel vectors s i ∧ calibratedJointOf n marginalModel jointModel vectors s i ≤ 1 ∧
      (jointModel = .no → calibratedJointOf n marginalModel jointModel vectors s i = jointOf n marginalModel s v) := by
  obtain ⟨b0, b1, b2⟩ := joint_bounds hm s v
  rw [transformScores_ok (m := marginalOf marginalModel) (fun c hc x => ((marginal_spec hm hc).1 x).1) jointModel s i hsort]
  have hi : i < vectors.length := (List.getElem?_eq_some_iff.1 hv).1
  have key : ∃ p, jointModel.calibrate i (jointOf n marginalModel s v) = .ok p ∧ 0 ≤ p ∧ p ≤ 1 ∧ (jointModel = .no → p = jointOf n marginalModel s v) := by
    cases jointModel with
    | no => exact ⟨_, rfl, b0, b1, fun _ => rfl⟩
    | isotonic binLists =>
      obtain ⟨h2, h3⟩ := hj
      have hi' : i < binLists.length := by omega
      obtain ⟨p, h4, h5, h6⟩ := calibrate_valid_partial (h3 _ (List.getElem_mem hi')) b0 b1 (by
        rcases hz with hz | hz
        · exact Or.inl (b2 hz)
        · exact Or.inr (hz _ (List.getElem_mem hi')))
      refine ⟨p, ?_, h5, h6, fun h => by cases h⟩
      simp only [CalibrationModel.calibrate]
      rw [readAt_of_lt hi', ok_bind, h4]
  obtain ⟨p, h1, h2, h3, h4⟩ := key
  have h5 : calibratedJointOf n marginalModel jointModel vectors s i = p := by
    unfold calibratedJointOf
    rw [hv, Option.getD_some, h1]
  rw [h5]
  exact ⟨h1, h2, h3, h4⟩

/-- **C91 (marginalized probabilities).** The probability of each label is the sum of the joint probabilities of those label vectors that contain it, divided by the sum
of all joint probabilities. It lies in [0,1]. -/
theorem predict_marginalized_partial {features : Features} (hf : features.Ok) {model : RuleList (Rule ℝ)} {maxRules n : Nat} {rules : List (Rule ℝ)}
    (hr : model.usedToList maxRules = .ok rules) {covered : Nat → Rule ℝ → Bool}
    (hc : ∀ e < features.numRows, ∀ r ∈ rules, r.body.coversDense (features.row e) = .ok (covered e r)) (hh : ∀ r ∈ rules, Spec.HeadFits n r.head)
    {marginalModel jointModel : CalibrationModel ℝ} (hm : marginalModel.Ok n) {vectors : List (List Nat)} (hj : jointModel.Ok vectors.length)
    (hz : marginalModel = .no ∨ jointModel.Positive) (hv : ∀ v ∈ vectors, v.Pairwise (· < ·)) (hlt : ∀ v ∈ vectors, ∀ c ∈ v, c < n) {array : List ℝ}
    (ha : array.length = vectors.length) {schedule : Schedule (Rows ℝ)} (hs : schedule.Ok features.numRows) :
    predict features model n (some (marginalized (transformScores (transformScore Loss.logisticFunction marginalModel) jointModel) vectors array)) schedule
        maxRules =
      .ok ((List.range features.numRows).map (fun e => Loss.row n (marginalProbability vectors
        (calibratedJointOf n marginalModel jointModel vectors (score rules (covered e)))))) ∧
    ∀ s c, 0 ≤ marginalProbability vectors (calibratedJointOf n marginalModel jointModel vectors s) c ∧
      marginalProbability vectors (calibratedJointOf n marginalModel jointModel vectors s) c ≤ 1 := by
  have hnd : ∀ v ∈ vectors, v.Nodup := fun v h => (hv v h).imp (fun h => Nat.ne_of_lt h)
  have hp : ∀ (s : Nat → ℝ) (i : Nat) (v : List Nat), vectors[i]? = some v →
      transformScores (transformScore Loss.logisticFunction marginalModel) jointModel (Loss.row n s) i v =
        .ok (calibratedJointOf n marginalModel jointModel vectors s i) :=
    fun s i v h => (joint_spec_partial hm hj hz s h (hv v (List.mem_of_getElem? h))).1
  refine ⟨predict_spec hf hr hc hh (marginalized_transforms ha hp hnd hlt) hs, fun s c => ?_⟩
  have hnn : ∀ i < vectors.length, 0 ≤ calibratedJointOf n marginalModel jointModel vectors s i := fun i hi =>
    (joint_spec_partial hm hj hz s (List.getElem?_eq_getElem hi) (hv _ (List.getElem_mem hi))).2.1
  exact (marginalized_spec (probabilities := Loss.row n s) (n := n) (by simp [Loss.row]) ha (hp s) hnd hlt).2.2 hnn c

/-! ### Examples -/

/-- Two threads process one example each: the second example is processed by the first thread, which is interrupted after it has obtained the scores. -/
def interleaved {σ : Type} : Schedule σ := fun task =>
  ((task 1).take 1).map (fun f => (1, f)) ++ ((task 0).map (fun f => (0, f)) ++ ((task 1).drop 1).map (fun f => (1, f)))

theorem interleaved_ok {σ : Type} : (interleaved (σ := σ)).Ok 2 := by
  intro task
  refine ⟨[[1], [0]], ((task 1).take 1).map (fun f => (0, 1, f)) ++ ((task 0).map (fun f => (1, 0, f)) ++ ((task 1).drop 1).map (fun f => (0, 1, f))),
    by decide, ⟨fun p hp => ?_, fun t examples ht => ?_⟩, ?_⟩
  · simp only [List.mem_append, List.mem_map] at hp
    rcases hp with ⟨_, _, rfl⟩ | ⟨_, _, rfl⟩ | ⟨_, _, rfl⟩ <;> simp
  · match t, ht with
    | 0, ht =>
      cases ht
      rw [List.filter_append, List.filter_append, List.filter_eq_self.2 (fun p hp => by
        obtain ⟨_, _, rfl⟩ := List.mem_map.1 hp
        simp), List.filter_eq_nil_iff.2 (fun p hp => by
        obtain ⟨_, _, rfl⟩ := List.mem_map.1 hp
        simp), List.filter_eq_self.2 (fun p hp => by
        obtain ⟨_, _, rfl⟩ := List.mem_map.1 hp
        simp),
        List.nil_append, List.map_append, List.map_map, List.map_map, List.flatMap_singleton]
      conv_rhs => rw [← List.take_append_drop 1 (task 1), List.map_append]
      rfl
    | 1, ht =>
      cases ht
      rw [List.filter_append, List.filter_append, List.filter_eq_nil_iff.2 (fun p hp => by
        obtain ⟨_, _, rfl⟩ := List.mem_map.1 hp
        simp), List.filter_eq_self.2 (fun p hp => by
        obtain ⟨_, _, rfl⟩ := List.mem_map.1 hp
        simp), List.filter_eq_nil_iff.2 (fun p hp => by
        obtain ⟨_, _, rfl⟩ := List.mem_map.1 hp
        simp),
        List.nil_append, List.append_nil, List.map_map, List.flatMap_singleton]
      rfl
  · simp only [interleaved, List.map_append, List.map_map]
    rfl

/-- A model that consists of a default rule and two other rules. -/
def exampleModel : RuleList (Rule ℚ) :=
  [.addDefaultRule ⟨.empty, .complete [1, 2]⟩, .addRule ⟨.conjunctive (fun k => if k = .numericalLeq then [some (0, .float 2)] else []), .partial_ [(0, 5)]⟩,
    .addRule ⟨.conjunctive (fun k => if k = .numericalGr then [some (0, .float 2)] else []), .partial_ [(1, 5)]⟩].foldl RuleListCall.apply (RuleList.init true)

/-- A function that replaces the logistic function in computations. -/
def exampleFunction (x : ℚ) : ℚ := (x + 10) / 20

example : predict (.dense [[some 3], [some 1]]) exampleModel 2 (some (outputWise (transformScore exampleFunction .no))) interleaved 0 =
    .ok [[11 / 20, 17 / 20], [4 / 5, 3 / 5]] := by decide +kernel

example : predict (.csr 2 (some 0) [[(0, some 3)], [(1, some 7)]]) exampleModel 2 (some (outputWise (transformScore exampleFunction .no))) interleaved 0 =
    .ok [[11 / 20, 17 / 20], [4 / 5, 3 / 5]] := by decide +kernel

example : predict (.dense [[some 3], [some 1]]) exampleModel 2
    (some (outputWise (transformScore exampleFunction (.isotonic [[(11 / 20, 1 / 4)], [(17 / 20, 1 / 2)]])))) interleaved 0 =
    .ok [[1 / 4, 1 / 2], [2 / 3, 6 / 17]] := by decide +kernel

example : predict (.dense [[some 3], [some 1]]) exampleModel 2
    (some (marginalized (transformScores (transformScore exampleFunction .no) .no) [[0], [0, 1]] [0, 0])) interleaved 0 =
    .ok [[1, 17 / 20], [1, 3 / 5]] := by decide +kernel

example : (do
    let p ← Incremental.applyAll (.dense [[some 3], [some 1]]) (some (outputWise (transformScore exampleFunction .no))) [(1, interleaved), (1, interleaved)]
      (Incremental.create exampleModel 0 2 2 true (fun _ => []) (fun _ => [7, 7]))
    return (p.result, p.getNumNext) : Res _) = .ok ([[11 / 20, 3 / 5], [4 / 5, 3 / 5]], 1) := by decide +kernel

example : predict (.dense [[some 3], [some 1]]) exampleModel 2 (some (outputWise (transformScore exampleFunction .no))) interleaved 2 =
    .ok [[11 / 20, 3 / 5], [4 / 5, 3 / 5]] := by decide +kernel

/-- The hypotheses about features and calibration models can be met. -/
example : (Features.csr 2 (some 0) [[(0, some 3)], [(1, some 7)]]).Ok ∧ (CalibrationModel.isotonic [[((1 / 2 : ℝ), (1 / 4 : ℝ)), (3 / 4, 1)]]).Ok 1 ∧
    (CalibrationModel.isotonic [[((1 / 2 : ℝ), (1 / 4 : ℝ)), (3 / 4, 1)]]).Positive := by
  refine ⟨by simp [Features.Ok], ⟨by simp, fun bins hb => ?_⟩, fun bins hb b hbb => ?_⟩
  · rw [List.mem_singleton] at hb
    subst hb
    exact ⟨by simp, by norm_num, by norm_num, by norm_num⟩
  · rw [List.mem_singleton] at hb
    subst hb
    rcases List.mem_cons.1 hbb with rfl | hbb
    · norm_num
    · rw [List.mem_singleton] at hbb
      subst hbb
      norm_num

/-- **Probabilities that are not numbers.** Isotonic models may map scores to a marginal probability of zero. Consequently, the joint probability of a label vector is zero.
If the first threshold of the joint model is zero as well, which is the case if such a joint probability has been encountered when it was fitted, calibrating the joint
probability divides zero by zero. All hypotheses of `predict_marginalized_partial` but `hz` are met. -/
theorem predict_marginalized_nan :
    let marginalModel : CalibrationModel ℝ := .isotonic [[(1 / 2, 0)]]
    let jointModel : CalibrationModel ℝ := .isotonic [[(0, 0)]]
    marginalModel.Ok 1 ∧ jointModel.Ok 1 ∧
      predict (.dense [[]]) (RuleList.init true) 1
        (some (marginalized (transformScores (transformScore Loss.logisticFunction marginalModel) jointModel) [[0]] [0]))
        (fun task => (task 0).map (fun f => (0, f))) 0 = .error .divByZero := by
  intro marginalModel jointModel
  have h1 : marginalModel.Ok 1 := ⟨by simp, fun bins hb => by
    rw [List.mem_singleton] at hb
    subst hb
    exact ⟨by simp, by simp, by simp, by simp⟩⟩
  have h2 : jointModel.Ok 1 := ⟨by simp, fun bins hb => by
    rw [List.mem_singleton] at hb
    subst hb
    exact ⟨by simp, by simp, by simp, by simp⟩⟩
  refine ⟨h1, h2, ?_⟩
  have hl : Loss.logisticFunction (0 : ℝ) = 1 / 2 := by
    rw [Loss.logisticFunction_eq, Real.exp_zero]
    norm_num
  have hm : marginalOf marginalModel 0 0 = 0 := by
    have h3 := (calibrate_threshold (bins := [((1 / 2 : ℝ), (0 : ℝ))]) ⟨by simp, by simp, by simp, by simp⟩).1 (1 / 2, 0) (by simp) (by norm_num) (by norm_num)
    simp only [marginalOf, transformScore, marginalModel, CalibrationModel.calibrate, hl]
    rw [readAt_of_lt (by simp), ok_bind]
    simp only [List.getElem_cons_zero]
    rw [h3]
  have hj : transformScores (transformScore Loss.logisticFunction marginalModel) jointModel [0] 0 [0] = .error .divByZero := by
    have h3 := transformScores_ok (m := marginalOf marginalModel) (fun c hc x => ((marginal_spec h1 hc).1 x).1) jointModel (fun _ => 0) 0 (labels := [0])
      (by simp)
    have h4 : (Loss.row 1 (fun _ => (0 : ℝ))) = [0] := rfl
    rw [h4] at h3
    rw [h3]
    have h5 : independent 1 (fun c => marginalOf marginalModel c 0) (fun c => c ∈ [0]) = 0 := by
      simp [independent, hm]
    rw [h5]
    simp only [jointModel, CalibrationModel.calibrate]
    rw [readAt_of_lt (by simp), ok_bind]
    exact calibrate_zero_nan 0 []
  have hrows : (RuleList.init true : RuleList (Rule ℝ)).usedToList 0 = .ok [] := rfl
  simp only [predict]
  rw [hrows, ok_bind]
  simp only [predictForExample, Features.numRows, List.map_cons, List.map_nil, List.length_singleton, List.replicate, execute]
  rw [readAt_of_lt (by simp), ok_bind]
  simp only [Features.applyRules, List.getElem_cons_zero]
  rw [readAt_of_lt (by simp), ok_bind]
  simp only [applyRulesDense, List.foldlM_nil, pure_eq_ok, ok_bind]
  rw [writeAt_of_lt (by simp), ok_bind, readAt_of_lt (by simp), ok_bind]
  simp only [List.set_cons_zero, List.getElem_cons_zero, marginalized, jointProbabilities]
  simp only [loop, List.length_singleton, loopFrom_succ]
  rw [readAt_of_lt (by simp), ok_bind]
  simp only [List.getElem_cons_zero]
  rw [hj]
  rfl

end MLRL.Probability
