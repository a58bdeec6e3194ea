import Verif.Lemma.Stopping

/-!
# C02–C05, C57: stopping criteria, pruning of the model and termination of the training loop
-/

namespace MLRL.Stopping

open Spec

section

variable {K : Type _} [Field K] [LinearOrder K] [IsStrictOrderedRing K]

/-- The parameters are such as the setters of `PrePruningConfig` document them, and `32 bit` arithmetic does not overflow. -/
structure ValidPre (q : PreParams K) : Prop where
  numPast : 1 ≤ q.numPast
  numCurrent : 1 ≤ q.numCurrent
  updateInterval : 1 ≤ q.updateInterval
  stopInterval : 1 ≤ q.stopInterval
  noOverflow : (q.numPast + q.numCurrent) * q.updateInterval < 2 ^ 32
  offset : q.offset = q.minRules - (q.numPast + q.numCurrent) * q.updateInterval

/-- **C02.** Pre-pruning (constructed with an initialised flag `removeUnusedRules`) is asked with an arbitrary history of
(rule count, score) pairs. No call exhibits undefined behaviour, and the `i`-th call

* reports nothing (`{}`: no stop, no number of used rules) unless `Fires` holds, i.e. unless the model is assessed, both
  windows are completely filled with previous scores and the relative improvement of the recent over the past window is
  below the minimum,
* reports nothing if an earlier call has fired,
* otherwise, if it is the first that fires, requests to stop iff unused rules should be removed, and reports the first rule
  count with the lowest score among all assessments since the windows have been filled. -/
theorem prePruning_history (q : PreParams K) (hq : ValidPre q) (history : List (Nat × K)) :
    ∃ rs p', runTests (fun p x => PrePruning.test p x.1 x.2)
        (PrePruning.init q.aggregation (some q.removeUnusedRules) q.minRules q.updateInterval q.stopInterval
          q.numPast q.numCurrent q.minImprovement) history = .ok (rs, p') ∧
      rs.length = history.length ∧
      ∀ (i : Nat) (x : Nat × K) (r : Result), history[i]? = some x → rs[i]? = some r →
        (¬ q.Fires (history.take i) x.1 → r = {}) ∧
        ((∃ j y, j < i ∧ history[j]? = some y ∧ q.Fires (history.take j) y.1) → r = {}) ∧
        (q.Fires (history.take i) x.1 → (∀ j y, j < i → history[j]? = some y → ¬ q.Fires (history.take j) y.1) →
          ∃ b, r = { stop := q.removeUnusedRules, numUsedRules := b.1 } ∧
            IsFirstMin ((q.assessments (history.take (i + 1))).drop (q.numPast + q.numCurrent)) b) := by
  obtain ⟨rs, p', h1, h2, h3⟩ := PreInv.run hq.updateInterval hq.stopInterval history [] _
    (preInv_init hq.numPast hq.numCurrent hq.noOverflow hq.offset) (by simp)
  refine ⟨rs, p', h1, h2, ?_⟩
  intro i x r hx hr
  have := h3 i x r hx hr
  simpa [PreResultSpec] using this

/-- **C02**, consequence for the training loop, where the rule counts are strictly increasing: whenever pre-pruning reports
a stop or a number of used rules, more than `minRules` rules are kept. -/
theorem prePruning_minRules (q : PreParams K) (hq : ValidPre q) (history : List (Nat × K))
    (hinc : (history.map Prod.fst).Pairwise (· < ·)) {rs : List Result} {p' : PrePruning K}
    (hrun : runTests (fun p x => PrePruning.test p x.1 x.2)
      (PrePruning.init q.aggregation (some q.removeUnusedRules) q.minRules q.updateInterval q.stopInterval
        q.numPast q.numCurrent q.minImprovement) history = .ok (rs, p'))
    {i : Nat} {x : Nat × K} {r : Result} (hx : history[i]? = some x) (hr : rs[i]? = some r) (hne : r ≠ {}) :
    q.minRules < r.numUsedRules ∧ r.numUsedRules ≤ x.1 := by
  obtain ⟨rs', p'', h1, _, h3⟩ := prePruning_history q hq history
  rw [h1] at hrun
  cases hrun
  obtain ⟨g1, g2, g3⟩ := h3 i x r hx hr
  have hf : q.Fires (history.take i) x.1 := by
    by_contra h; exact hne (g1 h)
  obtain ⟨b, rfl, k, hk, _⟩ := g3 hf (fun j y hj hy hfy => hne (g2 ⟨j, y, hj, hy, hfy⟩))
  rw [List.getElem?_drop] at hk
  have hsub : (q.assessments (history.take (i + 1))).Sublist (history.take (i + 1)) := List.filter_sublist
  have hpw : ((q.assessments (history.take (i + 1))).map Prod.fst).Pairwise (· < ·) :=
    hinc.sublist ((hsub.trans (List.take_sublist _ _)).map _)
  constructor
  · have := grid_lower_bound (u := q.updateInterval) (o := q.offset) _ q.offset hpw
      (by
        intro n hn
        obtain ⟨y, hy, rfl⟩ := List.mem_map.1 hn
        have := (List.mem_filter.1 hy).2
        simp only [PreParams.assessed, Bool.and_eq_true, decide_eq_true_eq] at this
        exact this.2)
      (by
        intro n hn
        obtain ⟨y, hy, rfl⟩ := List.mem_map.1 hn
        have := (List.mem_filter.1 hy).2
        simp only [PreParams.assessed, Bool.and_eq_true, decide_eq_true_eq] at this
        exact this.1)
      (q.numPast + q.numCurrent + k) b.1 (by rw [List.getElem?_map, hk]; rfl)
    have h5 := hq.offset
    rw [Nat.add_mul] at this
    show q.minRules < b.1
    omega
  · show b.1 ≤ x.1
    have hb : b ∈ history.take (i + 1) := hsub.subset (List.mem_of_getElem? hk)
    obtain ⟨j, hj⟩ := List.mem_iff_getElem?.1 hb
    rw [List.getElem?_take] at hj
    split at hj
    · rename_i hlt
      have e1 : (history.map Prod.fst)[j]? = some b.1 := by rw [List.getElem?_map, hj]; rfl
      have e2 : (history.map Prod.fst)[i]? = some x.1 := by rw [List.getElem?_map, hx]; rfl
      rcases Nat.lt_or_ge j i with hlt' | hge
      · obtain ⟨a1, a2⟩ := List.getElem?_eq_some_iff.1 e1
        obtain ⟨a3, a4⟩ := List.getElem?_eq_some_iff.1 e2
        have := List.pairwise_iff_getElem.1 hinc j i a1 a3 hlt'
        omega
      · have : j = i := by omega
        subst this
        rw [e1] at e2
        simp at e2; omega
    · simp at hj

/-- Hypotheses can be met: window sizes 1 and 1, scores that stop improving after the fourth rule. -/
def examplePre : PreParams ℚ :=
  { aggregation := .mean, removeUnusedRules := true, minRules := 2, updateInterval := 1, stopInterval := 1, numPast := 1,
    numCurrent := 1, minImprovement := 1 / 10, offset := 0 }

example : ValidPre examplePre := ⟨by decide, by decide, by decide, by decide, by decide, rfl⟩

example : (runTests (fun p x => PrePruning.test p x.1 x.2)
    (PrePruning.init .mean (some true) 2 1 1 1 1 (1 / 10 : ℚ)) [(1, 8), (2, 4), (3, 2), (4, 2), (5, 3), (6, 1)]).map
      Prod.fst = .ok [{}, {}, {}, {}, { stop := true, numUsedRules := 3 }, {}] := by
  decide +kernel

/-- C02, negative part: the flag `removeUnusedRules` of the criteria that `PrePruningFactory` creates is never initialised,
whatever the user has configured. Hence the result of the first test that fires depends on an uninitialised value. -/
theorem prePruningFactory_uninitialised :
    ∃ (history : List (Nat × ℚ)), ∀ removeUnusedRules : Bool,
      runTests (fun p x => PrePruning.test p x.1 x.2)
        (PrePruningFactory.create (PrePruningFactory.init .mean removeUnusedRules 2 1 1 1 1 (1 / 10 : ℚ))) history
        matches .error .uninitialised :=
  ⟨[(1, 8), (2, 4), (3, 2), (4, 2), (5, 3)], by decide +kernel⟩

theorem sum_nonneg_of_forall {l : List K} (h : ∀ x ∈ l, (0 : K) ≤ x) : 0 ≤ l.sum := by
  induction l with
  | nil => simp
  | cons a l ih =>
    rw [List.sum_cons]
    exact add_nonneg (h a (by simp)) (ih (fun x hx => h x (List.mem_cons_of_mem _ hx)))

/-- A model with a perfect recent window is never considered to have converged: IEEE division by zero yields infinity or
NaN, and the criterion does not fire. -/
theorem perfect_window_never_fires (q : PreParams K) (before : List (Nat × K)) (n : Nat)
    (h : ∀ x ∈ (q.assessments before).map Prod.snd, (0 : K) ≤ x)
    (h0 : IsAggregate q.aggregation (q.recentWindow ((q.assessments before).map Prod.snd)) 0) : ¬ q.Fires before n := by
  rintro ⟨_, _, _, past, recent, h1, h2, h3⟩
  have hr : recent = 0 := h2.unique h0
  rcases h3 with ⟨_, h4⟩ | ⟨h4, _⟩
  · have hmem : ∀ x ∈ q.pastWindow ((q.assessments before).map Prod.snd), (0 : K) ≤ x := fun x hx =>
      h x (List.mem_of_mem_drop (List.mem_of_mem_take hx))
    have : 0 ≤ past := by
      cases hagg : q.aggregation with
      | min => rw [hagg] at h1; exact hmem past h1.1
      | max => rw [hagg] at h1; exact hmem past h1.1
      | mean =>
        rw [hagg] at h1
        rw [h1.2]
        exact div_nonneg (sum_nonneg_of_forall hmem) (Nat.cast_nonneg _)
    exact absurd h4 (not_lt.2 this)
  · exact h4 hr

/-- **C03.** Post-pruning is asked with an arbitrary history of (rule count, score) pairs. It never requests to stop, and
the number of used rules that results (each non-zero report replaces the previous one; `0` means that all rules are used)
is the first evaluated rule count with the lowest score, where a rule count is evaluated iff it is at least `minRules` and a
multiple of `interval`; it is `0` if nothing has been evaluated. -/
theorem postPruning_selects_best (minRules interval : Nat) (hm : 1 ≤ minRules) (hi : 1 ≤ interval)
    (history : List (Nat × K)) :
    ∃ rs p', runTests (fun p x => PostPruning.test p x.1 x.2) (PostPruning.init minRules interval) history =
        .ok (rs, p') ∧
      rs.length = history.length ∧ (∀ r ∈ rs, r.stop = false) ∧
      let evaluated := history.filter (fun x => decide (minRules ≤ x.1 ∧ x.1 % interval = 0))
      (evaluated = [] → lastNonZero (rs.map Result.numUsedRules) = 0) ∧
      (evaluated ≠ [] → ∃ best, IsFirstMin evaluated best ∧ lastNonZero (rs.map Result.numUsedRules) = best.1) := by
  obtain ⟨rs, p', bn, h1, h2, h3, h4, h5⟩ := post_run (PostPruning.init (K := K) minRules interval) hi hm history []
    (PostPruning.init minRules interval) rfl rfl none (Or.inl ⟨rfl, rfl, rfl⟩)
  rw [List.nil_append] at h4
  have h5' : bn = (((rs.map Result.numUsedRules).filter (· ≠ 0)).getLast?) := by
    rw [h5]; cases (((rs.map Result.numUsedRules).filter (· ≠ 0)).getLast?) <;> rfl
  refine ⟨rs, p', h1, h2, h3, ?_, ?_⟩
  · intro he
    rcases h4 with ⟨_, _, e⟩ | ⟨b, ⟨i, e, _⟩, _, _⟩
    · rw [lastNonZero, ← h5', e]; rfl
    · have he' : history.filter (fun x => decide ((PostPruning.init (K := K) minRules interval).minRules ≤ x.1 ∧
          x.1 % (PostPruning.init (K := K) minRules interval).interval = 0)) = [] := he
      rw [he'] at e; simp at e
  · intro he
    rcases h4 with ⟨e, _, _⟩ | ⟨b, e1, _, e2⟩
    · exact absurd e he
    · exact ⟨b, e1, by rw [lastNonZero, ← h5', e2]; rfl⟩

example : (runTests (fun p x => PostPruning.test p x.1 x.2)
    (PostPruning.init 2 2 : PostPruning ℚ) [(1, 1), (2, 8), (3, 2), (4, 7), (5, 0), (6, 7)]).map
      (fun p => lastNonZero (p.1.map Result.numUsedRules)) = .ok 4 := by
  decide +kernel

end

/-! ### combination of criteria -/

/-- **C04.** Testing a list of criteria consults each of them exactly once, in order and independently of what the others
report. The combination demands to stop iff at least one of them does, and the number of used rules is the last non-zero one
that has been reported (`0`, i.e. "no statement", if there is none). -/
theorem listTest_spec {σ S : Type _} (s : S) (numRules : Nat) (cs : List (Criterion σ S))
    (calls : List (Result × Criterion σ S))
    (hcalls : List.Forall₂ (fun c p => c.call s numRules = .ok p) cs calls) :
    ∃ result, listTest cs s numRules = .ok (result, calls.map Prod.snd) ∧
      (result.stop = true ↔ ∃ p ∈ calls, p.1.stop = true) ∧
      result.numUsedRules = lastNonZero (calls.map (fun p => p.1.numUsedRules)) := by
  have key : ∀ (cs : List (Criterion σ S)) (calls : List (Result × Criterion σ S)) (acc : Result),
      List.Forall₂ (fun c p => c.call s numRules = .ok p) cs calls →
      ∃ result, listTestLoop s numRules cs acc = .ok (result, calls.map Prod.snd) ∧
        (result.stop = true ↔ acc.stop = true ∨ ∃ p ∈ calls, p.1.stop = true) ∧
        result.numUsedRules =
          ((((calls.map (fun p => p.1.numUsedRules)).filter (· ≠ 0)).getLast?).getD acc.numUsedRules) := by
    intro cs calls acc h
    induction h generalizing acc with
    | nil => exact ⟨acc, rfl, by simp, by simp⟩
    | @cons c p cs calls h1 _ ih =>
      obtain ⟨r, c'⟩ := p
      obtain ⟨result, e1, e2, e3⟩ := ih (if r.numUsedRules ≠ 0 then
        { stop := acc.stop || r.stop, numUsedRules := r.numUsedRules } else { acc with stop := acc.stop || r.stop })
      refine ⟨result, ?_, ?_, ?_⟩
      · unfold listTestLoop
        rw [h1]
        simp only [ok_bind]
        rw [e1]
        rfl
      · rw [e2]
        by_cases h0 : r.numUsedRules = 0 <;> simp [h0, or_assoc]
      · rw [e3]
        by_cases h0 : r.numUsedRules = 0
        · simp [h0]
        · rw [List.map_cons, List.filter_cons_of_pos (by simpa using h0), List.getLast?_cons]
          simp [h0]
  obtain ⟨result, e1, e2, e3⟩ := key cs calls {} hcalls
  exact ⟨result, e1, by simpa using e2, e3⟩

/-- If a criterion in the list exhibits undefined behaviour, then so does the list; otherwise the list returns a result. -/
theorem listTest_ok_iff {σ S : Type _} (s : S) (numRules : Nat) (cs : List (Criterion σ S)) :
    (∃ p, listTest cs s numRules = .ok p) ↔ ∀ c ∈ cs, ∃ p, c.call s numRules = .ok p := by
  have key : ∀ (cs : List (Criterion σ S)) (acc : Result),
      (∃ p, listTestLoop s numRules cs acc = .ok p) → ∀ c ∈ cs, ∃ p, c.call s numRules = .ok p := by
    intro cs
    induction cs with
    | nil => intro _ _; simp
    | cons c cs ih =>
      intro acc ⟨p, hp⟩
      unfold listTestLoop at hp
      cases hc : c.call s numRules with
      | error e => rw [hc, error_bind] at hp; cases hp
      | ok q =>
        rw [hc, ok_bind] at hp
        simp only at hp
        intro d hd
        rcases List.mem_cons.1 hd with rfl | hd
        · exact ⟨q, hc⟩
        · refine ih (if q.1.numUsedRules ≠ 0 then
            { stop := acc.stop || q.1.stop, numUsedRules := q.1.numUsedRules }
            else { acc with stop := acc.stop || q.1.stop }) ?_ d hd
          match hl : listTestLoop s numRules cs (if q.1.numUsedRules ≠ 0 then
            { stop := acc.stop || q.1.stop, numUsedRules := q.1.numUsedRules }
            else { acc with stop := acc.stop || q.1.stop }) with
          | .ok p => exact ⟨p, rfl⟩
          | .error e =>
            rw [hl, error_bind] at hp
            cases hp
  constructor
  · exact key cs {}
  · intro h
    have : ∃ calls, List.Forall₂ (fun c p => c.call s numRules = .ok p) cs calls := by
      clear key
      induction cs with
      | nil => exact ⟨[], .nil⟩
      | cons c cs ih =>
        obtain ⟨p, hp⟩ := h c (by simp)
        obtain ⟨ps, hps⟩ := ih (fun d hd => h d (List.mem_cons_of_mem _ hd))
        exact ⟨p :: ps, .cons hp hps⟩
    obtain ⟨calls, hc⟩ := this
    obtain ⟨r, hr, _⟩ := listTest_spec s numRules cs calls hc
    exact ⟨_, hr⟩

/-- Criteria for the examples: report a fixed result. -/
def fixedCriterion (r : Result) : Criterion Unit Unit := { state := (), test := fun st _ _ => .ok (r, st) }

example : (listTest [fixedCriterion {}, fixedCriterion { stop := true, numUsedRules := 3 },
    fixedCriterion { numUsedRules := 5 }, fixedCriterion {}] () 7).map Prod.fst =
    .ok { stop := true, numUsedRules := 5 } := rfl

/-- **C57.** The time stopping criterion is asked at the times `t, ts` (clock readings in nanoseconds). The first test starts
the timer and never stops; each later one stops iff at least `timeLimit` seconds have passed since the first test. -/
theorem timeStopping_spec (timeLimit : Nat) (created : Nat) (t : Nat) (ts : List Nat) :
    ∃ st', runTests (fun st now => .ok (timeTest timeLimit st now)) { startTime := created, timerStarted := false } (t :: ts) =
      .ok ({} :: ts.map (fun now => { stop := decide (timeLimit * ticksPerSecond ≤ now - t) }), st') := by
  have key : ∀ ts : List Nat, runTests (fun st now => .ok (timeTest timeLimit st now))
      { startTime := t, timerStarted := true } ts =
      .ok (ts.map (fun now => { stop := decide (timeLimit * ticksPerSecond ≤ now - t) }),
        { startTime := t, timerStarted := true }) := by
    intro ts
    induction ts with
    | nil => rfl
    | cons x xs ih =>
      refine runTests_cons xs ?_ ih
      have h : (x - t) / ticksPerSecond ≥ timeLimit ↔ timeLimit * ticksPerSecond ≤ x - t := by
        unfold ticksPerSecond
        exact Nat.le_div_iff_mul_le (by decide)
      unfold timeTest
      by_cases hx : timeLimit * ticksPerSecond ≤ x - t
      · have := h.2 hx
        simp [hx, this]
      · have : ¬ ((x - t) / ticksPerSecond ≥ timeLimit) := fun h' => hx (h.1 h')
        simp [hx, this]
  exact ⟨_, runTests_cons ts rfl (key ts)⟩

example : (runTests (fun st now => .ok (timeTest 2 st now)) { startTime := 0, timerStarted := false }
    [5000000000, 6999999999, 7000000000]).map Prod.fst = .ok [{}, {}, { stop := true }] := rfl

/-! ### the training loop -/

/-- The criterion `SizeStoppingCriterion` with the given limit. -/
def IsSizeCriterion {σ S : Type _} (maxRules : Nat) (c : Criterion σ S) : Prop :=
  ∀ st s n, c.test st s n = .ok (sizeTest maxRules n, st)

theorem Criterion.call_test {σ S : Type _} {c c' : Criterion σ S} {s : S} {n : Nat} {r : Result}
    (h : c.call s n = .ok (r, c')) : c'.test = c.test ∧ c.test c.state s n = .ok (r, c'.state) := by
  unfold Criterion.call at h
  cases ht : c.test c.state s n with
  | error e => rw [ht, error_bind] at h; cases h
  | ok p =>
    rw [ht, ok_bind] at h
    cases h
    exact ⟨rfl, rfl⟩

theorem listTest_forall₂ {σ S : Type _} {s : S} {n : Nat} {cs cs' : List (Criterion σ S)} {r : Result}
    (h : listTest cs s n = .ok (r, cs')) :
    ∃ calls, List.Forall₂ (fun c p => c.call s n = .ok p) cs calls ∧ cs' = calls.map Prod.snd ∧
      (r.stop = true ↔ ∃ p ∈ calls, p.1.stop = true) ∧
      r.numUsedRules = lastNonZero (calls.map (fun p => p.1.numUsedRules)) := by
  have h' := (listTest_ok_iff s n cs).1 ⟨_, h⟩
  have : ∃ calls, List.Forall₂ (fun c p => c.call s n = .ok p) cs calls := by
    clear h
    induction cs with
    | nil => exact ⟨[], .nil⟩
    | cons c cs ih =>
      obtain ⟨p, hp⟩ := h' c (by simp)
      obtain ⟨ps, hps⟩ := ih (fun d hd => h' d (List.mem_cons_of_mem _ hd))
      exact ⟨p :: ps, .cons hp hps⟩
  obtain ⟨calls, hc⟩ := this
  obtain ⟨r', hr, h2, h3⟩ := listTest_spec s n cs calls hc
  rw [hr] at h
  cases h
  exact ⟨calls, hc, rfl, h2, h3⟩

theorem forall₂_mem_left {α β : Type _} {R : α → β → Prop} {l : List α} {m : List β} (h : List.Forall₂ R l m) :
    ∀ a ∈ l, ∃ b ∈ m, R a b := by
  induction h with
  | nil => simp
  | cons hab _ ih =>
    intro a ha
    rcases List.mem_cons.1 ha with rfl | ha
    · exact ⟨_, by simp, hab⟩
    · obtain ⟨b, hb, hr⟩ := ih a ha
      exact ⟨b, List.mem_cons_of_mem _ hb, hr⟩

theorem forall₂_mem_right {α β : Type _} {R : α → β → Prop} {l : List α} {m : List β} (h : List.Forall₂ R l m) :
    ∀ b ∈ m, ∃ a ∈ l, R a b := by
  induction h with
  | nil => simp
  | cons hab _ ih =>
    intro b hb
    rcases List.mem_cons.1 hb with rfl | hb
    · exact ⟨_, by simp, hab⟩
    · obtain ⟨a, ha, hr⟩ := ih b hb
      exact ⟨a, List.mem_cons_of_mem _ ha, hr⟩

/-- A criterion reports stop in some state. -/
def CanStop {σ S : Type _} (c : Criterion σ S) : Prop := ∃ st s n r st', c.test st s n = .ok (r, st') ∧ r.stop = true

theorem induceLoop_size {σ E : Type _} (maxRules : Nat) (induce : E → Bool × E) (count : E → Nat)
    (hok : ∀ e e', induce e = (true, e') → count e' = count e + 1)
    (hfail : ∀ e e', induce e = (false, e') → count e' = count e) :
    ∀ (fuel : Nat) (cs : List (Criterion σ E)) (numRules used : Nat) (env : E),
      (∃ c ∈ cs, IsSizeCriterion maxRules c) → maxRules < fuel + numRules → 1 ≤ fuel → count env = numRules →
      ∃ res, induceLoop induce fuel cs numRules used env = some res ∧
        ∀ out, res = .ok out → out.numRules = count out.env ∧ out.numRules ≤ max maxRules numRules ∧
          (out.numRules < maxRules → out.reason = .stoppingCriterion →
            ∃ c ∈ cs, ¬ IsSizeCriterion maxRules c ∧ CanStop c) := by
  intro fuel
  induction fuel with
  | zero => intro cs numRules used env _ _ h; omega
  | succ fuel ih =>
    intro cs numRules used env hsize hfuel _ hcount
    unfold induceLoop
    cases hl : listTest cs env numRules with
    | error e => exact ⟨_, rfl, by intro out h; cases h⟩
    | ok p =>
      obtain ⟨result, cs'⟩ := p
      obtain ⟨calls, hf, rfl, hstop, _⟩ := listTest_forall₂ hl
      have hstopSize : maxRules ≤ numRules → result.stop = true := by
        intro hge
        obtain ⟨c, hc, hs⟩ := hsize
        obtain ⟨b, hb, hcb⟩ := forall₂_mem_left hf c hc
        obtain ⟨_, h2⟩ := Criterion.call_test (r := b.1) (c' := b.2) hcb
        rw [hs] at h2
        refine hstop.2 ⟨b, hb, ?_⟩
        cases b with
        | mk b1 b2 =>
          simp only [sizeTest, hge, ge_iff_le, if_true, Except.ok.injEq, Prod.mk.injEq] at h2
          rw [← h2.1]
      simp only
      cases hst : result.stop with
      | true =>
        refine ⟨_, rfl, ?_⟩
        intro out ho
        simp only [Except.ok.injEq] at ho
        subst ho
        refine ⟨hcount.symm, Nat.le_max_right _ _, ?_⟩
        intro hlt _
        obtain ⟨b, hb, hbs⟩ := hstop.1 hst
        obtain ⟨c, hc, hcb⟩ := forall₂_mem_right hf b hb
        obtain ⟨_, h2⟩ := Criterion.call_test (r := b.1) (c' := b.2) hcb
        refine ⟨c, hc, ?_, ⟨c.state, env, numRules, b.1, b.2.state, h2, hbs⟩⟩
        intro hs
        rw [hs] at h2
        simp only [sizeTest, ge_iff_le, Nat.not_le.2 hlt, if_false, Except.ok.injEq, Prod.mk.injEq] at h2
        rw [← h2.1] at hbs
        exact Bool.noConfusion hbs
      | false =>
        have hlt : numRules < maxRules := by
          by_contra hge
          rw [hstopSize (Nat.le_of_not_lt hge)] at hst
          exact Bool.noConfusion hst
        simp only [Bool.false_eq_true, if_false]
        cases hi : induce env with
        | mk ok env' =>
          cases ok with
          | false =>
            refine ⟨_, rfl, ?_⟩
            intro out ho
            simp only [Except.ok.injEq] at ho
            subst ho
            refine ⟨by rw [hfail env env' hi]; exact hcount.symm, Nat.le_max_right _ _, ?_⟩
            intro _ h; cases h
          | true =>
            have hsize' : ∃ c ∈ calls.map Prod.snd, IsSizeCriterion maxRules c := by
              obtain ⟨c, hc, hs⟩ := hsize
              obtain ⟨b, hb, hcb⟩ := forall₂_mem_left hf c hc
              obtain ⟨h1, _⟩ := Criterion.call_test (r := b.1) (c' := b.2) hcb
              exact ⟨b.2, List.mem_map.2 ⟨b, hb, rfl⟩, by unfold IsSizeCriterion; rw [h1]; exact hs⟩
            obtain ⟨res, e1, e2⟩ := ih (calls.map Prod.snd) (numRules + 1)
              (if result.numUsedRules ≠ 0 then result.numUsedRules else used) env' hsize' (by omega) (by omega)
              (by rw [hok env env' hi, hcount])
            refine ⟨res, e1, ?_⟩
            intro out ho
            obtain ⟨a1, a2, a3⟩ := e2 out ho
            refine ⟨a1, by omega, ?_⟩
            intro hlt' hr
            obtain ⟨c, hc, hns, hcs⟩ := a3 hlt' hr
            obtain ⟨b, hb, rfl⟩ := List.mem_map.1 hc
            obtain ⟨c0, hc0, hcb⟩ := forall₂_mem_right hf b hb
            obtain ⟨h1, _⟩ := Criterion.call_test (r := b.1) (c' := b.2) hcb
            refine ⟨c0, hc0, ?_, ?_⟩
            · unfold IsSizeCriterion at hns ⊢; rw [← h1]; exact hns
            · unfold CanStop at hcs ⊢; rw [← h1]; exact hcs

/-- **C05.** Let `count` be the number of rules of the model under construction: inducing the default rule turns an empty
model into one with one rule, successfully inducing a rule adds one, failing to do so adds none. If the criteria contain a
size criterion with limit `maxRules ≥ 1` – at any position, together with arbitrary other criteria – then the training loop
terminates (`maxRules + 1` iterations suffice), whatever the rule inducer does. Unless another criterion exhibits undefined
behaviour, the resulting model has at most `maxRules` rules (including the default rule), and it has fewer only if the
inducer has failed or if a criterion other than the size criterion is able to demand a stop. -/
theorem induceRules_size {σ E : Type _} (maxRules : Nat) (hmax : 1 ≤ maxRules) (induceDefault : E → E)
    (induce : E → Bool × E) (count : E → Nat) (env : E) (h0 : count env = 0)
    (hdefault : ∀ e, count e = 0 → count (induceDefault e) = 1)
    (hok : ∀ e e', induce e = (true, e') → count e' = count e + 1)
    (hfail : ∀ e e', induce e = (false, e') → count e' = count e)
    (useDefaultRule : Bool) (cs : List (Criterion σ E)) (hsize : ∃ c ∈ cs, IsSizeCriterion maxRules c)
    (fuel : Nat) (hfuel : maxRules < fuel) :
    ∃ res, induceRules induceDefault induce useDefaultRule fuel cs env = some res ∧
      ∀ out, res = .ok out → out.numRules = count out.env ∧ count out.env ≤ maxRules ∧
        (count out.env < maxRules → out.reason = .inducerFailed ∨
          ∃ c ∈ cs, ¬ IsSizeCriterion maxRules c ∧ CanStop c) := by
  have key : ∀ (n : Nat) (e : E), n ≤ 1 → count e = n → ∃ res, induceLoop induce fuel cs n 0 e = some res ∧
      ∀ out, res = .ok out → out.numRules = count out.env ∧ count out.env ≤ maxRules ∧
        (count out.env < maxRules → out.reason = .inducerFailed ∨
          ∃ c ∈ cs, ¬ IsSizeCriterion maxRules c ∧ CanStop c) := by
    intro n e hn he
    obtain ⟨res, h1, h2⟩ := induceLoop_size (σ := σ) maxRules induce count hok hfail fuel cs n 0 e hsize (by omega)
      (by omega) he
    refine ⟨res, h1, ?_⟩
    intro out ho
    obtain ⟨a1, a2, a3⟩ := h2 out ho
    refine ⟨a1, by omega, ?_⟩
    intro hlt
    cases hr : out.reason with
    | inducerFailed => left; rfl
    | stoppingCriterion => right; exact a3 (by omega) hr
  unfold induceRules
  cases useDefaultRule with
  | true => exact key 1 (induceDefault env) (Nat.le_refl _) (hdefault env h0)
  | false => exact key 0 env (by omega) h0

/-- An instance: the inducer always succeeds, the limit is 3, a default rule is used. -/
example : induceRules (E := Nat) (fun n => n + 1) (fun n => (true, n + 1)) true 10
    [{ state := (), test := fun st _ n => .ok (sizeTest 3 n, st) }] 0 =
    some (.ok { numRules := 3, numUsedRules := 0, env := 3, reason := .stoppingCriterion }) := rfl

/-- **C04**, consequence for the model: if there is an invariant `Inv` of the criteria's states that ensures that each of
them reports a number of used rules that does not exceed the current number of rules, then the number of used rules of the
final model does not exceed its number of rules. -/
theorem induceRules_used_le {σ E : Type _} (Inv : Criterion σ E → Nat → Prop)
    (hinv : ∀ c m n s r c', Inv c m → m ≤ n → c.call s n = .ok (r, c') → r.numUsedRules ≤ n ∧ Inv c' n)
    (induceDefault : E → E) (induce : E → Bool × E) (useDefaultRule : Bool) (fuel : Nat) (cs : List (Criterion σ E))
    (env : E) (hcs : ∀ c ∈ cs, Inv c 0) {out : Outcome E}
    (h : induceRules induceDefault induce useDefaultRule fuel cs env = some (.ok out)) :
    out.numUsedRules ≤ out.numRules := by
  have key : ∀ (fuel : Nat) (cs : List (Criterion σ E)) (m numRules used : Nat) (env : E), used ≤ numRules →
      m ≤ numRules → (∀ c ∈ cs, Inv c m) → induceLoop induce fuel cs numRules used env = some (.ok out) →
      out.numUsedRules ≤ out.numRules := by
    intro fuel
    induction fuel with
    | zero => intro cs m numRules used env _ _ _ h; simp [induceLoop] at h
    | succ fuel ih =>
      intro cs m numRules used env hu hm hI h
      unfold induceLoop at h
      cases hl : listTest cs env numRules with
      | error e => rw [hl] at h; simp at h
      | ok p =>
        obtain ⟨result, cs'⟩ := p
        obtain ⟨calls, hf, rfl, hstop, hused⟩ := listTest_forall₂ hl
        rw [hl] at h
        simp only at h
        have hle : (if result.numUsedRules ≠ 0 then result.numUsedRules else used) ≤ numRules := by
          split
          · rename_i hne
            rw [hused] at hne ⊢
            unfold lastNonZero at hne ⊢
            cases hlast : ((calls.map (fun p => p.1.numUsedRules)).filter (· ≠ 0)).getLast? with
            | none => simp
            | some v =>
              have := List.mem_of_getLast? hlast
              obtain ⟨b, hb, hv⟩ := List.mem_map.1 (List.mem_filter.1 this).1
              obtain ⟨c, hc, hcb⟩ := forall₂_mem_right hf b hb
              have := (hinv c m numRules env b.1 b.2 (hI c hc) hm hcb).1
              simp; omega
          · exact hu
        cases hst : result.stop with
        | true =>
          rw [hst] at h
          simp only [if_true, Option.some.injEq, Except.ok.injEq] at h
          rw [← h]; exact hle
        | false =>
          rw [hst] at h
          simp only [Bool.false_eq_true, if_false] at h
          cases hi : induce env with
          | mk ok env' =>
            rw [hi] at h
            cases ok with
            | false =>
              simp only [Option.some.injEq, Except.ok.injEq] at h
              rw [← h]; exact hle
            | true =>
              refine ih (calls.map Prod.snd) numRules (numRules + 1) _ env' (by omega) (by omega) ?_ h
              intro c hc
              obtain ⟨b, hb, rfl⟩ := List.mem_map.1 hc
              obtain ⟨c0, hc0, hcb⟩ := forall₂_mem_right hf b hb
              exact (hinv c0 m numRules env b.1 b.2 (hI c0 hc0) hm hcb).2
  exact key fuel cs 0 _ 0 _ (Nat.zero_le _) (Nat.zero_le _) hcs h

/-- Post-pruning meets the hypothesis of `induceRules_used_le` in every state. -/
theorem postPruning_used_le {K : Type _} [Field K] [LinearOrder K] {p p' : PostPruning K} {n : Nat} {s : K} {r : Result}
    (h : p.test n s = .ok (r, p')) : r.numUsedRules ≤ n := by
  unfold PostPruning.test at h
  split at h
  · split at h
    · cases h
    · split at h <;> cases h <;> simp
  · cases h; simp

/-- Pre-pruning meets the hypothesis of `induceRules_used_le`, the invariant being that the best rule count found so far
does not exceed the number of rules. -/
theorem prePruning_used_le {K : Type _} [Field K] [LinearOrder K] {p p' : PrePruning K} {m n : Nat} {s : K} {r : Result}
    (hinv : ∀ b, p.bestNumRules = some b → b ≤ m) (hmn : m ≤ n) (h : p.test n s = .ok (r, p')) :
    r.numUsedRules ≤ n ∧ ∀ b, p'.bestNumRules = some b → b ≤ n := by
  have hinv' : ∀ b, (p.updateBest n s).bestNumRules = some b → b ≤ n := by
    intro b hb
    unfold PrePruning.updateBest at hb
    split at hb
    · simp at hb; omega
    · have := hinv b hb; omega
  have hpush : ∀ (q q' : PrePruning K), q.pushScore s = .ok q' → q'.bestNumRules = q.bestNumRules := by
    intro q q' hq
    unfold PrePruning.pushScore at hq
    split at hq
    · cases hq
    · cases hq; rfl
    · rename_i rb v _
      cases hv : useInit v with
      | error e => rw [hv, error_bind] at hq; cases hq
      | ok v' =>
        rw [hv, ok_bind] at hq
        cases hp : q.pastBuffer.push v' with
        | error e => rw [hp, error_bind] at hq; cases hq
        | ok w => rw [hp, ok_bind] at hq; cases hq; rfl
  have hdec : ∀ (q : PrePruning K) (res : Result × Bool), q.decide n = .ok res →
      (∀ b, q.bestNumRules = some b → b ≤ n) → res.1.numUsedRules ≤ n := by
    intro q res hq hb
    unfold PrePruning.decide at hq
    cases h1 : modAt n q.stopInterval with
    | error e => rw [h1, error_bind] at hq; cases hq
    | ok k =>
      rw [h1, ok_bind] at hq
      split at hq
      · cases h2 : aggregateBuffer q.aggregation q.pastBuffer with
        | error e => rw [h2, error_bind] at hq; cases hq
        | ok a =>
          rw [h2, ok_bind] at hq
          cases h3 : aggregateBuffer q.aggregation q.recentBuffer with
          | error e => rw [h3, error_bind] at hq; cases hq
          | ok a' =>
            rw [h3, ok_bind] at hq
            split at hq
            · cases h4 : useInit q.removeUnusedRules with
              | error e => rw [h4, error_bind] at hq; cases hq
              | ok st =>
                rw [h4, ok_bind] at hq
                cases h5 : q.bestNumRules with
                | none => rw [h5] at hq; cases hq
                | some bn =>
                  rw [h5] at hq
                  cases hq
                  exact hb bn h5
            · cases hq; exact Nat.zero_le _
      · cases hq; exact Nat.zero_le _
  unfold PrePruning.test at h
  split at h
  · cases h; exact ⟨Nat.zero_le _, fun b hb => le_trans (hinv b hb) hmn⟩
  · split at h
    · split at h
      · cases h
      · split at h
        · unfold PrePruning.assess at h
          simp only at h
          split at h
          · cases h
          · rename_i res stopped hres
            cases hps : PrePruning.pushScore { p.updateBest n s with stopped := stopped } s with
            | error e => rw [hps, error_bind] at h; cases h
            | ok q =>
              rw [hps, ok_bind] at h
              cases h
              refine ⟨?_, ?_⟩
              · split at hres
                · exact hdec _ _ hres hinv'
                · cases hres; exact Nat.zero_le _
              · rw [hpush _ _ hps]; exact hinv'
        · cases h; exact ⟨Nat.zero_le _, fun b hb => le_trans (hinv b hb) hmn⟩
    · cases h; exact ⟨Nat.zero_le _, fun b hb => le_trans (hinv b hb) hmn⟩

end MLRL.Stopping
