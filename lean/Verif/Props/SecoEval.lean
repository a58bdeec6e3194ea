import Verif.Lemma.SecoEval
import Verif.Props.Heuristic
import Verif.Props.LiftFunction

/-!
# C47: rule evaluation in the separate-and-conquer library
-/

namespace MLRL.Seco

variable {K : Type} [Field K] [LinearOrder K] [IsStrictOrderedRing K]

/-- The evaluation of heads, for any lift function with the properties that are needed by the search. -/
theorem partialScores_best {h : Heuristic K} {f : LiftFunction K} {sort : List (SortedEntry K) → List (SortedEntry K)} {majority indices : List Nat}
    {total covered : List (Confusion K)} {q : Nat → K} (hin : EvalInput h majority indices total covered q) (hsort : SortsDescending sort)
    (hne : indices ≠ []) (hfirst : ∃ v, f.calculateLift 1 = some v)
    (hmax : ∀ sorted : List (SortedEntry K), sorted.length = indices.length → sorted.Pairwise (fun a b => b.quality ≤ a.quality) →
      (∀ e ∈ sorted, ∃ label ∈ indices, e.quality = q label) → ∀ b w, 1 ≤ b → (b < sorted.length ∨ b = 1) → b ≤ sorted.length →
      liftedQuality f (prefixSum sorted b) b = some w →
      (∀ j v, 1 ≤ j → j < b → liftedQuality f (prefixSum sorted j) j = some v → v < w) →
      ∃ m, f.getMaxLift b = .ok (some m) ∧ ∀ k u, b ≤ k → k ≤ sorted.length → f.calculateLift k = some u → u ≤ m)
    (hbreak : ∀ sorted : List (SortedEntry K), sorted.length = indices.length → sorted.Pairwise (fun a b => b.quality ≤ a.quality) →
      (∀ e ∈ sorted, ∃ label ∈ indices, e.quality = q label) → ∀ p best m v, 1 ≤ p → p < sorted.length →
      (∀ k w, 1 ≤ k → k ≤ p → liftedQuality f (prefixSum sorted k) k = some w → w ≤ best) →
      (∀ k u, p ≤ k → k ≤ sorted.length → f.calculateLift k = some u → u ≤ m) → f.calculateLift p = some v →
      prefixAvg sorted p * v * m < best → ∀ k u, p < k → k ≤ sorted.length → f.calculateLift k = some u → prefixAvg sorted k * u ≤ best)
    (hneg : (∃ v, f.calculateLift 1 = some v ∧ 0 ≤ v ∧ ∀ label ∈ indices, 0 ≤ q label) ∨
      ∀ k u, 1 ≤ k → k ≤ indices.length → f.calculateLift k = some u → 0 ≤ u) :
    ∃ r best, partialScores h f sort majority indices total covered = .ok r ∧ r.quality = some best ∧ r.indices.Nodup ∧
      r.values = r.indices.map (inverseMajority majority) ∧ IsBestHead q f.calculateLift indices.toFinset best r.indices.toFinset := by
  set entries : List (SortedEntry K) :=
    indices.map (fun label => { index := label, quality := q label, score := inverseMajority majority label }) with hentries
  obtain ⟨hperm, hdesc⟩ := hsort entries
  set sorted := sort entries with hsorted
  have hlen : sorted.length = indices.length := by rw [hperm.length_eq, hentries, List.length_map]
  have hpos : 0 < indices.length := List.length_pos_iff.2 hne
  have hmem : ∀ e ∈ sorted, e.index ∈ indices ∧ e.quality = q e.index ∧ e.score = inverseMajority majority e.index := by
    intro e he
    obtain ⟨label, hl, rfl⟩ := List.mem_map.1 (hperm.mem_iff.1 he)
    exact ⟨hl, rfl, rfl⟩
  have hidx : (sorted.map SortedEntry.index).Perm indices := by
    have := hperm.map SortedEntry.index
    rwa [hentries, List.map_map, show (SortedEntry.index ∘ fun label : Nat =>
      ({ index := label, quality := q label, score := inverseMajority majority label } : SortedEntry K)) = id from rfl, List.map_id] at this
  have hnd : (sorted.map SortedEntry.index).Nodup := hidx.nodup_iff.2 (hin.indicesSorted.imp (fun h => Nat.ne_of_lt h))
  have hset : (sorted.map SortedEntry.index).toFinset = indices.toFinset := List.toFinset_eq_of_perm _ _ hidx
  have hval : ∀ e ∈ sorted, ∃ label ∈ indices, e.quality = q label := fun e he => ⟨e.index, (hmem e he).1, (hmem e he).2.1⟩
  obtain ⟨s, best, hs, g1, g2, g3, g4, g5⟩ := partialSearch_ok (f := f) (sorted := sorted) (by omega) hfirst (hmax sorted hlen hdesc hval)
    (hbreak sorted hlen hdesc hval)
  refine ⟨⟨s.bestQuality, (sorted.take s.bestNumPredictions).map SortedEntry.index, (sorted.take s.bestNumPredictions).map SortedEntry.score⟩,
    best, ?_, g1, ?_, ?_, ?_⟩
  · unfold partialScores
    rw [partialEntries_ok hin, ok_bind, ← hentries, ← hsorted]
    dsimp only
    rw [← hlen, hs, ok_bind, output_ok g4, ok_bind, pure_eq_ok]
  · exact hnd.sublist ((List.take_sublist _ _).map _)
  · show (sorted.take s.bestNumPredictions).map SortedEntry.score = ((sorted.take s.bestNumPredictions).map SortedEntry.index).map _
    rw [List.map_map]
    exact List.map_congr_left fun e he => (hmem e (List.mem_of_mem_take he)).2.2
  · have hnd' : ((sorted.take s.bestNumPredictions).map SortedEntry.index).Nodup := hnd.sublist ((List.take_sublist _ _).map _)
    have hcard : ((sorted.take s.bestNumPredictions).map SortedEntry.index).toFinset.card = s.bestNumPredictions := by
      rw [List.toFinset_card_of_nodup hnd', List.length_map, List.length_take]
      omega
    constructor
    · rw [← Finset.card_pos, hcard]
      omega
    · intro label hl
      rw [List.mem_toFinset] at hl ⊢
      obtain ⟨e, he, rfl⟩ := List.mem_map.1 hl
      exact (hmem e (List.mem_of_mem_take he)).1
    · show ∃ l, f.calculateLift ((sorted.take s.bestNumPredictions).map SortedEntry.index).toFinset.card = some l ∧ _
      rw [hcard]
      unfold liftedQuality at g2
      cases hl : f.calculateLift s.bestNumPredictions with
      | none => rw [hl] at g2; exact absurd g2 (by simp)
      | some l =>
        rw [hl] at g2
        refine ⟨l, rfl, ?_⟩
        unfold headQuality
        rw [hcard, List.sum_toFinset _ hnd', List.map_map]
        have : ((sorted.take s.bestNumPredictions).map (q ∘ SortedEntry.index)).sum = prefixSum sorted s.bestNumPredictions := by
          unfold prefixSum
          congr 1
          exact List.map_congr_left fun e he => ((hmem e (List.mem_of_mem_take he)).2.1).symm
        rw [this]
        exact (Option.some.inj g2).symm
    · intro other hsub hnonempty l hl
      have hk : 1 ≤ other.card := Finset.card_pos.2 hnonempty
      have hk' : other.card ≤ sorted.length := by
        rw [hlen]
        refine (Finset.card_le_card hsub).trans ?_
        exact List.toFinset_card_le _
      have hle := sum_le_prefixSum hdesc hnd (fun e he => (hmem e he).2.1) other (by rw [hset]; exact hsub)
      have hc : (0 : K) < (other.card : K) := by exact_mod_cast hk
      have hv := g5 other.card _ hk hk' (by unfold liftedQuality; rw [hl]; rfl)
      unfold headQuality
      by_cases hl0 : 0 ≤ l
      · refine le_trans (mul_le_mul_of_nonneg_right ?_ hl0) hv
        exact div_le_div_of_nonneg_right hle hc.le
      · rcases hneg with ⟨v, hv1, hv0, hq⟩ | hneg
        · have h0 : 0 ≤ best := by
            have := g5 1 (prefixAvg sorted 1 * v) (le_refl _) (by omega) (by unfold liftedQuality; rw [hv1]; rfl)
            refine le_trans (mul_nonneg (prefixAvg_nonneg ?_ 1) hv0) this
            intro e he
            obtain ⟨label, hl, e'⟩ := hval e he
            rw [e']
            exact hq label hl
          refine le_trans (mul_nonpos_of_nonneg_of_nonpos ?_ (not_le.1 hl0).le) h0
          refine div_nonneg (Finset.sum_nonneg fun label hlabel => ?_) hc.le
          exact hq label (List.mem_toFinset.1 (hsub hlabel))
        · exact absurd (hneg _ _ hk (hlen ▸ hk') hl) hl0

theorem lifted_eq {f : LiftFunction K} {sorted : List (SortedEntry K)} {k : Nat} {l : K} (h : f.calculateLift k = some l) :
    liftedQuality f (prefixSum sorted k) k = some (prefixAvg sorted k * l) := by
  unfold liftedQuality
  rw [h]
  rfl

/-- **C47**: the head that is provided has the maximum lifted quality among all non-empty heads, its predictions are the inverse of the majority labels,
and there is no undefined behaviour. The qualities must not be negative, the condition for the lift function is met by all lift functions that can be
configured (see below). -/
theorem partial_optimal {h : Heuristic K} {f : LiftFunction K} {sort : List (SortedEntry K) → List (SortedEntry K)} {majority indices : List Nat}
    {total covered : List (Confusion K)} {q : Nat → K} (hin : EvalInput h majority indices total covered q) (hsort : SortsDescending sort)
    (hne : indices ≠ []) (hq : ∀ label ∈ indices, 0 ≤ q label) (hf : LiftSound indices.length f) :
    ∃ r best, partialScores h f sort majority indices total covered = .ok r ∧ r.quality = some best ∧ r.indices.Nodup ∧
      r.values = r.indices.map (inverseMajority majority) ∧ IsBestHead q f.calculateLift indices.toFinset best r.indices.toFinset := by
  obtain ⟨l1, hl1, hl1'⟩ := hf.first
  have hnn : ∀ sorted : List (SortedEntry K), (∀ e ∈ sorted, ∃ label ∈ indices, e.quality = q label) → ∀ e ∈ sorted, 0 ≤ e.quality := by
    intro sorted hval e he
    obtain ⟨label, hl, e'⟩ := hval e he
    rw [e']
    exact hq label hl
  refine partialScores_best hin hsort hne ⟨l1, hl1⟩ ?_ ?_ (Or.inl ⟨l1, hl1, hl1', hq⟩)
  · intro sorted hlen hdesc hval b w hb hb' hbl hw hrec
    rw [hlen] at hb' ⊢
    refine hf.max b hb hb' ?_
    cases hu : f.calculateLift b with
    | none => simp [liftedQuality, hu] at hw
    | some u =>
    refine ⟨u, hu, fun j v hj hjb hjv => ?_⟩
    have hw' := lifted_eq (sorted := sorted) hu
    rw [hw] at hw'
    have h1 := hrec j _ hj hjb (lifted_eq hjv)
    rw [Option.some.inj hw'] at h1
    have h2 : prefixAvg sorted b ≤ prefixAvg sorted j := prefixAvg_anti hdesc hj hjb.le hbl
    have h3 := prefixAvg_nonneg (hnn sorted hval) b
    by_contra hc
    have hc' : u ≤ v := not_lt.1 hc
    by_cases hv0 : 0 ≤ v
    · have h4 := mul_le_mul_of_nonneg_left hc' h3
      have h5 := mul_le_mul_of_nonneg_right h2 hv0
      linarith
    · -- a negative lift is not rewarded more than the one of a single label
      have hu0 : u ≤ 0 := hc'.trans (not_le.1 hv0).le
      have h4 := hrec 1 _ (le_refl _) (by omega) (lifted_eq hl1)
      rw [Option.some.inj hw'] at h4
      have h5 := mul_nonneg (prefixAvg_nonneg (hnn sorted hval) 1) hl1'
      have h6 := mul_nonpos_of_nonneg_of_nonpos h3 hu0
      linarith
  · intro sorted hlen hdesc hval p best m v hp hpn hbest hm hv hlt k u hpk hkn hu
    have hnp := prefixAvg_nonneg (hnn sorted hval) p
    have hnk := prefixAvg_nonneg (hnn sorted hval) k
    have h0 : 0 ≤ best := by
      have := hbest 1 _ (le_refl _) hp (lifted_eq hl1)
      exact (mul_nonneg (prefixAvg_nonneg (hnn sorted hval) 1) hl1').trans this
    by_cases hu0 : u ≤ 0
    · exact (mul_nonpos_of_nonneg_of_nonpos hnk hu0).trans h0
    · have hu0' : 0 ≤ u := (not_le.1 hu0).le
      rcases hf.one p v hp (by omega) hv with h1 | ⟨j, w, hj, hjp, hjw, hjmax⟩
      · have hum := hm k u hpk.le hkn hu
        have hm0 : 0 ≤ m := hu0'.trans hum
        have a1 := mul_le_mul_of_nonneg_right (prefixAvg_anti hdesc hp hpk.le hkn) hu0'
        have a2 := mul_le_mul_of_nonneg_left hum hnp
        have a3 : prefixAvg sorted p * m ≤ prefixAvg sorted p * v * m := by
          have := mul_le_mul_of_nonneg_right (mul_le_mul_of_nonneg_left h1 hnp) hm0
          rwa [mul_one] at this
        linarith
      · have huw := hjmax k u hpk.le (hlen ▸ hkn) hu
        have hw0 : 0 ≤ w := hu0'.trans huw
        have a1 := mul_le_mul_of_nonneg_left huw hnk
        have a2 := mul_le_mul_of_nonneg_right (prefixAvg_anti hdesc hj (by omega) hkn) hw0
        have a3 := hbest j _ hj hjp (lifted_eq hjw)
        linarith

/-- **C47** for qualities that may be negative, as it is the case for WRA, given a lift function that satisfies a stronger condition. -/
theorem partial_optimal_neg {h : Heuristic K} {f : LiftFunction K} {sort : List (SortedEntry K) → List (SortedEntry K)} {majority indices : List Nat}
    {total covered : List (Confusion K)} {q : Nat → K} (hin : EvalInput h majority indices total covered q) (hsort : SortsDescending sort)
    (hne : indices ≠ []) (hf : LiftSoundNeg indices.length f) :
    ∃ r best, partialScores h f sort majority indices total covered = .ok r ∧ r.quality = some best ∧ r.indices.Nodup ∧
      r.values = r.indices.map (inverseMajority majority) ∧ IsBestHead q f.calculateLift indices.toFinset best r.indices.toFinset := by
  refine partialScores_best hin hsort hne ⟨1, hf.first⟩ ?_ ?_ (Or.inr fun k u hk hk' hu => zero_le_one.trans (hf.one k u hk hk' hu))
  · intro sorted hlen hdesc hval b w hb hb' hbl hw hrec
    rw [hlen] at hb' ⊢
    exact hf.max b hb hb'
  · intro sorted hlen hdesc hval p best m v hp hpn hbest hm hv hlt k u hpk hkn hu
    have hu1 := hf.one k u (by omega) (by omega) hu
    have hv1 := hf.one p v hp (by omega) hv
    have h1 := hbest 1 _ (le_refl _) hp (lifted_eq hf.first)
    rw [mul_one] at h1
    by_cases hk0 : prefixAvg sorted k ≤ 0
    · have a1 := prefixAvg_anti hdesc (le_refl 1) (show 1 ≤ k by omega) hkn
      have a2 := mul_le_mul_of_nonpos_left hu1 hk0
      rw [mul_one] at a2
      linarith
    · have hk0' := (not_le.1 hk0).le
      have a0 := prefixAvg_anti hdesc hp hpk.le hkn
      have hp0 := hk0'.trans a0
      have hum := hm k u hpk.le hkn hu
      have hu0 : 0 ≤ u := zero_le_one.trans hu1
      have a1 := mul_le_mul_of_nonneg_right a0 hu0
      have a2 := mul_le_mul_of_nonneg_left hum hp0
      have a3 : prefixAvg sorted p * m ≤ prefixAvg sorted p * v * m := by
        have := mul_le_mul_of_nonneg_right (mul_le_mul_of_nonneg_left hv1 hp0) (hu0.trans hum)
        rwa [mul_one] at this
      linarith

/-- The qualities of all heuristics but WRA are not negative, if the confusion matrices of covered examples do not exceed those of all examples. -/
theorem labelQuality_nonneg (h : Heuristic K) (hacc : h.Accepted) (hw : h ≠ .wra ∧ h ≠ .mEstimate none) (t c : Confusion K)
    (h0 : 0 ≤ c.1 ∧ 0 ≤ c.2.1 ∧ 0 ≤ c.2.2.1 ∧ 0 ≤ c.2.2.2) (h1 : c.1 ≤ t.1 ∧ c.2.1 ≤ t.2.1 ∧ c.2.2.1 ≤ t.2.2.1 ∧ c.2.2.2 ≤ t.2.2.2) :
    0 ≤ labelQuality h t c :=
  (heuristic_unit_partial h hacc hw _ ⟨h0.1, h0.2.1, h0.2.2.1, h0.2.2.2, sub_nonneg.2 h1.1, sub_nonneg.2 h1.2.1, sub_nonneg.2 h1.2.2.1,
    sub_nonneg.2 h1.2.2.2⟩).1

/-! ### The lift functions that can be configured -/

noncomputable section

/-- `NoLiftFunction`. -/
def noLiftFunction : LiftFunction ℝ := { calculateLift := fun n => some (noLift n), getMaxLift := fun n => .ok (some (noMaxLift n)) }

/-- `KlnLiftFunction`. -/
def klnLiftFunction (k : ℝ) (total : Nat) : LiftFunction ℝ :=
  { calculateLift := fun n => some (klnLift k n), getMaxLift := fun n => .ok (some (klnMaxLift k total n)) }

/-- `PeakLiftFunction`. -/
def peakLiftFunction (f : Peak) : LiftFunction ℝ := { calculateLift := f.lift, getMaxLift := f.getMaxLift }

end

theorem noLift_sound (n : Nat) : LiftSoundNeg n noLiftFunction :=
  ⟨rfl, fun _ _ _ _ h => by cases h; exact le_refl _, fun _ _ _ => ⟨1, rfl, fun _ _ _ _ h => by cases h; exact le_refl _⟩⟩

theorem klnLift_sound {k : ℝ} (hk : 0 < k) (total : Nat) : LiftSoundNeg total (klnLiftFunction k total) := by
  have h := klnLift_admissible hk total
  refine ⟨?_, fun i v hi hi' e => ?_, fun b hb hb' => ⟨_, rfl, fun m u hbm hm e => ?_⟩⟩
  · show some (klnLift k 1) = some 1
    simp [klnLift]
  · cases e
    exact h.one_le i hi hi'
  · cases e
    exact h.le_max b m hb hbm hm

/-- The peak lift function is sufficient as well, provided that there is more than one label: even though the lift after the peak may be less than 1 or
not a number, and the maximum lifts are wrong after the peak, none of the heads with more labels than the peak is ever the best. -/
theorem peakLift_sound (f : Peak) (hm : 1 ≤ f.maxLift) (hc : 0 < f.curvature) (hp : 1 ≤ f.peak) (hpt : f.peak ≤ f.total) (ht : 2 ≤ f.total) :
    LiftSound f.total (peakLiftFunction f) := by
  obtain ⟨v1, hv1, h1, -, -⟩ := peakLift_before_partial f hm hc 1 (le_refl _) hp
  obtain ⟨vp, hvp, -, -, hvp'⟩ := peakLift_before_partial f hm hc f.peak hp (le_refl _)
  have hle : ∀ m v, 1 ≤ m → m ≤ f.total → f.lift m = some v → v ≤ f.maxLift := by
    intro m v hm1 hmt hv
    by_cases hmp : m ≤ f.peak
    · obtain ⟨w, hw, -, hw', -⟩ := peakLift_before_partial f hm hc m hm1 hmp
      rw [hw] at hv
      cases hv
      exact hw'
    · unfold Peak.lift peakLiftInternally at hv
      rw [if_neg (by omega)] at hv
      cases hq : cPow (normalization m f.total f.peak) (1 / f.curvature) with
      | none => rw [hq] at hv; exact absurd hv (by simp)
      | some q =>
        rw [hq] at hv
        cases hv
        have hq1 := cPow_abs_le_one (normalization_abs m f.total f.peak hm1 hmt hpt (by omega)) (by positivity) hq
        have := mul_le_mul_of_nonneg_right hq1 (sub_nonneg.2 hm)
        show 1 + q * (f.maxLift - 1) ≤ f.maxLift
        linarith
  refine ⟨⟨v1, hv1, by linarith⟩, fun i v hi hit hv => ?_, fun b hb hb' hrec => ?_⟩
  · by_cases hip : i ≤ f.peak
    · obtain ⟨w, hw, hw', -, -⟩ := peakLift_before_partial f hm hc i hi hip
      have : f.lift i = some v := hv
      rw [hw] at this
      cases this
      exact Or.inl hw'
    · refine Or.inr ⟨f.peak, vp, hp, by omega, hvp, fun k u hik hkt hu => ?_⟩
      rw [hvp' rfl]
      exact hle k u (by omega) hkt hu
  · obtain ⟨w, hw, hrec⟩ := hrec
    have hbp : b ≤ f.peak := by
      by_contra hcon
      have h2 := hrec f.peak vp hp (by omega) hvp
      have h3 := hle b w hb (by omega) hw
      rw [hvp' rfl] at h2
      linarith
    refine ⟨f.maxLift, ?_, fun k u hbk hk hu => hle k u (by omega) hk hu⟩
    show f.getMaxLift b = _
    unfold Peak.getMaxLift
    by_cases hlt : b < f.peak
    · rw [if_pos hlt]
    · rw [if_neg hlt]
      have hb0 : b - f.peak = 0 := by omega
      rw [hb0, readAt_of_lt (by unfold Peak.maxLiftsAfterPeak; rw [List.length_map, List.length_range]; omega)]
      simp [Peak.maxLiftsAfterPeak, peakLiftInternally]

/-- The stronger condition implies the weaker one. -/
theorem LiftSoundNeg.sound {n : Nat} {f : LiftFunction K} (h : LiftSoundNeg n f) : LiftSound n f :=
  ⟨⟨1, h.first, zero_le_one⟩, fun i v hi hi' e => Or.inl (h.one i v hi hi' e), fun b hb hb' _ => h.max b hb hb'⟩

/-- Negation of **C47**: if there is a single label, the peak lift function causes an element of an empty array to be accessed. -/
theorem partial_peak_fault {h : Heuristic ℝ} {sort : List (SortedEntry ℝ) → List (SortedEntry ℝ)} {majority : List Nat}
    {total covered : List (Confusion ℝ)} {q : Nat → ℝ} (hin : EvalInput h majority [0] total covered q) (hsort : SortsDescending sort)
    (peak : Nat) (hp : 0 < peak) (maxLift curvature : ℝ) (c : Nat) :
    partialScores h (peakLiftFunction (Peak.create 1 peak maxLift curvature c)) sort majority [0] total covered = .error .outOfBounds := by
  unfold partialScores
  rw [partialEntries_ok hin, ok_bind]
  dsimp only
  obtain ⟨hperm, -⟩ := hsort ([0].map (fun label => { index := label, quality := q label, score := inverseMajority majority label }))
  unfold partialSearch
  rw [readAt_of_lt (by rw [hperm.length_eq]; simp), ok_bind]
  have hf : (peakLiftFunction (Peak.create 1 peak maxLift curvature c)).getMaxLift 1 = .error .outOfBounds := by
    refine peakLift_max_fault (Peak.create 1 peak maxLift curvature c) ?_
    simp only [Peak.create]
    rw [if_pos hp]
    exact Nat.min_le_left _ _
  rw [hf]
  rfl

/-! ### Other kinds of heads -/

/-- The evaluation of a given head. -/
theorem complete_spec {h : Heuristic K} {f : LiftFunction K} {majority indices : List Nat} {total covered : List (Confusion K)} {q : Nat → K}
    (hin : EvalInput h majority indices total covered q) : ∃ r, completeScores h f majority indices total covered = .ok r ∧ r.indices = indices ∧
      r.values = indices.map (inverseMajority majority) ∧
      r.quality = (f.calculateLift indices.length).map (fun l => headQuality q l indices.toFinset) := by
  refine ⟨_, completeScores_ok hin, rfl, rfl, ?_⟩
  have hnd : indices.Nodup := hin.indicesSorted.imp (fun h => Nat.ne_of_lt h)
  unfold liftedQuality headQuality
  rw [List.sum_toFinset _ hnd, List.toFinset_card_of_nodup hnd]

/-- The head of the default rule: the majority labels. -/
theorem majority_spec {majority indices : List Nat} (hm : majority.Pairwise (· < ·)) (hi : indices.Pairwise (· < ·)) :
    ∃ r : Head K K, majorityScores majority indices = .ok r ∧ r.quality = 0 ∧ r.indices = indices ∧
      r.values = indices.map (fun label => if label ∈ majority then 1 else 0) :=
  ⟨_, majorityScores_ok hm hi, rfl, rfl, rfl⟩

/-- The head with a single label has the maximum quality among all such heads. -/
theorem single_optimal {h : Heuristic K} {majority indices : List Nat} {total covered : List (Confusion K)} {q : Nat → K}
    (hin : EvalInput h majority indices total covered q) (hne : indices ≠ []) : ∃ r label, singleScores h majority indices total covered = .ok r ∧
      r.indices = [label] ∧ label ∈ indices ∧ r.values = [inverseMajority majority label] ∧ r.quality = q label ∧ ∀ l ∈ indices, q l ≤ r.quality := by
  have hpos : 0 < indices.length := List.length_pos_iff.2 hne
  unfold singleScores singleSearch
  obtain ⟨t, c, ht, hc, hq⟩ := hin.quality 0 hpos
  rw [readAt_of_lt hpos, ok_bind, readAt_of_getElem? ht, ok_bind, readAt_of_getElem? hc, ok_bind, outputWiseQuality_eq, ← hq]
  obtain ⟨s, hs, g1, g2, g3⟩ := loopFrom_rule (body := singleStep h indices total covered)
    (fun i (s : Nat × K) => s.1 ∈ indices ∧ s.2 = q s.1 ∧ ∀ (j : Nat) (hj : j < indices.length), j < i → q indices[j] ≤ s.2) 1
    (indices.length - 1) (indices[0], q indices[0])
    ⟨List.getElem_mem _, rfl, fun j hj hj' => by
      have : j = 0 := by omega
      subst this
      exact le_refl _⟩
    (by
      rintro i s hi1 hi2 ⟨g1, g2, g3⟩
      have hi : i < indices.length := by omega
      obtain ⟨t, c, ht, hc, hq⟩ := hin.quality i hi
      refine ⟨if q indices[i] > s.2 then (indices[i], q indices[i]) else s, ?_, ?_⟩
      · unfold singleStep
        rw [readAt_of_lt hi, ok_bind, readAt_of_getElem? ht, ok_bind, readAt_of_getElem? hc, ok_bind, pure_eq_ok, outputWiseQuality_eq, ← hq]
      · split
        · next hgt =>
          refine ⟨List.getElem_mem _, rfl, fun j hj hj' => ?_⟩
          by_cases e : j = i
          · subst e
            exact le_refl _
          · exact (g3 j hj (by omega)).trans hgt.le
        · next hgt =>
          refine ⟨g1, g2, fun j hj hj' => ?_⟩
          by_cases e : j = i
          · subst e
            exact not_lt.1 hgt
          · exact g3 j hj (by omega))
  rw [hs, ok_bind]
  have hadv := advance_ok (majority := majority) (previous := 0) (index := s.1) (Nat.zero_le _)
  rw [show Iterators.iterate Iterators.BinarySparseForward.next 0 (Iterators.BinarySparseForward.create majority 0) =
    Iterators.BinarySparseForward.create majority 0 from rfl] at hadv
  rw [hadv, ok_bind, pure_eq_ok, LabelVectors.forward_iterate hin.majoritySorted, ofBool_not]
  refine ⟨_, s.1, rfl, rfl, g1, rfl, g2, fun l hl => ?_⟩
  obtain ⟨j, hj, rfl⟩ := List.mem_iff_getElem.1 hl
  exact g3 j hj (by omega)

/-! ### Examples -/

/-- The lifts of the peak lift function that is used by default for 5 labels, as rational numbers. -/
def tableLift : LiftFunction ℚ :=
  { calculateLift := fun n => [1, 108 / 100, 1 - 2 / 3 * (8 / 100), 1 - 1 / 3 * (8 / 100), 1][n - 1]?
    getMaxLift := fun n => if n < 2 then .ok (some (108 / 100)) else
      readAt [some (108 / 100), some (1 - 2 / 3 * (8 / 100)), some (1 - 1 / 3 * (8 / 100))] (n - 2) }

theorem tableLift_eq (n : Nat) (h1 : 1 ≤ n) (h2 : n ≤ 5) : defaultPeak.lift n = (tableLift.calculateLift n).map (fun x : ℚ => (x : ℝ)) := by
  unfold defaultPeak
  rw [create_eq _ _ (by omega) (by omega)]
  have h : n = 1 ∨ n = 2 ∨ n = 3 ∨ n = 4 ∨ n = 5 := by omega
  have ht : ∀ x : ℚ, tableLift.calculateLift n = some x → (tableLift.calculateLift n).map (fun x : ℚ => (x : ℝ)) = some (x : ℝ) := by
    intro x hx
    rw [hx]
    rfl
  have hend : ∀ (m : Nat) (r : ℝ), m ≠ 2 → normalization m 5 2 = 0 → peakLiftInternally m 5 2 r (1 / 1) = some 1 := by
    intro m r hm h0
    unfold peakLiftInternally cPow
    rw [if_neg hm, h0, if_pos (le_refl _), Real.zero_rpow (by norm_num)]
    simp
  unfold Peak.lift
  rcases h with rfl | rfl | rfl | rfl | rfl
  · rw [ht 1 rfl, hend 1 _ (by omega) (by simp [normalization])]
    simp
  · rw [ht _ rfl]
    unfold peakLiftInternally
    rw [if_pos rfl]
    push_cast
    rfl
  · rw [ht _ rfl, ← Peak.lift.eq_1 ⟨5, 2, 108 / 100, 1⟩ 3, ← create_eq 5 2 (by omega) (by omega) (108 / 100) 1 0]
    exact (defaultPeak_lift 3 (by omega) (by omega)).trans (by push_cast; congr 1; norm_num)
  · rw [ht _ rfl, ← Peak.lift.eq_1 ⟨5, 2, 108 / 100, 1⟩ 4, ← create_eq 5 2 (by omega) (by omega) (108 / 100) 1 0]
    exact (defaultPeak_lift 4 (by omega) (by omega)).trans (by push_cast; congr 1; norm_num)
  · rw [ht 1 rfl, hend 5 _ (by omega) (by simp [normalization])]
    simp

/-- An algorithm for sorting. -/
def insertionSortDescending (l : List (SortedEntry ℚ)) : List (SortedEntry ℚ) := l.insertionSort (fun a b => b.quality ≤ a.quality)

theorem insertionSortDescending_sorts : SortsDescending insertionSortDescending := by
  intro l
  have : Std.Total (fun a b : SortedEntry ℚ => b.quality ≤ a.quality) := ⟨fun a b => le_total b.quality a.quality⟩
  have : IsTrans (SortedEntry ℚ) (fun a b : SortedEntry ℚ => b.quality ≤ a.quality) := ⟨fun a b c h1 h2 => h2.trans h1⟩
  exact ⟨List.perm_insertionSort _ l, List.pairwise_insertionSort _ l⟩

/-- Negation of **C47**: the qualities according to WRA may be negative. With the peak lift function, a head with 3 labels is better than the head
that is found (the qualities of all labels are -1/4, the lift of such heads is 71/75). -/
theorem partial_wra_peak : ∃ (total covered : List (Confusion ℚ)) (r : Head ℚ (Option ℚ)),
    EvalInput .wra [] [0, 1, 2, 3, 4] total covered (fun _ => -1 / 4) ∧
    partialScores .wra tableLift insertionSortDescending [] [0, 1, 2, 3, 4] total covered = .ok r ∧ r.quality = some (-1 / 4) ∧
    (tableLift.calculateLift 3).map (fun l => headQuality (fun _ => -1 / 4) l {0, 1, 2}) = some (-71 / 300) := by
  refine ⟨List.replicate 5 (0, 1, 0, 1), List.replicate 5 (0, 1, 0, 0),
    { quality := some (-1 / 4), indices := [0], values := [1] }, ⟨by simp, by simp, ?_⟩, by decide +kernel, rfl, ?_⟩
  · intro i hi
    have hi5 : i < 5 := by simpa using hi
    have key : labelQuality Heuristic.wra ((0, 1, 0, 1) : Confusion ℚ) (0, 1, 0, 0) = -1 / 4 := by decide +kernel
    have h : i = 0 ∨ i = 1 ∨ i = 2 ∨ i = 3 ∨ i = 4 := by omega
    rcases h with rfl | rfl | rfl | rfl | rfl <;> exact ⟨_, _, rfl, rfl, key.symm⟩
  · have : ({0, 1, 2} : Finset Nat).card = 3 := rfl
    simp only [tableLift, headQuality, this]
    norm_num

/-- Confusion matrices of three labels; the last one is a majority label. -/
def exampleTotal : List (Confusion ℚ) := [(1, 2, 1, 3), (0, 2, 0, 2), (4, 0, 1, 0)]

def exampleCovered : List (Confusion ℚ) := [(0, 1, 0, 3), (0, 0, 0, 2), (1, 0, 1, 0)]

def exampleQuality (label : Nat) : ℚ := if label = 0 then 3 / 4 else if label = 1 then 1 else 1 / 2

theorem example_input : EvalInput .precision [2] [0, 1, 2] exampleTotal exampleCovered exampleQuality := by
  refine ⟨by simp, by decide, ?_⟩
  intro i hi
  have hi5 : i < 3 := by simpa using hi
  have h : i = 0 ∨ i = 1 ∨ i = 2 := by omega
  rcases h with rfl | rfl | rfl
  · exact ⟨_, _, rfl, rfl, (by decide +kernel : exampleQuality 0 = labelQuality .precision (1, 2, 1, 3) (0, 1, 0, 3))⟩
  · exact ⟨_, _, rfl, rfl, (by decide +kernel : exampleQuality 1 = labelQuality .precision (0, 2, 0, 2) (0, 0, 0, 2))⟩
  · exact ⟨_, _, rfl, rfl, (by decide +kernel : exampleQuality 2 = labelQuality .precision (4, 0, 1, 0) (1, 0, 1, 0))⟩

/-- A lift function with a large lift for two labels. -/
def exampleLift : LiftFunction ℚ :=
  { calculateLift := fun n => if n = 2 then some (3 / 2) else some 1, getMaxLift := fun n => .ok (if n ≤ 2 then some (3 / 2) else some 1) }

theorem exampleLift_sound : LiftSound 3 exampleLift := by
  refine ⟨⟨1, rfl, by decide⟩, fun i v hi hi' h => Or.inl ?_, fun b hb hb' hr => ⟨if b ≤ 2 then 3 / 2 else 1, ?_, fun k u hk hk' h => ?_⟩⟩
  · simp only [exampleLift] at h
    split at h <;> cases h <;> norm_num
  · simp only [exampleLift]
    split <;> rfl
  · simp only [exampleLift] at h
    split at h <;> split <;> cases h <;> first | omega | norm_num

example : partialScores .precision exampleLift insertionSortDescending [2] [0, 1, 2] exampleTotal exampleCovered =
    .ok { quality := some (21 / 16), indices := [1, 0], values := [1, 1] } := by decide +kernel

example : ∀ label ∈ [0, 1, 2], 0 ≤ exampleQuality label := by decide +kernel

example : singleScores .precision [2] [0, 1, 2] exampleTotal exampleCovered = .ok { quality := 1, indices := [1], values := [1] } := by
  decide +kernel

example : completeScores .precision exampleLift [2] [0, 1, 2] exampleTotal exampleCovered =
    .ok { quality := some (3 / 4), indices := [0, 1, 2], values := [1, 1, 0] } := by decide +kernel

/-- The parameters of the peak lift function that satisfy the hypotheses. -/
example : 1 ≤ defaultPeak.maxLift ∧ 0 < defaultPeak.curvature ∧ 1 ≤ defaultPeak.peak ∧ defaultPeak.peak ≤ defaultPeak.total ∧
    2 ≤ defaultPeak.total := by
  refine ⟨?_, ?_, by rw [defaultPeak_peak]; omega, by rw [defaultPeak_peak]; simp [defaultPeak, Peak.create], by simp [defaultPeak, Peak.create]⟩
  · norm_num [defaultPeak, Peak.create]
  · norm_num [defaultPeak, Peak.create]

end MLRL.Seco
