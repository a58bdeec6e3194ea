import Verif.Lemma.Coverage
import Mathlib.Algebra.Order.Ring.Rat
import Mathlib.Algebra.Field.Rat

/-!
# C43, C44: coverage of labels and the coverage stopping criterion
-/

namespace MLRL.Seco

open Predictor Finset

variable {K V : Type}

/-- `majority` and `m` result from initialising the statistics for a label matrix with `n` rows and `c` columns, which is given in the dense or
in the sparse format. -/
def Created [Field K] [LinearOrder K] (n c : Nat) (label : Nat → Nat → Bool) (majority : List Nat) (m : CoverageMatrix K) : Prop :=
  (∃ array : List Nat, array.length = c ∧ createStatisticsDense (denseLabels n c label) c array = .ok (majority, m)) ∨
  (∃ rows, CsrLabels n c label rows ∧ createStatisticsCsr rows c = .ok (majority, m))

/-! ### C43 -/

/-- Part of **C43**: independently of the format of the label matrix, the statistics are initialised without accessing invalid memory. The
majority labels are those that are relevant to more than half of the examples, in increasing order, no label is covered and the sum of the
weights of uncovered labels is the number of labels (of individual examples) that differ from the majority. -/
theorem createStatistics_spec [Field K] [LinearOrder K] [IsStrictOrderedRing K] (n c : Nat) (label : Nat → Nat → Bool) :
    (∀ array : List Nat, array.length = c → ∃ majority, ∃ m : CoverageMatrix K,
      createStatisticsDense (denseLabels n c label) c array = .ok (majority, m)) ∧
    (∀ rows, CsrLabels n c label rows → ∃ majority, ∃ m : CoverageMatrix K, createStatisticsCsr rows c = .ok (majority, m)) ∧
    ∀ majority, ∀ m : CoverageMatrix K, Created n c label majority m →
      majority.Pairwise (· < ·) ∧ (∀ j, j ∈ majority ↔ j < c ∧ 2 * numRelevant n label j > n) ∧
      m.numCols = c ∧ m.cells = List.replicate (n * c) 0 ∧
      m.sumOfUncoveredWeights = (numCells n c (fun i j => label i j ≠ decide (j ∈ majority)) : K) := by
  refine ⟨fun array ha => ⟨_, _, createStatisticsDense_ok n c label ha⟩, fun rows h => ⟨_, _, createStatisticsCsr_ok h⟩, ?_⟩
  intro majority m h
  have key : majority = majorityLabels n c label ∧ m =
      { numCols := c, cells := List.replicate (n * c) 0, sumOfUncoveredWeights := (numCells n c (fun i j => label i j ≠ isMajority n label j) : K) } := by
    rcases h with ⟨array, ha, h⟩ | ⟨rows, hr, h⟩
    · rw [createStatisticsDense_ok n c label ha] at h
      cases h
      exact ⟨rfl, rfl⟩
    · rw [createStatisticsCsr_ok hr] at h
      cases h
      exact ⟨rfl, rfl⟩
  obtain ⟨rfl, rfl⟩ := key
  have hmem : ∀ j, j ∈ majorityLabels n c label ↔ j < c ∧ 2 * numRelevant n label j > n := by
    intro j
    simp [majorityLabels, isMajority]
  refine ⟨majorityLabels_sorted n c label, hmem, rfl, rfl, ?_⟩
  show ((numCells n c (fun i j => label i j ≠ isMajority n label j) : Nat) : K) = _
  congr 1
  refine numCells_congr (fun i _ j hj => ?_)
  have : isMajority n label j = decide (j ∈ majorityLabels n c label) := by
    rw [isMajority]
    exact decide_eq_decide.2 ⟨fun h => (hmem j).2 ⟨hj, h⟩, fun h => ((hmem j).1 h).2⟩
  rw [this]

/-- **C43**, if predictions are applied and reverted by a single thread: after any history of applied and reverted rules no invalid memory has
been accessed, the coverage of a label is the number of rules, among those that have been applied and not been reverted, that cover the example
and predict the minority value of the label, and the sum of the weights of uncovered labels is its initial value minus the number of covered
labels. What is missing: updates by several threads, see `uncoveredWeights_race`. -/
theorem coverage_history_partial [Field K] [LinearOrder K] [IsStrictOrderedRing K] [Zero V] [DecidableEq V] {n c : Nat} {label : Nat → Nat → Bool}
    {majority : List Nat} {m : CoverageMatrix K} (hm : Created n c label majority m) (calls : List (Update.Call V))
    (hadm : Admissible majority calls) (hh : ∀ call ∈ calls, HeadOk c call.head) :
    ∃ m', execCalls majority n calls m = .ok m' ∧ m'.cells.length = n * c ∧
      (∀ i < n, ∀ j < c, ∃ coverage, m'.cells[i * c + j]? = some coverage ∧ (coverage : Int) = net majority calls i j) ∧
      m'.sumOfUncoveredWeights = m.sumOfUncoveredWeights - (numCells n c (fun i j => 0 < net majority calls i j) : K) := by
  obtain ⟨h1, h2, h3, h4, h5⟩ := (createStatistics_spec (K := K) n c label).2.2 majority m hm
  have hm' : m = { numCols := c, cells := List.replicate (n * c) 0, sumOfUncoveredWeights := m.sumOfUncoveredWeights } := by
    cases m
    simp only at h3 h4
    subst h3 h4
    rfl
  have hrep : Rep n c m (fun i j => (net (V := V) majority [] i j).toNat) m.sumOfUncoveredWeights := by
    rw [hm']
    exact rep_initial majority n c _
  obtain ⟨m', k1, k2⟩ := execCalls_ok h1 calls [] m (by simpa using hadm) hh hrep
  simp only [List.nil_append] at k2
  refine ⟨m', k1, k2.length, fun i hi j hj => ⟨_, k2.get i hi j hj, Int.toNat_of_nonneg (hadm calls [] (by simp) i j).1⟩, ?_⟩
  have hsum := k2.sum
  rw [numCells_congr (q := fun i j => 0 < net majority calls i j) (fun i _ j _ => by
    have := (hadm calls [] (by simp) i j).1
    omega)] at hsum
  rw [← hsum]
  ring

/-- Part of **C43**: reverting a rule undoes its application. -/
theorem coverage_revert [Field K] [LinearOrder K] [IsStrictOrderedRing K] [Zero V] [DecidableEq V] {n c : Nat} {label : Nat → Nat → Bool}
    {majority : List Nat} {m : CoverageMatrix K} (hm : Created n c label majority m) (calls : List (Update.Call V)) (call : Update.Call V)
    (hrev : call.revert = false) (hadm : Admissible majority (calls ++ [call])) (hh : ∀ c' ∈ calls ++ [call], HeadOk c c'.head) :
    ∃ m' m'', execCalls majority n calls m = .ok m' ∧ execCalls majority n (calls ++ [call]) m = .ok m'' ∧
      execCall majority n { call with revert := true } m'' = .ok m' := by
  have hadm' : Admissible majority calls := fun a b e i j => hadm a (b ++ [call]) (by rw [e]; simp) i j
  have hnet : ∀ i j, net majority ((calls ++ [call]) ++ [{ call with revert := true }]) i j = net majority calls i j := by
    intro i j
    rw [net_append, net_append]
    simp only [net, List.map_cons, List.map_nil, List.sum_cons, List.sum_nil, hrev, Bool.false_eq_true, if_false, if_true]
    split <;> omega
  have hadm3 : Admissible majority ((calls ++ [call]) ++ [{ call with revert := true }]) := by
    intro a b e i j
    rcases List.eq_nil_or_concat b with rfl | ⟨b', x, rfl⟩
    · rw [List.append_nil] at e
      rw [← e, hnet]
      exact hadm' calls [] (by simp) i j
    · have e' : calls ++ [call] = a ++ b' := by
        have : (calls ++ [call]) ++ [{ call with revert := true }] = (a ++ b') ++ [x] := by rw [e]; simp
        exact (List.append_inj' this rfl).1
      exact hadm a b' e' i j
  obtain ⟨m1, k1, l1, g1, s1⟩ := coverage_history_partial hm calls hadm' (fun c' hc => hh c' (by simp [hc]))
  obtain ⟨m2, k2, l2, g2, s2⟩ := coverage_history_partial hm _ hadm hh
  obtain ⟨m3, k3, l3, g3, s3⟩ := coverage_history_partial hm _ hadm3 (fun c' hc => by
    rcases List.mem_append.1 hc with hc | hc
    · exact hh c' hc
    · have : c' = { call with revert := true } := by simpa using hc
      subst this
      exact hh call (by simp))
  refine ⟨m1, m2, k1, k2, ?_⟩
  have hsplit : ∀ (a : List (Update.Call V)) (x : Update.Call V) (m : CoverageMatrix K),
      execCalls majority n (a ++ [x]) m = execCalls majority n a m >>= execCall majority n x := by
    intro a x
    induction a with
    | nil =>
      intro m
      show (execCall majority n x m >>= fun m => Except.ok m) = _
      cases h : execCall majority n x m <;> simp [execCalls, h, ok_bind, error_bind]
    | cons y a ih =>
      intro m
      show (execCall majority n y m >>= fun m => execCalls majority n (a ++ [x]) m) = _
      cases h : execCall majority n y m with
      | error e => simp [execCalls, h, error_bind]
      | ok m' => simp [execCalls, h, ok_bind, ih]
  have k3' := k3
  rw [hsplit, k2, ok_bind] at k3'
  rw [k3']
  congr 1
  have hc : ∀ (calls : List (Update.Call V)) (m m' : CoverageMatrix K), execCalls majority n calls m = .ok m' → m.numCols = c →
      Admissible majority calls → (∀ call ∈ calls, HeadOk c call.head) → Created n c label majority m → m'.numCols = c := by
    intro calls m m' e _ ha hh hm
    obtain ⟨h1, h2, h3, h4, h5⟩ := (createStatistics_spec (K := K) n c label).2.2 majority m hm
    have hm' : m = { numCols := c, cells := List.replicate (n * c) 0, sumOfUncoveredWeights := m.sumOfUncoveredWeights } := by
      cases m
      simp only at h3 h4
      subst h3 h4
      rfl
    obtain ⟨m'', k1, k2⟩ := execCalls_ok (n := n) (c := c) (S := m.sumOfUncoveredWeights) h1 calls [] m (by simpa using ha) hh
      (by rw [hm']; exact rep_initial majority n c _)
    rw [e] at k1
    cases k1
    exact k2.numCols
  have hn := ((createStatistics_spec (K := K) n c label).2.2 majority m hm).2.2.1
  have n1 := hc _ _ _ k1 hn hadm' (fun c' hc => hh c' (by simp [hc])) hm
  have n3 := hc _ _ _ k3 hn hadm3 (fun c' hc => by
    rcases List.mem_append.1 hc with hc | hc
    · exact hh c' hc
    · have : c' = { call with revert := true } := by simpa using hc
      subst this
      exact hh call (by simp)) hm
  have hcells : m3.cells = m1.cells := by
    refine List.ext_getElem? (fun k => ?_)
    by_cases hk : k < n * c
    · have hc0 : 0 < c := by
        rcases Nat.eq_zero_or_pos c with e | e
        · rw [e] at hk; omega
        · exact e
      have e : k = (k / c) * c + k % c := by rw [Nat.mul_comm]; exact (Nat.div_add_mod k c).symm
      have hi : k / c < n := Nat.div_lt_of_lt_mul (by rw [Nat.mul_comm]; exact hk)
      obtain ⟨a, ha, ha'⟩ := g1 (k / c) hi (k % c) (Nat.mod_lt _ hc0)
      obtain ⟨b, hb, hb'⟩ := g3 (k / c) hi (k % c) (Nat.mod_lt _ hc0)
      rw [← e] at ha hb
      rw [ha, hb]
      rw [hnet] at hb'
      congr 1
      omega
    · rw [List.getElem?_eq_none (by omega), List.getElem?_eq_none (by omega)]
  have hsum : m3.sumOfUncoveredWeights = m1.sumOfUncoveredWeights := by
    rw [s1, s3]
    congr 2
    exact numCells_congr (fun i _ j _ => by rw [hnet])
  cases m1
  cases m3
  simp only at n1 n3 hcells hsum
  rw [n1, n3, hcells, hsum]

/-- The steps of a thread. -/
def stepsOf (thread : Nat) (trace : List (Nat × MemoryStep)) : List MemoryStep :=
  (trace.filter (fun e => decide (e.1 = thread))).map Prod.snd

/-- Negation of **C43** for updates by several threads: `sumOfUncoveredWeights_` is updated without synchronisation. If two threads execute
`sumOfUncoveredWeights_ -= 1`, it may be decreased only once. -/
theorem uncoveredWeights_race [Field K] [CharZero K] (s : Memory K) :
    ∃ trace, stepsOf 0 trace = [.load, .store] ∧ stepsOf 1 trace = [.load, .store] ∧ trace.length = 4 ∧
      (s.run trace).shared = s.shared - 1 ∧ (s.run trace).shared ≠ s.shared - 2 := by
  refine ⟨[(0, .load), (1, .load), (0, .store), (1, .store)], by decide, by decide, rfl, ?_, ?_⟩
  · simp [Memory.run, Memory.step]
  · simp only [Memory.run, Memory.step, List.foldl_cons, List.foldl_nil]
    intro h
    simp at h

/-- Negation of **C43** for heads that are not sorted: the iterator for the majority labels would have to be moved backwards. -/
theorem coverage_unsorted (m : CoverageMatrix ℚ) (h : m.cells.length = 2) (hc : m.numCols = 2) :
    changePartial (V := Nat) increaseCell 0 [] [(1, 1), (0, 1)] m = .error .outOfBounds := by
  obtain ⟨numCols, cells, sum⟩ := m
  match cells, h with
  | [a, b], _ =>
    simp only at hc
    subst hc
    rfl

/-! ### C44 -/

/-- Part of **C44**: what is tested by the stopping criterion. The number of uncovered minority labels is compared to the threshold, but each
label for which a rule predicts the minority value, although the label has the value of the majority, is subtracted from this number. -/
theorem stop_iff [Field K] [LinearOrder K] [IsStrictOrderedRing K] [Zero V] [DecidableEq V] {n c : Nat} {label : Nat → Nat → Bool}
    {majority : List Nat} {m m' : CoverageMatrix K} (hm : Created n c label majority m) (calls : List (Update.Call V))
    (hadm : Admissible majority calls) (hh : ∀ call ∈ calls, HeadOk c call.head) (he : execCalls majority n calls m = .ok m') (threshold : K) :
    testCoverage threshold m' = true ↔
      (numCells n c (fun i j => label i j ≠ decide (j ∈ majority) ∧ ¬0 < net majority calls i j) : K) -
        (numCells n c (fun i j => 0 < net majority calls i j ∧ ¬label i j ≠ decide (j ∈ majority)) : K) ≤ threshold := by
  obtain ⟨m'', k1, -, -, k4⟩ := coverage_history_partial hm calls hadm hh
  rw [he] at k1
  cases k1
  obtain ⟨-, -, -, -, h5⟩ := (createStatistics_spec (K := K) n c label).2.2 majority m hm
  unfold testCoverage
  rw [Bool.not_eq_true', decide_eq_false_iff_not, gt_iff_lt, not_lt, k4, h5,
    numCells_split n c (fun i j => label i j ≠ decide (j ∈ majority)) (fun i j => 0 < net majority calls i j),
    numCells_split n c (fun i j => 0 < net majority calls i j) (fun i j => label i j ≠ decide (j ∈ majority)),
    numCells_congr (p := fun i j => label i j ≠ decide (j ∈ majority) ∧ 0 < net majority calls i j)
      (q := fun i j => 0 < net majority calls i j ∧ label i j ≠ decide (j ∈ majority)) (fun i _ j _ => and_comm)]
  push_cast
  rw [show ∀ a b d : K, a + b - (a + d) = b - d from fun a b d => by ring]

/-- **C44** for rules that never predict the minority value of a label if it is wrong: the induction of rules is stopped if and only if the number
of uncovered minority labels is at most the threshold. What is missing: rules that make mistakes, see `stop_iff` and `stop_too_early`. -/
theorem stop_iff_partial [Field K] [LinearOrder K] [IsStrictOrderedRing K] [Zero V] [DecidableEq V] {n c : Nat} {label : Nat → Nat → Bool}
    {majority : List Nat} {m m' : CoverageMatrix K} (hm : Created n c label majority m) (calls : List (Update.Call V))
    (hadm : Admissible majority calls) (hh : ∀ call ∈ calls, HeadOk c call.head) (he : execCalls majority n calls m = .ok m')
    (hcorrect : ∀ call ∈ calls, ∀ i < n, ∀ j < c, call.mask i = true → predictsMinority majority call.head j = true →
      label i j ≠ decide (j ∈ majority)) (threshold : K) :
    testCoverage threshold m' = true ↔
      (numCells n c (fun i j => label i j ≠ decide (j ∈ majority) ∧ net majority calls i j = 0) : K) ≤ threshold := by
  have hzero : numCells n c (fun i j => 0 < net majority calls i j ∧ ¬label i j ≠ decide (j ∈ majority)) = 0 := by
    unfold numCells
    refine Finset.sum_eq_zero (fun i hi => Finset.sum_eq_zero (fun j hj => if_neg ?_))
    rintro ⟨h1, h2⟩
    have : net majority calls i j = 0 := by
      unfold net
      refine List.sum_eq_zero (fun x hx => ?_)
      obtain ⟨call, hc, rfl⟩ := List.mem_map.1 hx
      exact if_neg (fun e => h2 (hcorrect call hc i (Finset.mem_range.1 hi) j (Finset.mem_range.1 hj) e.1 e.2))
    omega
  rw [stop_iff hm calls hadm hh he, hzero, Nat.cast_zero, sub_zero,
    numCells_congr (q := fun i j => label i j ≠ decide (j ∈ majority) ∧ net majority calls i j = 0) (fun i _ j _ => by
      have := (hadm calls [] (by simp) i j).1
      constructor
      · rintro ⟨a, b⟩; exact ⟨a, by omega⟩
      · rintro ⟨a, b⟩; exact ⟨a, by omega⟩)]

/-- A label that is relevant to the last of three examples. -/
def exampleLabel : Nat → Nat → Bool := fun i _ => decide (i = 2)

/-- A rule that predicts the label and covers the first example (to which the label is not relevant). -/
def wrongRule : Update.Call ℚ := { mask := fun i => decide (i = 0), head := .partial_ [(0, 1)], revert := false }

/-- A rule that predicts the label and covers the last example. -/
def correctRule : Update.Call ℚ := { mask := fun i => decide (i = 2), head := .complete [1], revert := false }

theorem example_created : Created (K := ℚ) 3 1 exampleLabel [] { numCols := 1, cells := [0, 0, 0], sumOfUncoveredWeights := 1 } := by
  refine Or.inl ⟨[7], rfl, ?_⟩
  decide +kernel

/-- A single rule is an admissible history. -/
theorem admissible_single [Zero V] [DecidableEq V] (majority : List Nat) (call : Update.Call V) (h : call.revert = false) :
    Admissible majority [call] := by
  intro a b e i j
  match a, e with
  | [], _ => simp [net]
  | [x], e =>
    simp only [List.cons_append, List.nil_append, List.cons.injEq] at e
    obtain ⟨rfl, _⟩ := e
    simp only [net, List.map_cons, List.map_nil, List.sum_cons, List.sum_nil, h, Bool.false_eq_true, if_false]
    split <;> omega
  | _ :: _ :: _, e => simp at e

/-- Negation of **C44**: after a rule that is wrong has been learned, the induction of rules is stopped with a threshold of 0 although the only
minority label is not covered. -/
theorem stop_too_early : ∃ (n c : Nat) (label : Nat → Nat → Bool) (majority : List Nat) (m m' : CoverageMatrix ℚ) (calls : List (Update.Call ℚ)),
    Created n c label majority m ∧ Admissible majority calls ∧ (∀ call ∈ calls, HeadOk c call.head) ∧
    execCalls majority n calls m = .ok m' ∧ testCoverage 0 m' = true ∧
    numCells n c (fun i j => label i j ≠ decide (j ∈ majority) ∧ net majority calls i j = 0) = 1 := by
  refine ⟨3, 1, exampleLabel, [], _, { numCols := 1, cells := [1, 0, 0], sumOfUncoveredWeights := 0 }, [wrongRule], example_created,
    admissible_single _ _ rfl, ?_, by decide +kernel, by decide +kernel, by decide +kernel⟩
  intro call hc
  simp only [List.mem_singleton] at hc
  subst hc
  exact ⟨by simp [], by simp⟩

/-! ### Examples -/

/-- The hypotheses of `coverage_history_partial` and `stop_iff_partial` are met by a rule that is correct. -/
example : Admissible [] [correctRule] ∧ (∀ call ∈ [correctRule], HeadOk 1 call.head) ∧
    execCalls [] 3 [correctRule] { numCols := 1, cells := [0, 0, 0], sumOfUncoveredWeights := (1 : ℚ) } =
      .ok { numCols := 1, cells := [0, 0, 1], sumOfUncoveredWeights := 0 } ∧
    ∀ call ∈ [correctRule], ∀ i < 3, ∀ j < 1, call.mask i = true → predictsMinority [] call.head j = true →
      exampleLabel i j ≠ decide (j ∈ ([] : List Nat)) := by
  refine ⟨admissible_single _ _ rfl, ?_, by decide +kernel, ?_⟩
  · intro call hc
    simp only [List.mem_singleton] at hc
    subst hc
    rfl
  · intro call hc i _ j _ hm _
    simp only [List.mem_singleton] at hc
    subst hc
    simp only [correctRule] at hm
    simp [exampleLabel, of_decide_eq_true hm]

/-- A sparse label matrix with the same content, and one with two labels, the first of which is relevant to the majority. -/
example : CsrLabels 3 1 exampleLabel [[], [], [0]] ∧
    createStatisticsCsr (K := ℚ) [[0], [1, 0], [0]] 2 =
      .ok ([0], { numCols := 2, cells := [0, 0, 0, 0, 0, 0], sumOfUncoveredWeights := 1 }) := by
  refine ⟨⟨rfl, by simp, ?_⟩, by decide +kernel⟩
  intro i row h j
  match i, h with
  | 0, h => simp at h; subst h; simp [exampleLabel]
  | 1, h => simp at h; subst h; simp [exampleLabel]
  | 2, h => simp at h; subst h; simp [exampleLabel]
  | i + 3, h => simp at h

/-- A complete head predicts the majority value of the first label and the minority value of the second one; it is applied to both examples and
reverted for the last one. -/
example : execCalls (K := ℚ) [0] 2 [⟨fun _ => true, .complete [(1 : ℚ), 1], false⟩, ⟨fun i => decide (i = 1), .complete [1, 1], true⟩]
      { numCols := 2, cells := [0, 0, 0, 0], sumOfUncoveredWeights := 2 } =
    .ok { numCols := 2, cells := [0, 1, 0, 0], sumOfUncoveredWeights := 1 } := by decide +kernel

end MLRL.Seco
