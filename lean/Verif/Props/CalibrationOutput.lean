import Verif.Model.CalibrationOutput
import Verif.Props.Measures
import Verif.Props.ParameterFiles

/-!
# C116: The textual representations of calibration models show the thresholds and probabilities of all bins
-/

namespace MLRL.CalibrationOutput

open ParameterFiles (Str str str_inj str_mem)
open Measures (put put_append)

variable {K Text : Type}

/-! ### Specification -/

/-- The lists of bins that are not empty, together with their indices, if each of them is repeated `n` times. -/
def shown (n : Nat) : Nat → Model K → Bins K
  | _, [] => []
  | i, bins :: model => (if bins = [] then [] else [(i, (List.replicate n bins).flatten)]) ++ shown n (i + 1) model

/-- What should be written to the console: a table for each list, the rows of which correspond to bins. -/
def expectedTables (fmt : K → Text) (title : Str) (d : Bins K) : List (Table Text) :=
  d.map fun e => ⟨(title ++ " ".toList ++ str (e.1 + 1) ++ " thresholds".toList,
    title ++ " ".toList ++ str (e.1 + 1) ++ " probabilities".toList), e.2.map fun bin => (fmt bin.1, fmt bin.2)⟩

/-- The value in a column of a row, if there is such a column. -/
def cell (row : List (Str × Option Text)) (column : Str) : Option (Option Text) :=
  (row.find? fun c => decide (c.1 = column)).map Prod.snd

/-- The number of bins of the longest list. -/
def longest (d : Bins K) : Nat := (d.map fun e => e.2.length).foldr max 0

/-! ### Helper lemmas: visits -/

theorem visitBin_append (i : Nat) (t p : K) (pre rest : Bins K) (h : ∀ e ∈ pre, e.1 ≠ i) :
    visitBin i t p (pre ++ rest) = pre ++ visitBin i t p rest := by
  induction pre with
  | nil => rfl
  | cons e pre ih =>
    rw [List.forall_mem_cons] at h
    obtain ⟨j, bins⟩ := e
    show (if j = i then _ else _) = _
    rw [if_neg h.1]
    exact congrArg _ (ih h.2)

theorem visitBins_present (i : Nat) (bins : List (K × K)) (pre : Bins K) (old : List (K × K)) (rest : Bins K) (h : ∀ e ∈ pre, e.1 ≠ i) :
    bins.foldl (fun d bin => visitBin i bin.1 bin.2 d) (pre ++ (i, old) :: rest) = pre ++ (i, old ++ bins) :: rest := by
  induction bins generalizing old with
  | nil => simp
  | cons b bins ih =>
    rw [List.foldl_cons, visitBin_append _ _ _ _ _ h]
    show List.foldl _ (pre ++ (if i = i then (i, old ++ [(b.1, b.2)]) :: rest else _)) bins = _
    rw [if_pos rfl, ih, List.append_assoc]
    rfl

theorem visitBins_absent (i : Nat) (bins : List (K × K)) (pre : Bins K) (h : ∀ e ∈ pre, e.1 ≠ i) :
    bins.foldl (fun d bin => visitBin i bin.1 bin.2 d) pre = pre ++ if bins = [] then [] else [(i, bins)] := by
  cases bins with
  | nil => simp
  | cons b bins =>
    have h1 := visitBin_append i b.1 b.2 pre [] h
    rw [List.append_nil] at h1
    rw [List.foldl_cons, h1, if_neg (by simp)]
    show List.foldl _ (pre ++ (i, [(b.1, b.2)]) :: []) bins = _
    rw [visitBins_present i bins pre _ [] h]
    rfl

/-- The first visit. -/
theorem visitFrom_first (model : Model K) : ∀ (i : Nat) (pre : Bins K), (∀ e ∈ pre, e.1 < i) →
    visitFrom i model pre = pre ++ shown 1 i model := by
  induction model with
  | nil => intro i pre _; simp [visitFrom, shown]
  | cons bins model ih =>
    intro i pre h
    unfold visitFrom shown
    rw [visitBins_absent i bins pre (fun e he => (h e he).ne), ih, List.append_assoc]
    · simp
    · intro e he
      rcases List.mem_append.1 he with he | he
      · have := h e he
        omega
      · split at he
        · cases he
        · rw [List.mem_singleton] at he
          subst he
          exact Nat.lt_succ_self i

/-- Further visits repeat the bins. -/
theorem visitFrom_again (n : Nat) (model : Model K) : ∀ (i : Nat) (pre : Bins K), (∀ e ∈ pre, e.1 < i) →
    visitFrom i model (pre ++ shown n i model) = pre ++ shown (n + 1) i model := by
  induction model with
  | nil => intro i pre _; simp [visitFrom, shown]
  | cons bins model ih =>
    intro i pre h
    unfold visitFrom shown
    by_cases hb : bins = []
    · subst hb
      simp only [if_true, List.nil_append, List.foldl_nil]
      exact ih (i + 1) pre fun e he => Nat.lt_succ_of_lt (h e he)
    · simp only [if_neg hb, List.singleton_append]
      rw [visitBins_present i bins pre _ _ (fun e he => (h e he).ne)]
      have := ih (i + 1) (pre ++ [(i, (List.replicate n bins).flatten ++ bins)]) (fun e he => by
        rcases List.mem_append.1 he with he | he
        · have := h e he
          omega
        · rw [List.mem_singleton] at he
          subst he
          exact Nat.lt_succ_self i)
      rw [List.append_assoc, List.append_assoc, List.singleton_append, List.singleton_append] at this
      rw [this, List.replicate_succ', List.flatten_append]
      simp

theorem shown_keys (n : Nat) (model : Model K) : ∀ i, (shown n i model).Pairwise (fun a b => a.1 < b.1) ∧
    ∀ e ∈ shown n i model, i ≤ e.1 := by
  induction model with
  | nil => intro i; exact ⟨List.Pairwise.nil, by simp [shown]⟩
  | cons bins model ih =>
    intro i
    obtain ⟨h1, h2⟩ := ih (i + 1)
    unfold shown
    split
    · exact ⟨h1, fun e he => by have := h2 e he; omega⟩
    · rw [List.singleton_append, List.pairwise_cons, List.forall_mem_cons]
      exact ⟨⟨fun e he => h2 e he, h1⟩, le_refl _, fun e he => by have := h2 e he; omega⟩

/-- The bins of a list. -/
theorem mem_shown (n : Nat) (model : Model K) : ∀ i j bins, (j, bins) ∈ shown n i model ↔
    ∃ k old, model[k]? = some old ∧ old ≠ [] ∧ j = i + k ∧ bins = (List.replicate n old).flatten := by
  induction model with
  | nil => intro i j bins; simp [shown]
  | cons old model ih =>
    intro i j bins
    unfold shown
    rw [List.mem_append, ih]
    constructor
    · rintro (h | ⟨k, old', h1, h2, h3, h4⟩)
      · split at h
        · cases h
        · rename_i hne
          rw [List.mem_singleton, Prod.mk.injEq] at h
          exact ⟨0, old, rfl, hne, h.1, h.2⟩
      · exact ⟨k + 1, old', by simpa using h1, h2, by omega, h4⟩
    · rintro ⟨k, old', h1, h2, h3, h4⟩
      cases k with
      | zero =>
        rw [List.getElem?_cons_zero, Option.some.injEq] at h1
        subst h1
        left
        rw [if_neg h2, h3, h4]
        simp
      | succ k => exact Or.inr ⟨k, old', by simpa using h1, h2, by omega, h4⟩

/-! ### Helper lemmas: columns -/

theorem title_inj {title a b s s' : Str} (ha : ∀ c ∈ a, c.isDigit = true) (hb : ∀ c ∈ b, c.isDigit = true)
    (h : title ++ ' ' :: a ++ ' ' :: s = title ++ ' ' :: b ++ ' ' :: s') : a = b ∧ s = s' := by
  rw [List.append_assoc, List.append_assoc, List.append_cancel_left_eq, List.cons_append, List.cons_append,
    List.cons.injEq] at h
  replace h := h.2
  induction a generalizing b with
  | nil =>
    cases b with
    | nil => simpa using h
    | cons c b =>
      simp only [List.nil_append, List.cons_append, List.cons.injEq] at h
      exact absurd (hb c List.mem_cons_self) (by rw [← h.1]; decide)
  | cons c a ih =>
    cases b with
    | nil =>
      simp only [List.nil_append, List.cons_append, List.cons.injEq] at h
      exact absurd (ha c List.mem_cons_self) (by rw [h.1]; decide)
    | cons d b =>
      simp only [List.cons_append, List.cons.injEq] at h
      obtain ⟨h1, h2⟩ := ih (fun c hc => ha c (List.mem_cons_of_mem _ hc)) (fun c hc => hb c (List.mem_cons_of_mem _ hc)) h.2
      exact ⟨by rw [h.1, h1], h2⟩

theorem threshold_inj {title : Str} {i j : Nat} (h : thresholdColumn title i = thresholdColumn title j) : i = j := by
  have := str_inj _ _ (title_inj (s := "thresholds".toList) (s' := "thresholds".toList) (str_mem _) (str_mem _) h).1
  omega

theorem probability_inj {title : Str} {i j : Nat} (h : probabilityColumn title i = probabilityColumn title j) : i = j := by
  have := str_inj _ _ (title_inj (s := "probabilities".toList) (s' := "probabilities".toList) (str_mem _) (str_mem _) h).1
  omega

theorem columns_ne (title : Str) (i j : Nat) : thresholdColumn title i ≠ probabilityColumn title j := fun h =>
  absurd (title_inj (s := "thresholds".toList) (s' := "probabilities".toList) (str_mem _) (str_mem _) h).2 (by decide +kernel)

/-- The columns that correspond to a list. -/
def pair (fmt : K → Text) (title : Str) (i : Nat) (e : Nat × List (K × K)) : List (Str × Option Text) :=
  [(probabilityColumn title e.1, e.2[i]?.map fun b => fmt b.1), (thresholdColumn title e.1, e.2[i]?.map fun b => fmt b.2)]

theorem column_append (fmt : K → Text) (title : Str) (i : Nat) (s : List (Str × Option Text) × Bool) (e : Nat × List (K × K))
    (h : ∀ c ∈ s.1, c.1 ≠ probabilityColumn title e.1 ∧ c.1 ≠ thresholdColumn title e.1) :
    (column fmt title i s e).1 = s.1 ++ pair fmt title i e := by
  have h1 : ∀ x : Option Text, put s.1 (probabilityColumn title e.1) x = s.1 ++ [(probabilityColumn title e.1, x)] := by
    intro x
    refine put_append _ _ _ fun hm => ?_
    obtain ⟨c, hc, he⟩ := List.mem_map.1 hm
    exact (h c hc).1 he
  have h2 : ∀ x y : Option Text, put (s.1 ++ [(probabilityColumn title e.1, x)]) (thresholdColumn title e.1) y =
      s.1 ++ [(probabilityColumn title e.1, x)] ++ [(thresholdColumn title e.1, y)] := by
    intro x y
    refine put_append _ _ _ fun hm => ?_
    obtain ⟨c, hc, he⟩ := List.mem_map.1 hm
    rcases List.mem_append.1 hc with hc | hc
    · exact (h c hc).2 he
    · rw [List.mem_singleton] at hc
      subst hc
      exact columns_ne title _ _ he.symm
  unfold column pair
  cases he : e.2[i]? with
  | none => simp [h1, h2]
  | some b => simp [h1, h2]

theorem columns_eq (fmt : K → Text) (title : Str) (i : Nat) {d : Bins K} (h : d.Pairwise fun a b => a.1 < b.1) :
    (columns fmt title i d).1 = d.flatMap (pair fmt title i) := by
  have hg : ∀ (d : Bins K) (s : List (Str × Option Text) × Bool), d.Pairwise (fun a b => a.1 < b.1) →
      (∀ c ∈ s.1, ∀ e ∈ d, c.1 ≠ probabilityColumn title e.1 ∧ c.1 ≠ thresholdColumn title e.1) →
      (d.foldl (column fmt title i) s).1 = s.1 ++ d.flatMap (pair fmt title i) := by
    intro d
    induction d with
    | nil => simp
    | cons e d ih =>
      intro s hp hs
      rw [List.pairwise_cons] at hp
      have h1 := column_append fmt title i s e fun c hc => hs c hc e List.mem_cons_self
      rw [List.foldl_cons, ih _ hp.2, h1, List.flatMap_cons, List.append_assoc]
      intro c hc e' he'
      rw [h1] at hc
      rcases List.mem_append.1 hc with hc | hc
      · exact hs c hc e' (List.mem_cons_of_mem _ he')
      · have hlt := hp.1 e' he'
        simp only [pair, List.mem_cons, List.not_mem_nil, or_false] at hc
        rcases hc with rfl | rfl
        · exact ⟨fun he => by have := probability_inj he; omega, fun he => columns_ne _ _ _ he.symm⟩
        · exact ⟨fun he => columns_ne _ _ _ he, fun he => by have := threshold_inj he; omega⟩
  unfold columns
  rw [hg d _ h (by simp)]
  rfl

theorem longest_le (d : Bins K) (i : Nat) : longest d ≤ i ↔ ∀ e ∈ d, e.2.length ≤ i := by
  unfold longest
  induction d with
  | nil => simp
  | cons e d ih => rw [List.map_cons, List.foldr_cons, Nat.max_le, ih, List.forall_mem_cons]

/-- All rows. -/
theorem tabularizeFrom_eq (fmt : K → Text) (title : Str) {d : Bins K} (h : d.Pairwise fun a b => a.1 < b.1) :
    ∀ (n i : Nat), longest d - i = n → tabularizeFrom fmt title d i =
      (List.range n).map fun k => d.flatMap (pair fmt title (i + k)) := by
  intro n
  induction n with
  | zero =>
    intro i hn
    rw [tabularizeFrom, if_pos ((columns_end ..).2 ((longest_le ..).1 (by omega)))]
    rfl
  | succ n ih =>
    intro i hn
    rw [tabularizeFrom, if_neg (fun hh => by have := (longest_le ..).2 ((columns_end ..).1 hh); omega), columns_eq _ _ _ h,
      ih (i + 1) (by omega), List.range_succ_eq_map, List.map_cons, List.map_map]
    refine congrArg _ (List.map_congr_left fun k _ => ?_)
    show d.flatMap (pair fmt title (i + 1 + k)) = d.flatMap (pair fmt title (i + (k + 1)))
    rw [Nat.add_right_comm, Nat.add_assoc]

theorem cell_pairs (fmt : K → Text) (title : Str) (i : Nat) {d : Bins K} (h : d.Pairwise fun a b => a.1 < b.1)
    {e : Nat × List (K × K)} (he : e ∈ d) :
    cell (d.flatMap (pair fmt title i)) (thresholdColumn title e.1) = some (e.2[i]?.map fun b => fmt b.2) ∧
    cell (d.flatMap (pair fmt title i)) (probabilityColumn title e.1) = some (e.2[i]?.map fun b => fmt b.1) := by
  induction d with
  | nil => cases he
  | cons a d ih =>
    rw [List.pairwise_cons] at h
    rw [List.flatMap_cons]
    rcases List.mem_cons.1 he with rfl | he
    · have hn : probabilityColumn title e.1 ≠ thresholdColumn title e.1 := (columns_ne title _ _).symm
      unfold cell pair
      simp [hn]
    · obtain ⟨h1, h2⟩ := ih h.2 he
      have hlt := h.1 e he
      have hn1 : thresholdColumn title a.1 ≠ thresholdColumn title e.1 := fun hh => by have := threshold_inj hh; omega
      have hn2 : probabilityColumn title a.1 ≠ probabilityColumn title e.1 := fun hh => by have := probability_inj hh; omega
      unfold cell pair at *
      simp only [List.cons_append, List.nil_append]
      constructor
      · rw [List.find?_cons_of_neg (by simpa using (columns_ne title _ _).symm), List.find?_cons_of_neg (by simpa using hn1)]
        exact h1
      · rw [List.find?_cons_of_neg (by simpa using hn2), List.find?_cons_of_neg (by simpa using columns_ne title _ _)]
        exact h2

/-! ### Theorems -/

/-- What is written by a sink, given the bins that are shown. -/
def written (fmt : Int → K → Text) (title : Str) (d : Bins K) : Sink → Written Text
  | .log decimals => .tables (expectedTables (fmt decimals) title d)
  | .csv decimals => .rows ((List.range (longest d)).map fun i => d.flatMap (pair (fmt decimals) title i))

/-- **What the sinks write.** The `n`-th sink writes each bin `n` times: only the output of the first sink is as it should be. -/
theorem write_nth (fmt : Int → K → Text) (title : Str) (model : Model K) (sinks : List Sink) (n : Nat) :
    (writeOutput fmt title model sinks)[n]? = sinks[n]?.map (written fmt title (shown (n + 1) 0 model)) := by
  have hout : ∀ (m : Nat) (sink : Sink), sink.write fmt title (shown m 0 model) = written fmt title (shown m 0 model) sink := by
    intro m sink
    have hk := (shown_keys m model 0).1
    cases sink with
    | log decimals =>
      simp only [Sink.write, written, formatBins, expectedTables]
      rw [List.mergeSort_of_pairwise (hk.imp fun h => by simpa using h.le)]
      refine congrArg _ (List.map_congr_left fun e _ => ?_)
      simp only [thresholdColumn, probabilityColumn, List.append_assoc]
      rfl
    | csv decimals =>
      simp only [Sink.write, written]
      rw [tabularizeFrom_eq _ _ hk _ 0 rfl]
      simp
  have hg : ∀ (sinks : List Sink) (n m : Nat) (d : Bins K), visitFrom 0 model d = shown (m + 1) 0 model →
      (write fmt title model d sinks)[n]? = sinks[n]?.map (written fmt title (shown (m + n + 1) 0 model)) := by
    intro sinks
    induction sinks with
    | nil => intro n m d _; simp [write]
    | cons sink sinks ih =>
      intro n m d hd
      unfold write
      dsimp only
      rw [hd]
      cases n with
      | zero =>
        rw [List.getElem?_cons_zero, List.getElem?_cons_zero, Option.map_some, hout]
      | succ n =>
        rw [List.getElem?_cons_succ, List.getElem?_cons_succ, ih n (m + 1) _ (by
          have := visitFrom_again (m + 1) model 0 [] (by simp)
          simpa using this)]
        rw [show m + 1 + n = m + (n + 1) by omega]
  unfold writeOutput
  have := hg sinks n 0 [] (by simpa using visitFrom_first model 0 [] (by simp))
  rw [Nat.zero_add] at this
  exact this

theorem shown_one (model : Model K) (i j : Nat) (bins : List (K × K)) : (j, bins) ∈ shown 1 i model ↔
    ∃ k, model[k]? = some bins ∧ bins ≠ [] ∧ j = i + k := by
  rw [mem_shown]
  constructor
  · rintro ⟨k, old, h1, h2, h3, h4⟩
    have : bins = old := by simpa using h4
    subst this
    exact ⟨k, h1, h2, h3⟩
  · rintro ⟨k, h1, h2, h3⟩
    exact ⟨k, bins, h1, h2, h3, by simp⟩

/-- **The console shows all bins, if it is the first sink**: there is a table for each list that is not empty, in increasing order,
with the thresholds and probabilities of all bins in this order. -/
theorem console_partial (fmt : Int → K → Text) (title : Str) (model : Model K) (decimals : Int) (sinks : List Sink) :
    ∃ d : Bins K, d.Pairwise (fun a b => a.1 < b.1) ∧ (∀ j bins, (j, bins) ∈ d ↔ model[j]? = some bins ∧ bins ≠ []) ∧
      (writeOutput fmt title model (.log decimals :: sinks))[0]? = some (.tables (expectedTables (fmt decimals) title d)) := by
  refine ⟨shown 1 0 model, (shown_keys 1 model 0).1, fun j bins => ?_, ?_⟩
  · rw [shown_one]
    constructor
    · rintro ⟨k, h1, h2, rfl⟩
      rw [Nat.zero_add]
      exact ⟨h1, h2⟩
    · rintro ⟨h1, h2⟩
      exact ⟨j, h1, h2, by omega⟩
  · rw [write_nth]
    rfl

theorem length_repeated (n : Nat) (bins : List (K × K)) : (List.replicate n bins).flatten.length = n * bins.length := by
  simp

/-- **CSV files contain all bins, but thresholds and probabilities are mixed up, and bins are repeated**: for each list that is not
empty, the column that is supposed to contain thresholds contains probabilities, and vice versa. If there are `n` sinks before, the
bins of each list are repeated `n + 1` times. There are as many rows as needed for the longest list, columns of shorter lists are
empty in the remaining rows. -/
theorem csv_mixed_up (fmt : Int → K → Text) (title : Str) (model : Model K) (sinks : List Sink) {n : Nat} {decimals : Int}
    (hs : sinks[n]? = some (.csv decimals)) :
    ∃ rows, (writeOutput fmt title model sinks)[n]? = some (.rows rows) ∧
      (∀ m, rows.length ≤ m ↔ ∀ bins ∈ model, (n + 1) * bins.length ≤ m) ∧
      ∀ (i : Nat) row, rows[i]? = some row → ∀ (j : Nat) bins, model[j]? = some bins → bins ≠ [] →
        cell row (title ++ " ".toList ++ str (j + 1) ++ " thresholds".toList) =
          some ((List.replicate (n + 1) bins).flatten[i]?.map fun b => fmt decimals b.2) ∧
        cell row (title ++ " ".toList ++ str (j + 1) ++ " probabilities".toList) =
          some ((List.replicate (n + 1) bins).flatten[i]?.map fun b => fmt decimals b.1) := by
  have hw := write_nth fmt title model sinks n
  rw [hs] at hw
  refine ⟨_, hw, ?_, ?_⟩
  · intro m
    rw [List.length_map, List.length_range, longest_le]
    constructor
    · intro h bins hb
      obtain ⟨j, hj⟩ := List.mem_iff_getElem?.1 hb
      by_cases hne : bins = []
      · simp [hne]
      · rw [← length_repeated]
        exact h (j, _) ((mem_shown ..).2 ⟨j, bins, hj, hne, by omega, rfl⟩)
    · rintro h ⟨j, bins⟩ he
      obtain ⟨k, old, hk, -, -, rfl⟩ := (mem_shown ..).1 he
      rw [length_repeated]
      exact h old (List.mem_of_getElem? hk)
  · intro i row hr j bins hj hne
    rw [List.getElem?_map, Option.map_eq_some_iff] at hr
    obtain ⟨i', hi', rfl⟩ := hr
    obtain ⟨_, hi'⟩ := List.getElem?_eq_some_iff.1 hi'
    rw [List.getElem_range] at hi'
    subst hi'
    have := cell_pairs (fmt decimals) title i (shown_keys (n + 1) model 0).1 (e := (j, (List.replicate (n + 1) bins).flatten))
      ((mem_shown ..).2 ⟨j, bins, hj, hne, by omega, rfl⟩)
    simp only [thresholdColumn, probabilityColumn] at this
    simp only [List.append_assoc] at this ⊢
    exact this

/-- **Negation of the claim for CSV files**: whenever a bin's threshold is displayed differently from its probability, the column
of thresholds is wrong. -/
theorem csv_wrong (fmt : Int → K → Text) (title : Str) (model : Model K) (sinks : List Sink) {n : Nat} {decimals : Int}
    (hs : sinks[n]? = some (.csv decimals)) {j i : Nat} {bins : List (K × K)} {b : K × K} (hj : model[j]? = some bins)
    (hb : bins[i]? = some b) (hne : fmt decimals b.1 ≠ fmt decimals b.2) :
    ∃ rows row, (writeOutput fmt title model sinks)[n]? = some (.rows rows) ∧ rows[i]? = some row ∧
      cell row (title ++ " ".toList ++ str (j + 1) ++ " thresholds".toList) ≠ some (some (fmt decimals b.1)) := by
  obtain ⟨rows, h1, h2, h3⟩ := csv_mixed_up fmt title model sinks hs
  have hlt := (List.getElem?_eq_some_iff.1 hb).1
  have hi : i < rows.length := by
    by_contra hc
    have h4 := (h2 i).1 (by omega) bins (List.mem_of_getElem? hj)
    rw [Nat.add_mul, Nat.one_mul] at h4
    omega
  refine ⟨rows, rows[i], h1, List.getElem?_eq_getElem hi, ?_⟩
  rw [(h3 i _ (List.getElem?_eq_getElem hi) j bins hj (fun hh => by subst hh; simp at hb)).1, List.replicate_succ,
    List.flatten_cons, List.getElem?_append_left hlt, hb]
  simpa using fun hh => hne hh.symm

/-- **Bins are repeated in CSV files, if a model is written to the console as well**: the number of rows is doubled. -/
theorem csv_doubled (fmt : Int → K → Text) (title : Str) (model : Model K) (decimals decimals' : Int) :
    ∃ tables rows, writeOutput fmt title model [.log decimals, .csv decimals'] = [.tables tables, .rows rows] ∧
      ∀ m, rows.length ≤ m ↔ ∀ bins ∈ model, 2 * bins.length ≤ m := by
  obtain ⟨rows, h1, h2, -⟩ := csv_mixed_up fmt title model [.log decimals, .csv decimals'] (n := 1) rfl
  refine ⟨formatBins (fmt decimals) title (visitFrom 0 model []), rows, ?_, h2⟩
  have h3 : writeOutput fmt title model [.log decimals, .csv decimals'] =
      [.tables (formatBins (fmt decimals) title (visitFrom 0 model [])),
        Sink.write fmt title (visitFrom 0 model (visitFrom 0 model [])) (.csv decimals')] := rfl
  rw [h3] at h1 ⊢
  rw [List.getElem?_cons_succ, List.getElem?_cons_zero, Option.some.injEq] at h1
  rw [h1]

/-! ### Examples -/

/-- Two labels, the first one has two bins. -/
def exampleModel : Model Nat := [[(10, 0), (40, 1)], [(20, 3)]]

/-- The output for the console is correct, the CSV file is not. -/
example : (writeOutput (fun _ => id) "Label".toList exampleModel [.log 4])[0]? =
    some (.tables [⟨("Label 1 thresholds".toList, "Label 1 probabilities".toList), [(10, 0), (40, 1)]⟩,
      ⟨("Label 2 thresholds".toList, "Label 2 probabilities".toList), [(20, 3)]⟩]) := by
  rw [write_nth]
  decide +kernel

example : ∃ rows row, (writeOutput (fun _ => id) "Label".toList exampleModel [.csv 0])[0]? = some (.rows rows) ∧
    rows[1]? = some row ∧ cell row "Label 1 thresholds".toList ≠ some (some 40) :=
  csv_wrong (fun _ => id) "Label".toList exampleModel [.csv 0] (n := 0) rfl (j := 0) (i := 1) rfl rfl (by decide)

end MLRL.CalibrationOutput
