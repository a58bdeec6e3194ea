import Verif.Lemma.ModelOutput

/-!
# C108: The characteristics and textual representations of rule models are correct
-/

namespace MLRL.ModelOutput

/-! ## Characteristics -/

/-- If a model contains at most one default rule, the table that is created by `tabularize` contains one row per rule, in
the order of the rules, which contains the numbers of the rule's conditions and predictions. -/
theorem tabularize_ok (rules : List Rule) (h : (rules.filter Rule.isDefault).length ≤ 1) :
    tabularize (Visitor.init.visit rules) = .ok (rules.zipIdx.map fun p => specRow p.2 p.1) := by
  have hinv := inv_visit rules
  have hloop := tabLoop_eq rules _ hinv h [] rules rfl
  have hlen : rules.length = (locals rules).length + (rules.filter Rule.isDefault).length := by
    unfold locals
    rw [← List.countP_eq_length_filter, ← List.countP_eq_length_filter, Nat.add_comm]
    exact List.length_eq_countP_add_countP Rule.isDefault
      |>.trans (by simp [Bool.not_eq_true])
  have hn : totalRules (Visitor.init.visit rules) = rules.length := by
    unfold totalRules
    rw [hinv.predictions, List.length_map]
    rcases hinv.default with ⟨h4, h5⟩ | ⟨i, r, hi, hr, h4, _⟩
    · rw [h4]
      have : rules.filter Rule.isDefault = [] := by
        rw [List.filter_eq_nil_iff]
        intro x hx
        rw [h5 x hx]; simp
      rw [this] at hlen
      simpa using hlen.symm
    · rw [h4]
      have : 0 < (rules.filter Rule.isDefault).length :=
        List.length_pos_of_mem (List.mem_filter.2 ⟨List.mem_of_getElem? hi, hr⟩)
      simp only
      omega
  rw [tabularize, hn, List.range_eq_range']
  exact hloop

/-- If there are several default rules (which is impossible for models that are created by the C++ code), one row is
created for all of them and the remaining rows may be assigned to the wrong rules. -/
theorem tabularize_wrong :
    ∃ rules rows, tabularize (Visitor.init.visit rules) = .ok rows ∧ rows.length < rules.length := by
  let rules : List Rule := [⟨.empty, .complete [1]⟩, ⟨.empty, .complete [1]⟩,
    ⟨.conjunctive ⟨some [(0, .numerical 1)], none, none, none, none, none⟩, .complete [1]⟩]
  have h : (tabularize (Visitor.init.visit rules)).toOption
      = some [⟨1, false, 1, 1, 0, 0, ⟨1, 0, 0, 0, 0, 0⟩, 1, 1, 0⟩, ⟨2, true, 0, 0, 0, 0, ⟨0, 0, 0, 0, 0, 0⟩, 1, 1, 0⟩] := by
    decide +kernel
  cases ht : tabularize (Visitor.init.visit rules) with
  | error e => rw [ht] at h; cases h
  | ok rows =>
    rw [ht] at h
    refine ⟨rules, rows, ht, ?_⟩
    rw [Option.some.inj h]
    decide

/-- The values of the rules that are not default rules. -/
def localValues (rules : List Rule) (f : Rule → Nat) : List Nat := (rules.filter fun r => !r.isDefault).map f

/-- The minimum, mean and maximum of a list of numbers (specification). If all values are zero or if there are no values,
all of them are zero. -/
structure IsSummary (s : Summary) (l : List Nat) : Prop where
  mean : s.mean * l.length = (l.sum : ℚ)
  bounds : ∀ n ∈ l, s.min ≤ n ∧ n ≤ s.max
  attained : l ≠ [] → (∃ n ∈ l, s.min = n) ∧ ∃ n ∈ l, s.max = n
  none : l = [] → s.min = 0 ∧ s.mean = 0 ∧ s.max = 0

theorem foldl_min (l : List Nat) (a : Nat) :
    (l.foldl min a = a ∨ l.foldl min a ∈ l) ∧ l.foldl min a ≤ a ∧ ∀ n ∈ l, l.foldl min a ≤ n := by
  induction l generalizing a with
  | nil => simp
  | cons b l ih =>
    obtain ⟨h1, h2, h3⟩ := ih (min a b)
    rw [List.foldl_cons]
    refine ⟨?_, le_trans h2 (min_le_left _ _), ?_⟩
    · rcases h1 with h1 | h1
      · rw [h1]
        rcases min_choice a b with h | h
        · left; exact h
        · right; rw [h]; simp
      · right; exact List.mem_cons_of_mem _ h1
    · intro n hn
      rcases List.mem_cons.1 hn with rfl | hn
      · exact le_trans h2 (min_le_right _ _)
      · exact h3 n hn

theorem foldl_max (l : List Nat) (a : Nat) :
    (l.foldl max a = a ∨ l.foldl max a ∈ l) ∧ a ≤ l.foldl max a ∧ ∀ n ∈ l, n ≤ l.foldl max a := by
  induction l generalizing a with
  | nil => simp
  | cons b l ih =>
    obtain ⟨h1, h2, h3⟩ := ih (max a b)
    rw [List.foldl_cons]
    refine ⟨?_, le_trans (le_max_left _ _) h2, ?_⟩
    · rcases h1 with h1 | h1
      · rw [h1]
        rcases max_choice a b with h | h
        · left; exact h
        · right; rw [h]; simp
      · right; exact List.mem_cons_of_mem _ h1
    · intro n hn
      rcases List.mem_cons.1 hn with rfl | hn
      · exact le_trans (le_max_right _ _) h2
      · exact h3 n hn

theorem sum_eq_zero_all (l : List Nat) (h : l.sum = 0) : ∀ n ∈ l, n = 0 := by
  induction l with
  | nil => intro n hn; cases hn
  | cons a l ih =>
    rw [List.sum_cons] at h
    intro n hn
    rcases List.mem_cons.1 hn with rfl | hn
    · omega
    · exact ih (by omega) n hn

theorem isSummary_summarize (l : List Nat) : IsSummary (summarize l) l := by
  unfold summarize
  split
  · cases l with
    | nil => rename_i h; simp at h
    | cons a as =>
      obtain ⟨m1, m2, m3⟩ := foldl_min as a
      obtain ⟨x1, x2, x3⟩ := foldl_max as a
      refine ⟨?_, ?_, ?_, ?_⟩
      · have : ((a :: as).length : ℚ) ≠ 0 := by simp; positivity
        field_simp
      · intro n hn
        simp only [Nat.cast_le]
        rcases List.mem_cons.1 hn with rfl | hn
        · exact ⟨m2, x2⟩
        · exact ⟨m3 n hn, x3 n hn⟩
      · intro _
        refine ⟨⟨as.foldl min a, ?_, rfl⟩, ⟨as.foldl max a, ?_, rfl⟩⟩
        · rcases m1 with h | h
          · rw [h]; simp
          · exact List.mem_cons_of_mem _ h
        · rcases x1 with h | h
          · rw [h]; simp
          · exact List.mem_cons_of_mem _ h
      · intro h; cases h
  · rename_i h
    have h0 : l.sum = 0 := by omega
    have hall := sum_eq_zero_all l h0
    refine ⟨by rw [h0]; simp, ?_, ?_, fun _ => ⟨rfl, rfl, rfl⟩⟩
    · intro n hn
      rw [hall n hn]; simp
    · intro hne
      cases l with
      | nil => exact absurd rfl hne
      | cons a as =>
        have := hall a (by simp)
        subst this
        exact ⟨⟨0, by simp, by simp⟩, ⟨0, by simp, by simp⟩⟩

theorem percentage_mul (part total : Nat) (h : part ≤ total) :
    percentage part total * total = part * 100 ∧ (total = 0 → percentage part total = 0) := by
  unfold percentage
  by_cases ht : total > 0
  · rw [if_pos ht]
    have : (total : ℚ) ≠ 0 := by positivity
    refine ⟨by field_simp, by omega⟩
  · rw [if_neg ht]
    have : total = 0 := by omega
    have hp : part = 0 := by omega
    subst this hp
    simp

theorem sum_map_le {α : Type} (l : List α) (f g : α → Nat) (h : ∀ a ∈ l, f a ≤ g a) : (l.map f).sum ≤ (l.map g).sum := by
  induction l with
  | nil => simp
  | cons a l ih =>
    simp only [List.map_cons, List.sum_cons]
    have := ih fun x hx => h x (List.mem_cons_of_mem _ hx)
    have := h a (by simp)
    omega

theorem sum_localValues (rules : List Rule) :
    (localValues rules fun r => r.body.counts.total).sum = (rules.map fun r => r.body.counts.total).sum := by
  induction rules with
  | nil => rfl
  | cons r rules ih =>
    unfold localValues at *
    rw [List.map_cons, List.sum_cons, ← ih]
    cases hd : r.isDefault with
    | false => rw [List.filter_cons_of_pos (by simp [hd])]; rfl
    | true =>
      rw [List.filter_cons_of_neg (by simp [hd])]
      have : r.body.counts.total = 0 := by
        unfold Rule.isDefault at hd
        cases hb : r.body with
        | empty => rfl
        | conjunctive b => rw [hb] at hd; cases hd
      omega

/-- The statistics that are shown are correct, provided that there are any predictions in the head of the default
rule. Fractions are stated by multiplying with the total number. -/
theorem statistics_ok (rules : List Rule) (h : ∀ r ∈ rules, r.isDefault = true → r.head.scores ≠ []) :
    ∃ s, statistics (Visitor.init.visit rules) = .ok s
      ∧ s.numRules = (rules.filter fun r => !r.isDefault).length
      ∧ s.totalConditions = (rules.map fun r => r.body.counts.total).sum
      ∧ s.fractions.map (fun q : ℚ => q * (s.totalConditions : ℚ))
        = [((localValues rules fun r => r.body.counts.numericalLeq).sum : ℚ) * 100,
           ((localValues rules fun r => r.body.counts.numericalGr).sum : ℚ) * 100,
           ((localValues rules fun r => r.body.counts.ordinalLeq).sum : ℚ) * 100,
           ((localValues rules fun r => r.body.counts.ordinalGr).sum : ℚ) * 100,
           ((localValues rules fun r => r.body.counts.nominalEq).sum : ℚ) * 100,
           ((localValues rules fun r => r.body.counts.nominalNeq).sum : ℚ) * 100]
      ∧ s.totalPredictions = (localValues rules fun r => r.head.scores.length).sum
      ∧ s.fracPos * s.totalPredictions = ((localValues rules fun r => r.head.counts.1).sum : ℚ) * 100
      ∧ s.fracNeg * s.totalPredictions = ((localValues rules fun r => r.head.counts.2).sum : ℚ) * 100
      ∧ IsSummary s.conditionSummary (localValues rules fun r => r.body.counts.total)
      ∧ IsSummary s.predictionSummary (localValues rules fun r => r.head.scores.length)
      ∧ (s.defaultRule = none ↔ ∀ r ∈ rules, r.isDefault = false)
      ∧ (∀ d, s.defaultRule = some d → ∃ r ∈ rules, r.isDefault = true ∧ d.1 = r.head.scores.length
          ∧ d.2.1 * d.1 = r.head.counts.1 * 100 ∧ d.2.2 * d.1 = r.head.counts.2 * 100) := by
  have hinv := inv_visit rules
  generalize Visitor.init.visit rules = v at hinv
  have hc : ∀ f : Counts → Nat, (v.conditions.map f) = localValues rules fun r => f r.body.counts := by
    intro f
    rw [hinv.conditions, List.map_map]
    rfl
  have hp : ∀ f : Nat × Nat → Nat, (v.predictions.map f) = localValues rules fun r => f r.head.counts := by
    intro f
    rw [hinv.predictions, List.map_map]
    rfl
  have hsum := sum_localValues rules
  have hpl : (localValues rules fun r => r.head.counts.1 + r.head.counts.2) = localValues rules fun r => r.head.scores.length := by
    unfold localValues
    apply List.map_congr_left
    intro r _
    exact head_counts_sum r.head
  have hle : ∀ f : Counts → Nat, (∀ c, f c ≤ c.total) →
      (localValues rules fun r => f r.body.counts).sum ≤ (localValues rules fun r => r.body.counts.total).sum :=
    fun f hf => sum_map_le _ _ _ fun r _ => hf _
  have hlt : ∀ f : Counts → Nat, (∀ c, f c ≤ c.total) →
      percentage (v.conditions.map f).sum (v.conditions.map Counts.total).sum * ((v.conditions.map Counts.total).sum : ℚ)
        = ((localValues rules fun r => f r.body.counts).sum : ℚ) * 100 := by
    intro f hf
    rw [hc f, hc Counts.total]
    exact (percentage_mul _ _ (hle f hf)).1
  have hpt : ∀ f : Nat × Nat → Nat, (∀ c, f c ≤ c.1 + c.2) →
      percentage (v.predictions.map f).sum (v.predictions.map fun p => p.1 + p.2).sum
          * (((v.predictions.map fun p => p.1 + p.2).sum : Nat) : ℚ)
        = ((localValues rules fun r => f r.head.counts).sum : ℚ) * 100 := by
    intro f hf
    rw [hp f, hp fun p => p.1 + p.2]
    exact (percentage_mul _ _ (sum_map_le _ _ _ fun r _ => hf _)).1
  have hnum : v.predictions.length = (rules.filter fun r => !r.isDefault).length := by
    rw [hinv.predictions, List.length_map]
    rfl
  have hfr : ([percentage (v.conditions.map fun c => c.numericalLeq).sum (v.conditions.map Counts.total).sum,
      percentage (v.conditions.map fun c => c.numericalGr).sum (v.conditions.map Counts.total).sum,
      percentage (v.conditions.map fun c => c.ordinalLeq).sum (v.conditions.map Counts.total).sum,
      percentage (v.conditions.map fun c => c.ordinalGr).sum (v.conditions.map Counts.total).sum,
      percentage (v.conditions.map fun c => c.nominalEq).sum (v.conditions.map Counts.total).sum,
      percentage (v.conditions.map fun c => c.nominalNeq).sum (v.conditions.map Counts.total).sum].map
        fun q : ℚ => q * ((v.conditions.map Counts.total).sum : ℚ))
      = [((localValues rules fun r => r.body.counts.numericalLeq).sum : ℚ) * 100,
         ((localValues rules fun r => r.body.counts.numericalGr).sum : ℚ) * 100,
         ((localValues rules fun r => r.body.counts.ordinalLeq).sum : ℚ) * 100,
         ((localValues rules fun r => r.body.counts.ordinalGr).sum : ℚ) * 100,
         ((localValues rules fun r => r.body.counts.nominalEq).sum : ℚ) * 100,
         ((localValues rules fun r => r.body.counts.nominalNeq).sum : ℚ) * 100] := by
    simp only [List.map_cons, List.map_nil]
    rw [hlt _ (fun c => by unfold Counts.total; omega), hlt _ (fun c => by unfold Counts.total; omega),
      hlt _ (fun c => by unfold Counts.total; omega), hlt _ (fun c => by unfold Counts.total; omega),
      hlt _ (fun c => by unfold Counts.total; omega), hlt _ (fun c => by unfold Counts.total; omega)]
  have htot : (v.conditions.map Counts.total).sum = (rules.map fun r => r.body.counts.total).sum := by
    rw [hc, hsum]
  have hptot : (v.predictions.map fun p => p.1 + p.2).sum = (localValues rules fun r => r.head.scores.length).sum := by
    rw [hp, hpl]
  have hs1 : IsSummary (summarize (v.conditions.map Counts.total)) (localValues rules fun r => r.body.counts.total) := by
    rw [hc]; exact isSummary_summarize _
  have hs2 : IsSummary (summarize (v.predictions.map fun p => p.1 + p.2))
      (localValues rules fun r => r.head.scores.length) := by
    rw [hp, hpl]; exact isSummary_summarize _
  unfold statistics
  rcases hinv.default with ⟨h4, h5⟩ | ⟨i, r, hi, hr, h4, h5, _⟩
  · simp only [h4]
    exact ⟨_, rfl, hnum, htot, hfr, hptot, hpt _ (fun c => by omega), hpt _ (fun c => by omega), hs1, hs2,
      ⟨fun _ => h5, fun _ => rfl⟩, fun d hd => by cases hd⟩
  · have hmem := List.mem_of_getElem? hi
    have hn : r.head.counts.1 + r.head.counts.2 = r.head.scores.length := head_counts_sum r.head
    have hne : r.head.scores.length ≠ 0 := fun h0 => h r hmem hr (List.length_eq_zero_iff.1 h0)
    have hneQ : (r.head.scores.length : ℚ) ≠ 0 := by exact_mod_cast hne
    simp only [h4, h5, hn, if_neg hne]
    refine ⟨_, rfl, hnum, htot, hfr, hptot, hpt _ (fun c => by omega), hpt _ (fun c => by omega), hs1, hs2, ?_, ?_⟩
    · constructor
      · intro h0; cases h0
      · intro hall
        have := hall r hmem
        rw [hr] at this; cases this
    · intro d hd
      cases hd
      refine ⟨r, hmem, hr, rfl, ?_, ?_⟩
      · show (r.head.counts.1 : ℚ) / _ * 100 * _ = _
        field_simp
      · show (r.head.counts.2 : ℚ) / _ * 100 * _ = _
        field_simp

/-- If the default rule does not predict for any outputs, an exception is raised. -/
theorem statistics_error (rules : List Rule) (r : Rule) (h : r ∈ rules) (hr : r.isDefault = true)
    (hone : ∀ r' ∈ rules, r'.isDefault = true → r'.head.scores = []) :
    statistics (Visitor.init.visit rules) = .error .zeroDivision := by
  have hinv := inv_visit rules
  generalize Visitor.init.visit rules = v at hinv
  rcases hinv.default with ⟨h4, h5⟩ | ⟨i, r', hi, hr', h4, h5, _⟩
  · have := h5 r h
    rw [hr] at this; cases this
  · have hn := head_counts_sum r'.head
    rw [hone r' (List.mem_of_getElem? hi) hr', List.length_nil] at hn
    unfold statistics
    simp only [h4, h5, hn, if_true]

/-! ## Textual representations -/

/-- The textual representation of a model consists of the texts of its rules, in the order of the rules, provided that
nominal values are not negative. -/
theorem format_ok (f : Format) (rules : List Rule) (h : ∀ r ∈ rules, ∀ c ∈ r.body.all, NonNegative f c.1) :
    f.format rules = .ok (rules.map (ruleText f)).flatten := by
  suffices ∀ text, f.visit rules text = .ok (text ++ (rules.map (ruleText f)).flatten) from this []
  induction rules with
  | nil => intro text; simp [Format.visit]
  | cons r rules ih =>
    intro text
    have ih := ih fun r' hr' => h r' (List.mem_cons_of_mem _ hr')
    simp only [Format.visit]
    rw [visitBody_eq f text r.body (h r (by simp))]
    simp only
    rw [visitHead_eq, ih]
    simp [ruleText]

/-- A negative nominal value is not rejected. Instead, the name of another value is shown, because negative indices refer
to the end of a list in Python. -/
theorem format_negative :
    ∃ (f : Format) (values : List Text), f.features = [⟨['a'], some values⟩]
      ∧ f.threshold f.features[0]? (.discrete (-1)) = .ok ['"', 'y', '"'] ∧ values[1]? = some ['y'] := by
  refine ⟨⟨[⟨['a'], some [['x'], ['y']]⟩], [], true, true, true, true, true, fun _ => [], fun _ => [], fun _ => [], fun _ => 0⟩,
    [['x'], ['y']], rfl, rfl, rfl⟩

/-- The number of lines. -/
def numLines (text : Text) : Nat := text.count '\n'

theorem count_flatten_eq (c : Char) (ls : List Text) : ls.flatten.count c = (ls.map (List.count c)).sum := by
  induction ls with
  | nil => rfl
  | cons l ls ih => rw [List.flatten_cons, List.count_append, List.map_cons, List.sum_cons, ih]

theorem count_joined (c : Char) (sep : Text) (hsep : c ∉ sep) (n : Nat) (ts : List Text) (h : ∀ t ∈ ts, c ∉ t) :
    c ∉ joined sep n ts := by
  induction ts generalizing n with
  | nil => simp [joined]
  | cons t ts ih =>
    rw [joined]
    intro hm
    rcases List.mem_append.1 hm with hm | hm
    · rcases List.mem_append.1 hm with hm | hm
      · split at hm
        · exact hsep hm
        · cases hm
      · exact h t (by simp) hm
    · exact ih _ (fun x hx => h x (List.mem_cons_of_mem _ hx)) hm

/-- No text that is shown contains a line break. -/
structure NoLineBreaks (f : Format) : Prop where
  features : ∀ x ∈ f.features, '\n' ∉ x.name ∧ ∀ values, x.nominalValues = some values → ∀ v ∈ values, '\n' ∉ v
  outputs : ∀ x ∈ f.outputs, '\n' ∉ x
  str : ∀ i, '\n' ∉ f.str i
  thresholds : ∀ t, '\n' ∉ f.formatThreshold t
  scores : ∀ s, '\n' ∉ f.formatScore s

theorem nameOf_noLineBreak {names : List Text} {print : Bool} {str : Int → Text} (hn : ∀ x ∈ names, '\n' ∉ x)
    (hs : ∀ i, '\n' ∉ str i) (i : Nat) : '\n' ∉ nameOf names print str i := by
  unfold nameOf
  split
  · rename_i name hname
    exact hn _ (List.mem_of_getElem? hname)
  · exact hs _

theorem conditionText_noLineBreak {f : Format} (hf : NoLineBreaks f) (c : (Nat × Threshold) × Text) (hop : '\n' ∉ c.2) :
    '\n' ∉ conditionText f c := by
  unfold conditionText
  have h1 : '\n' ∉ nameOf (f.features.map fun x => x.name) f.printFeatureNames f.str c.1.1 := by
    apply nameOf_noLineBreak _ hf.str
    intro x hx
    obtain ⟨y, hy, rfl⟩ := List.mem_map.1 hx
    exact (hf.features y hy).1
  have h2 : '\n' ∉ valueOf f c.1.1 c.1.2 := by
    unfold valueOf
    split
    · exact hf.thresholds _
    · rename_i feature hfeat
      split
      · exact hf.thresholds _
      · rename_i values hv
        split
        · rename_i value hval
          have := (hf.features _ (List.mem_of_getElem? hfeat)).2 values hv _ (List.mem_of_getElem? hval)
          simp [this]
        · exact hf.str _
  simp [h1, h2, hop]

/-- The text consists of one line per rule, provided that bodies or heads should be printed. -/
theorem format_lines (f : Format) (hf : NoLineBreaks f) (hp : f.printBodies = true ∨ f.printHeads = true)
    (rules : List Rule) (h : ∀ r ∈ rules, ∀ c ∈ r.body.all, NonNegative f c.1) :
    ∃ text, f.format rules = .ok text ∧ numLines text = rules.length := by
  refine ⟨_, format_ok f rules h, ?_⟩
  unfold numLines
  rw [count_flatten_eq, List.map_map]
  have hone : ∀ r : Rule, (ruleText f r).count '\n' = 1 := by
    intro r
    have hbody : '\n' ∉ bodyText f r.body := by
      unfold bodyText
      split
      · rw [← joined_zero]
        have : '\n' ∉ joined [' ', '&', ' '] 0 (r.body.all.map (conditionText f)) := by
          apply count_joined _ _ (by decide)
          intro t ht
          obtain ⟨c, hc, rfl⟩ := List.mem_map.1 ht
          apply conditionText_noLineBreak hf
          cases hb : r.body with
          | empty => rw [hb] at hc; cases hc
          | conjunctive b =>
            rw [hb] at hc
            simp only [Body.all, List.mem_append, List.mem_map] at hc
            rcases hc with ((((⟨_, _, rfl⟩ | ⟨_, _, rfl⟩) | ⟨_, _, rfl⟩) | ⟨_, _, rfl⟩) | ⟨_, _, rfl⟩) | ⟨_, _, rfl⟩ <;> simp
        simp [this]
      · simp
    have hhead : '\n' ∉ headText f r.head := by
      unfold headText
      split
      · rw [← joined_zero]
        generalize hts : (r.head.indexed.map fun e =>
            nameOf f.outputs f.printOutputNames f.str e.1 ++ [' ', '=', ' '] ++ f.formatScore e.2) = ts
        have : '\n' ∉ joined [',', ' '] 0 ts := by
          apply count_joined _ _ (by decide)
          intro t ht
          rw [← hts] at ht
          obtain ⟨e, _, rfl⟩ := List.mem_map.1 ht
          have h1 := nameOf_noLineBreak (print := f.printOutputNames) hf.outputs hf.str e.1
          have h2 := hf.scores e.2
          simp [h1, h2]
        split <;> simp [this]
      · simp
    unfold ruleText
    rw [List.count_append, List.count_append, List.count_eq_zero.2 hbody, List.count_eq_zero.2 hhead, if_pos (by
      rcases hp with hp | hp <;> simp [hp])]
    rfl
  have : (rules.map (List.count '\n' ∘ ruleText f)) = rules.map fun _ => 1 := by
    apply List.map_congr_left
    intro r _
    exact hone r
  rw [this]
  simp

/-! ## Examples -/

/-- A model that consists of two rules. -/
def exampleRules : List Rule :=
  [⟨.empty, .complete [1 / 2, -1]⟩,
   ⟨.conjunctive ⟨some [(0, .numerical 1)], none, none, none, some [(1, .discrete 1)], none⟩, .incomplete [(1, 2)]⟩]

/-- A format that shows names, but uses dummy texts for numbers. -/
def exampleFormat : Format :=
  ⟨[⟨['x'], none⟩, ⟨['y'], some [['a'], ['b']]⟩], [['l'], ['m']], true, true, true, true, true, fun _ => ['t'], fun _ => ['s'],
    fun _ => ['i'], fun _ => 0⟩

example : (exampleRules.filter Rule.isDefault).length ≤ 1 := by decide
example : ∀ r ∈ exampleRules, ∀ c ∈ r.body.all, NonNegative exampleFormat c.1 := by
  intro r hr c hc feature values h1 h2
  simp only [exampleRules, List.mem_cons, List.not_mem_nil, or_false] at hr
  rcases hr with rfl | rfl
  · cases hc
  · simp [Body.all, Conditions.list] at hc
    rcases hc with rfl | rfl
    · simp [exampleFormat] at h1
      subst h1
      cases h2
    · decide
example : exampleFormat.format exampleRules
    = .ok ("{} => (l = s, m = s)\n{x <= t & y == \"b\"} => (m = s)\n".toList) := rfl

end MLRL.ModelOutput
