import Verif.Lemma.ParameterFiles

/-!
# C109: Parameters and results that are stored in files are restored
-/

namespace MLRL.ParameterFiles

/-! ## Specification -/

/-- Rows of a CSV file on a platform on which line breaks are replaced with `\r\n`: line breaks in values are replaced as well. -/
def crlf (text : Str) : Str := text.flatMap (fun c => if c = '\n' then ['\r', '\n'] else [c])

/-- The value of a parameter that is not `None`. -/
def valueOf {V : Type} (params : Params V) (key : Str) : Option V := (Dict.get key params).join

/-- What is assumed about built-in functions: the textual representation of a number is turned into the same number. -/
structure Builtins.Inverse {F : Type} (b : Builtins F) : Prop where
  int : ∀ i, b.parseInt (b.intStr i) = some i
  float : ∀ f, b.parseFloat (b.floatStr f) = some f

/-- A value that is suited for a parameter, as it is the case for values that are given on the command line. -/
def Suited {F : Type} : Kind → Value F → Prop
  | .nominal, _ => True
  | .int, .int _ => True
  | .int, .str _ => True
  | .float, .float _ => True
  | .float, .str _ => True
  | _, _ => False

/-! ## CSV files -/

/-- All rows, no matter which characters they contain, are restored if they are read from a file they have been written to. -/
theorem csv_roundtrip (rows : List (List Str)) : readRows (translate ['\n'] (rows.map writeRow).flatten) = .ok rows := by
  rw [readRows_eq _ (Or.inl rfl)]
  congr 1
  have h : ∀ row : List Str, row.map (translate ['\n']) = row := by
    intro row
    rw [List.map_congr_left (fun f _ => translate_id f), List.map_id']
  simp [h]

example : readRows ([["a".toList, "x,\"y\"".toList, []], [[]], [], ["1\r\n2\r".toList]].map writeRow).flatten
    = .ok [["a".toList, "x,\"y\"".toList, []], [[]], [], ["1\r\n2\r".toList]] := by
  have := csv_roundtrip [["a".toList, "x,\"y\"".toList, []], [[]], [], ["1\r\n2\r".toList]]
  rwa [translate_id] at this

example : ([["a".toList, "x,\"y\"".toList, []]].map writeRow).flatten = "a,\"x,\"\"y\"\"\",\r\n".toList := by decide

/-- On Windows, an empty row is read after each row and line breaks in values are replaced. -/
theorem csv_roundtrip_windows (rows : List (List Str)) : readRows (translate ['\r', '\n'] (rows.map writeRow).flatten) =
    .ok (rows.flatMap (fun row => [row.map crlf, []])) := by
  rw [readRows_eq _ (Or.inr rfl)]
  congr 1

/-! ## Parameters -/

theorem save_eq {V : Type} (linesep : Str) (toStr : V → Str) (file : Option Str) (params : Params V) :
    saveParameters linesep toStr file params = .ok (some (translate linesep
      (([sortKeys ((tabularize toStr params).map Prod.fst),
        rowOf (sortKeys ((tabularize toStr params).map Prod.fst)) (tabularize toStr params)]).map writeRow).flatten)) := by
  unfold saveParameters
  rw [writeOutput_eq linesep false file ((tabularize toStr params).map Prod.fst) [tabularize toStr params] (by simp) (by simp)]
  rfl

theorem read_saved_aux {V : Type} (linesep : Str) (hl : linesep = ['\n'] ∨ linesep = ['\r', '\n']) (toStr : V → Str) (params : Params V)
    (file : Option Str) (hn : (params.map Prod.fst).Nodup) (hne : ∃ entry ∈ params, entry.2 ≠ none)
    (hk : ∀ key ∈ params.map Prod.fst, translate linesep key = key) :
    ∃ text dict, saveParameters linesep toStr file params = .ok (some text) ∧ readParameters (some text) = .ok dict ∧
      (dict.map Prod.fst).Nodup ∧ (∀ key ∈ dict.map Prod.fst, key ∈ params.map Prod.fst) ∧
      ∀ key, dict.get key = (valueOf params key).map (fun value => translate linesep (toStr value)) := by
  have hsub := tabularize_keys toStr params
  have hperm := sortKeys_perm ((tabularize toStr params).map Prod.fst)
  have hhn : (sortKeys ((tabularize toStr params).map Prod.fst)).Nodup := hperm.symm.nodup (hsub.nodup hn)
  have hnil : tabularize toStr params ≠ [] := by
    intro h
    obtain ⟨e, he, he'⟩ := hne
    exact he' ((tabularize_nil toStr params).1 h e he)
  generalize hH : sortKeys ((tabularize toStr params).map Prod.fst) = header at hperm hhn
  have hhne : header ≠ [] := by
    intro h
    rw [h] at hperm
    have := hperm.symm.eq_nil
    simp only [List.map_eq_nil_iff] at this
    exact hnil this
  have htr : header.map (translate linesep) = header := by
    rw [List.map_congr_left (g := id), List.map_id]
    intro key hkey
    exact hk key (hsub.subset (hperm.mem_iff.1 hkey))
  have hrow : (rowOf header (tabularize toStr params)).map (translate linesep) =
      header.map (fun key => translate linesep (((tabularize toStr params).get key).getD [])) := by
    simp [rowOf, Function.comp_def]
  have hrne : header.map (fun key => translate linesep (((tabularize toStr params).get key).getD [])) ≠ [] := by
    simpa using hhne
  refine ⟨_, header.zip (header.map (fun key => translate linesep (((tabularize toStr params).get key).getD []))), save_eq _ _ _ _, ?_, ?_, ?_, ?_⟩
  · rw [hH]
    unfold readParameters
    simp only [readRows_eq linesep hl]
    show (dictRows _ >>= _) = _
    rw [List.flatMap_cons, List.flatMap_cons, List.flatMap_nil, htr, hrow, List.cons_append, dictRows_ok header hhn hhne]
    · rcases hl with rfl | rfl
      · simp only [if_true, List.nil_append, List.append_nil, ne_eq, decide_not]
        rw [List.filter_cons_of_pos (by simpa using hhne)]
        rfl
      · simp only [ne_eq, decide_not]
        rw [if_neg (by decide)]
        simp only [List.cons_append, List.nil_append, List.append_nil]
        rw [List.filter_cons_of_neg (by simp), List.filter_cons_of_pos (by simpa using hhne)]
        rfl
    · intro row hrow
      rcases hl with rfl | rfl
      · simp at hrow
        right
        simp [hrow]
      · simp at hrow
        rcases hrow with h | h
        · exact Or.inl h
        · rcases h with h | h
          · right; simp [h]
          · exact Or.inl h
  · rw [List.map_fst_zip (by simp)]
    exact hhn
  · rw [List.map_fst_zip (by simp)]
    intro key hkey
    exact hsub.subset (hperm.mem_iff.1 hkey)
  · intro key
    rw [zip_get header (fun key => translate linesep (((tabularize toStr params).get key).getD [])) key]
    unfold valueOf
    have hget := tabularize_get toStr params hn key
    by_cases hm : key ∈ header
    · rw [if_pos hm]
      have := (get_isSome key (tabularize toStr params)).2 (hperm.mem_iff.1 hm)
      rw [hget] at this ⊢
      cases hv : (Dict.get key params).join with
      | none => rw [hv] at this; simp at this
      | some v => rfl
    · rw [if_neg hm]
      have := get_none key (tabularize toStr params) (fun h => hm (hperm.mem_iff.2 h))
      rw [hget] at this
      cases hv : (Dict.get key params).join with
      | none => rfl
      | some v => rw [hv] at this; simp at this

/-- If at least one parameter is not `None`, exactly the parameters that are not `None` are read from a file they have been saved to.
Their values are the textual representations of the original values, whatever characters they contain. -/
theorem read_saved {V : Type} (toStr : V → Str) (params : Params V) (file : Option Str) (hn : (params.map Prod.fst).Nodup)
    (hne : ∃ entry ∈ params, entry.2 ≠ none) :
    ∃ text dict, saveParameters ['\n'] toStr file params = .ok (some text) ∧ readParameters (some text) = .ok dict ∧
      ∀ key, dict.get key = (valueOf params key).map toStr := by
  obtain ⟨text, dict, h1, h2, _, _, h3⟩ :=
    read_saved_aux ['\n'] (Or.inl rfl) toStr params file hn hne (fun key _ => translate_id key)
  refine ⟨text, dict, h1, h2, fun key => ?_⟩
  rw [h3 key]
  congr 1
  funext value
  exact translate_id _

example : (saveParameters ['\n'] id none
      [("loss".toList, some "logistic".toList), ("holdout".toList, none), ("head_type".toList, some "partial-fixed{min=1,max=2}".toList)]).toOption
    = some (some "head_type,loss\r\n\"partial-fixed{min=1,max=2}\",logistic\r\n".toList) := by decide +kernel

/-- The same on Windows, provided that the names of parameters do not contain any line breaks. However, line breaks in values are
replaced. -/
theorem read_saved_windows {V : Type} (toStr : V → Str) (params : Params V) (file : Option Str) (hn : (params.map Prod.fst).Nodup)
    (hne : ∃ entry ∈ params, entry.2 ≠ none) (hk : ∀ key ∈ params.map Prod.fst, crlf key = key) :
    ∃ text dict, saveParameters ['\r', '\n'] toStr file params = .ok (some text) ∧ readParameters (some text) = .ok dict ∧
      ∀ key, dict.get key = (valueOf params key).map (fun value => crlf (toStr value)) := by
  obtain ⟨text, dict, h1, h2, _, _, h3⟩ := read_saved_aux ['\r', '\n'] (Or.inr rfl) toStr params file hn hne hk
  exact ⟨text, dict, h1, h2, h3⟩

/-- If all parameters are `None`, which is the case if no parameters are given on the command line, they can be saved. However, an
exception is raised (and not handled) when an attempt to read the file is made. -/
theorem read_saved_none {V : Type} (linesep : Str) (hl : linesep = ['\n'] ∨ linesep = ['\r', '\n']) (toStr : V → Str) (params : Params V)
    (file : Option Str) (hnone : ∀ entry ∈ params, entry.2 = none) :
    ∃ text, saveParameters linesep toStr file params = .ok (some text) ∧ readParameters (some text) = .error .stopIteration := by
  refine ⟨_, save_eq linesep toStr file params, ?_⟩
  rw [(tabularize_nil toStr params).2 hnone]
  unfold readParameters
  simp only [readRows_eq linesep hl]
  rcases hl with rfl | rfl <;> rfl

example : (saveParameters ['\n'] id none [("loss".toList, (none : Option Str)), ("holdout".toList, none)]).toOption
    = some (some "\r\n\r\n".toList) := by decide +kernel

/-- Each of the parameters that have been saved replaces the value of a learner. All other values are not changed, even if they are not
`None`. -/
theorem apply_saved {V : Type} (toStr : V → Str) (ofStr : Str → V) (params base : Params V) (file : Option Str)
    (hn : (params.map Prod.fst).Nodup) (hne : ∃ entry ∈ params, entry.2 ≠ none)
    (hkeys : ∀ key ∈ params.map Prod.fst, key ∈ base.map Prod.fst) :
    ∃ text loaded, saveParameters ['\n'] toStr file params = .ok (some text) ∧ applyParameters ofStr (some text) base = .ok loaded ∧
      loaded.map Prod.fst = base.map Prod.fst ∧
      ∀ key, valueOf loaded key = (match valueOf params key with
        | some value => some (ofStr (toStr value))
        | none => valueOf base key) := by
  obtain ⟨text, dict, h1, h2, h3, h4, h5⟩ :=
    read_saved_aux ['\n'] (Or.inl rfl) toStr params file hn hne (fun key _ => translate_id key)
  obtain ⟨loaded, h6, h7, h8⟩ := setParams_ok ofStr dict base h3 (fun key hkey => hkeys key (h4 key hkey))
  refine ⟨text, loaded, h1, ?_, h7, fun key => ?_⟩
  · unfold applyParameters
    rw [h2]
    exact h6
  · have h9 := h8 key
    rw [h5 key] at h9
    show (Dict.get key loaded).join = _
    rw [h9]
    cases hv : valueOf params key with
    | none => rfl
    | some v =>
      simp only [Option.map_some, translate_id]
      rfl

theorem filterMap_congr' {α β : Type} (f g : α → Option β) (l : List α) (h : ∀ a ∈ l, f a = g a) : l.filterMap f = l.filterMap g := by
  induction l with
  | nil => rfl
  | cons a l ih =>
    have ih := ih (fun b hb => h b (by simp [hb]))
    rw [List.filterMap_cons, List.filterMap_cons, h a (by simp), ih]

/-- A learner without parameters that loads the parameters of another one is configured in the same way, if the values are suited for
the respective parameters. -/
theorem parameters_restored {F : Type} (b : Builtins F) (hb : b.Inverse) (parameters : List (Str × Kind)) (params base : Params (Value F))
    (file : Option Str) (hn : (params.map Prod.fst).Nodup) (hne : ∃ entry ∈ params, entry.2 ≠ none)
    (hkeys : ∀ key ∈ params.map Prod.fst, key ∈ base.map Prod.fst) (hbase : ∀ entry ∈ base, entry.2 = none)
    (hs : ∀ parameter ∈ parameters, ∀ value, valueOf params parameter.1 = some value → Suited parameter.2 value) :
    ∃ text loaded, saveParameters ['\n'] (Value.toStr b) file params = .ok (some text) ∧
      applyParameters Value.str (some text) base = .ok loaded ∧
      configureLearner b parameters loaded = configureLearner b parameters params := by
  obtain ⟨text, loaded, h1, h2, hl, h3⟩ := apply_saved (Value.toStr b) Value.str params base file hn hne hkeys
  refine ⟨text, loaded, h1, h2, ?_⟩
  unfold configureLearner
  refine filterMap_congr' _ _ _ ?_
  rintro ⟨key, kind⟩ hp
  have h4 := h3 key
  unfold valueOf at h4
  rw [h4]
  cases hv : (Dict.get key params).join with
  | none =>
    have h5 : (Dict.get key base).join = none := by
      clear h4 hkeys h3 h2 hl
      induction base with
      | nil => rfl
      | cons e base ih =>
        simp only [Dict.get]
        split
        · simp [hbase e (by simp)]
        · exact ih (fun e' he' => hbase e' (by simp [he']))
    simp [h5]
  | some value =>
    simp only [Option.map_some, Option.some.injEq, Prod.mk.injEq, true_and]
    have hsuit := hs (key, kind) hp value hv
    cases kind <;> cases value <;> simp [Suited, configure, Value.toStr, Value.toInt, Value.toFloat, hb.int, hb.float] at hsuit ⊢

/-- Built-in functions that meet the assumptions: integers are represented by lists of characters. -/
def exBuiltins : Builtins Int where
  intStr i := List.replicate i.natAbs 'I' ++ (if i < 0 then ['-'] else [])
  floatStr i := List.replicate i.natAbs 'I' ++ (if i < 0 then ['-'] else [])
  parseInt s := if 'T' ∈ s then none else some (if '-' ∈ s then -(s.count 'I' : Int) else s.count 'I')
  parseFloat s := some (if '-' ∈ s then -(s.count 'I' : Int) else s.count 'I')
  floatToInt i := some i
  intToFloat i := some i

theorem exBuiltins_inverse : exBuiltins.Inverse := by
  have h : ∀ i : Int, (if '-' ∈ List.replicate i.natAbs 'I' ++ (if i < 0 then ['-'] else [])
      then -((List.replicate i.natAbs 'I' ++ (if i < 0 then ['-'] else [])).count 'I' : Int)
      else ((List.replicate i.natAbs 'I' ++ (if i < 0 then ['-'] else [])).count 'I' : Int)) = i := by
    intro i
    by_cases hi : i < 0
    · simp [hi, List.count_cons]
      omega
    · simp [hi]
      omega
  have ht : ∀ i : Int, 'T' ∉ List.replicate i.natAbs 'I' ++ (if i < 0 then ['-'] else []) := by
    intro i
    by_cases hi : i < 0 <;> simp [hi]
  constructor
  · intro i
    simp only [exBuiltins, if_neg (ht i)]
    rw [h i]
  · intro i
    simp only [exBuiltins]
    rw [h i]

example : ∃ text loaded, saveParameters ['\n'] (Value.toStr exBuiltins) none
      [("max_rules".toList, some (.int 5)), ("loss".toList, some (.str "logistic".toList)), ("holdout".toList, none)] = .ok (some text) ∧
    applyParameters Value.str (some text) [("loss".toList, none), ("max_rules".toList, none), ("holdout".toList, none)] = .ok loaded ∧
    configureLearner exBuiltins [("max_rules".toList, .int), ("loss".toList, .nominal)] loaded =
      configureLearner exBuiltins [("max_rules".toList, .int), ("loss".toList, .nominal)]
        [("max_rules".toList, some (.int 5)), ("loss".toList, some (.str "logistic".toList)), ("holdout".toList, none)] := by
  apply parameters_restored exBuiltins exBuiltins_inverse
  · decide
  · exact ⟨_, List.mem_cons_self, by simp⟩
  · decide
  · simp
  · intro p hp value hv
    rcases List.mem_cons.1 hp with rfl | hp
    · have h1 : (some (Value.int 5) : Option (Value Int)) = some value := hv
      cases h1
      trivial
    · rcases List.mem_cons.1 hp with rfl | hp
      · trivial
      · exact absurd hp (by simp)

/-- If a value is not suited, the configuration may fail after it has been loaded: `int(True)` is one, but `int('True')` raises an
exception. -/
theorem bool_not_restored {F : Type} (b : Builtins F) (hp : b.parseInt "True".toList = none) :
    configure b .int (.bool true) = some (.int 1) ∧ configure b .int (.str ((Value.bool true : Value F).toStr b)) = none := by
  refine ⟨rfl, ?_⟩
  show (b.parseInt "True".toList).map _ = none
  rw [hp]
  rfl

example : exBuiltins.parseInt "True".toList = none := by decide

/-! ## Names of files -/

theorem str_mem (n : Nat) (c : Char) (h : c ∈ str n) : c.isDigit = true :=
  Nat.isDigit_of_mem_toDigits (by decide) (by decide) h

theorem str_inj (m n : Nat) (h : str m = str n) : m = n := by
  have h1 := congrArg (fun s => Nat.ofDigitChars 10 s 0) h
  simpa [str, Nat.ofDigitChars_ten_toDigits] using h1

/-- Files with different names or that correspond to different folds do not overwrite each other. -/
theorem fileNamePerFold_inj (name name' suffix : Str) (fold fold' : Option Nat) :
    fileNamePerFold name suffix fold = fileNamePerFold name' suffix fold' ↔ name = name' ∧ fold = fold' := by
  constructor
  · intro h
    unfold fileNamePerFold fileName at h
    have h := List.append_cancel_right h
    -- the last underscore
    have key : ∀ (a a' b b' : Str), '_' ∉ b → '_' ∉ b' → a ++ '_' :: b = a' ++ '_' :: b' → a = a' ∧ b = b' := by
      intro a
      induction a with
      | nil =>
        intro a' b b' hb hb' h
        cases a' with
        | nil => simpa using h
        | cons c a' =>
          simp only [List.nil_append, List.cons_append, List.cons.injEq] at h
          exact absurd (by rw [h.2]; simp) hb
      | cons d a ih =>
        intro a' b b' hb hb' h
        cases a' with
        | nil =>
          simp only [List.nil_append, List.cons_append, List.cons.injEq] at h
          exact absurd (by rw [← h.2]; simp) hb'
        | cons c a' =>
          simp only [List.cons_append, List.cons.injEq] at h
          obtain ⟨h1, h2⟩ := ih a' b b' hb hb' h.2
          exact ⟨by rw [h.1, h1], h2⟩
    have hnot : ∀ fold : Option Nat, '_' ∉ (match fold with
        | none => "overall".toList
        | some fold => "fold-".toList ++ str (fold + 1)) := by
      intro fold hm
      cases fold with
      | none => simp at hm
      | some f =>
        simp only [List.mem_append] at hm
        rcases hm with hm | hm
        · simp at hm
        · exact absurd (str_mem _ _ hm) (by decide)
    obtain ⟨h1, h2⟩ := key _ _ _ _ (hnot fold) (hnot fold') h
    refine ⟨h1, ?_⟩
    cases fold with
    | none =>
      cases fold' with
      | none => rfl
      | some f =>
        exfalso
        simp at h2
    | some f =>
      cases fold' with
      | none =>
        exfalso
        simp at h2
      | some f' =>
        have := str_inj _ _ (List.append_cancel_left h2)
        simp at this
        rw [this]
  · rintro ⟨rfl, rfl⟩
    rfl

example : fileNamePerFold "parameters".toList "csv".toList (some 9) = "parameters_fold-10.csv".toList := by decide

/-! ## Incremental evaluation -/

theorem appended (header : List Str) (rows : List (Dict Str)) (more : List (Dict Str)) :
    translate ['\n'] ((header :: rows.map (rowOf header)).map writeRow).flatten ++ translate ['\n'] ((more.map (rowOf header)).map writeRow).flatten
      = translate ['\n'] ((header :: (rows ++ more).map (rowOf header)).map writeRow).flatten := by
  rw [← translate_append]
  simp

theorem writeIncrementally_eq (keys : List Str) (rows : List (List (Dict Str))) (hne : ∀ l ∈ rows, l ≠ [])
    (hk : ∀ l ∈ rows, ∀ row ∈ l, row.map Prod.fst = keys) : ∀ (old : List (Dict Str)),
    rows.foldlM (fun file rows => writeOutput ['\n'] true file rows)
        (some (translate ['\n'] ((sortKeys keys :: old.map (rowOf (sortKeys keys))).map writeRow).flatten)) =
      .ok (some (translate ['\n'] ((sortKeys keys :: (old ++ rows.flatten).map (rowOf (sortKeys keys))).map writeRow).flatten)) := by
  induction rows with
  | nil => intro old; simp; rfl
  | cons l rows ih =>
    intro old
    rw [List.foldlM_cons, writeOutput_eq ['\n'] true _ keys l (hne l (by simp)) (hk l (by simp))]
    simp only []
    rw [appended]
    have := ih (fun l' hl' => hne l' (by simp [hl'])) (fun l' hl' => hk l' (by simp [hl'])) (old ++ l)
    rw [List.flatten_cons, ← List.append_assoc]
    exact this

theorem read_written (keys : List Str) (hn : keys.Nodup) (hkn : keys ≠ []) (rows : List (Dict Str))
    (hk : ∀ row ∈ rows, row.map Prod.fst = keys) :
    ∃ dicts, (readRows (translate ['\n'] ((sortKeys keys :: rows.map (rowOf (sortKeys keys))).map writeRow).flatten) >>= dictRows) = .ok dicts ∧
      dicts.length = rows.length ∧ ∀ (i : Nat) (row : Dict Str), rows[i]? = some row → ∃ dict, dicts[i]? = some dict ∧
        ∀ key, dict.get key = row.get key := by
  have hperm := sortKeys_perm keys
  have hhn := hperm.symm.nodup hn
  have hhne : sortKeys keys ≠ [] := by
    intro h
    rw [h] at hperm
    exact hkn hperm.symm.eq_nil
  refine ⟨rows.map (fun row => (sortKeys keys).zip (rowOf (sortKeys keys) row)), ?_, by simp, ?_⟩
  · rw [csv_roundtrip]
    simp only [bind, Except.bind]
    rw [dictRows_ok _ hhn hhne]
    · rw [List.filter_eq_self.2]
      · simp [Function.comp_def]
      · intro row hrow
        obtain ⟨r, _, rfl⟩ := List.mem_map.1 hrow
        simpa [rowOf] using hhne
    · intro row hrow
      obtain ⟨r, _, rfl⟩ := List.mem_map.1 hrow
      right
      simp [rowOf]
  · intro i row hrow
    refine ⟨(sortKeys keys).zip (rowOf (sortKeys keys) row), by simp [hrow], fun key => ?_⟩
    unfold rowOf
    rw [zip_get (sortKeys keys) (fun key => (row.get key).getD []) key]
    have hkeys := hk row (List.mem_of_getElem? hrow)
    by_cases hm : key ∈ sortKeys keys
    · rw [if_pos hm]
      have := (get_isSome key row).2 (by rw [hkeys]; exact hperm.mem_iff.1 hm)
      cases hv : Dict.get key row with
      | none => rw [hv] at this; simp at this
      | some v => rfl
    · rw [if_neg hm, get_none]
      rw [hkeys]
      exact fun h => hm (hperm.mem_iff.2 h)

/-- If the output directory is cleared or the file does not exist, a file to which results for several models are appended contains
exactly these results. -/
theorem incremental_ok (clear : Bool) (file : Option Str) (hc : clear = true ∨ file = none) (keys : List Str) (hn : keys.Nodup)
    (hkn : keys ≠ []) (rows : List (List (Dict Str))) (hr : rows ≠ []) (hne : ∀ l ∈ rows, l ≠ [])
    (hk : ∀ l ∈ rows, ∀ row ∈ l, row.map Prod.fst = keys) :
    ∃ text dicts, writeIncrementally ['\n'] clear file rows = .ok (some text) ∧ (readRows text >>= dictRows) = .ok dicts ∧
      dicts.length = rows.flatten.length ∧ ∀ (i : Nat) (row : Dict Str), rows.flatten[i]? = some row →
        ∃ dict, dicts[i]? = some dict ∧ ∀ key, dict.get key = row.get key := by
  have hfile : (if clear then none else file) = none := by
    rcases hc with h | h <;> simp [h]
  obtain ⟨dicts, h1, h2, h3⟩ := read_written keys hn hkn rows.flatten (by
    intro row hrow
    obtain ⟨l, hl, hrl⟩ := List.mem_flatten.1 hrow
    exact hk l hl row hrl)
  refine ⟨_, dicts, ?_, h1, h2, h3⟩
  unfold writeIncrementally
  rw [hfile]
  cases rows with
  | nil => exact absurd rfl hr
  | cons l rows =>
    rw [List.foldlM_cons, writeOutput_eq ['\n'] true _ keys l (hne l (by simp)) (hk l (by simp))]
    exact writeIncrementally_eq keys rows (fun l' hl' => hne l' (by simp [hl'])) (fun l' hl' => hk l' (by simp [hl'])) l

/-- If the output directory is not cleared, which is the case if a single fold of a cross validation is performed, the results of an
earlier run are kept: they precede the new ones and the number of rows grows with each run. -/
theorem incremental_stale (keys : List Str) (hn : keys.Nodup) (hkn : keys ≠ []) (old rows : List (List (Dict Str)))
    (ho : old ≠ []) (hone : ∀ l ∈ old, l ≠ []) (hne : ∀ l ∈ rows, l ≠ [])
    (hok : ∀ l ∈ old, ∀ row ∈ l, row.map Prod.fst = keys) (hk : ∀ l ∈ rows, ∀ row ∈ l, row.map Prod.fst = keys) :
    ∃ file text dicts, writeIncrementally ['\n'] false none old = .ok file ∧ writeIncrementally ['\n'] false file rows = .ok (some text) ∧
      (readRows text >>= dictRows) = .ok dicts ∧ dicts.length = old.flatten.length + rows.flatten.length ∧
      ∀ (i : Nat) (row : Dict Str), (old.flatten ++ rows.flatten)[i]? = some row →
        ∃ dict, dicts[i]? = some dict ∧ ∀ key, dict.get key = row.get key := by
  obtain ⟨dicts, h1, h2, h3⟩ := read_written keys hn hkn (old.flatten ++ rows.flatten) (by
    intro row hrow
    rcases List.mem_append.1 hrow with hrow | hrow
    · obtain ⟨l, hl, hrl⟩ := List.mem_flatten.1 hrow
      exact hok l hl row hrl
    · obtain ⟨l, hl, hrl⟩ := List.mem_flatten.1 hrow
      exact hk l hl row hrl)
  refine ⟨some (translate ['\n'] ((sortKeys keys :: old.flatten.map (rowOf (sortKeys keys))).map writeRow).flatten), _, dicts, ?_, ?_, h1, by simpa using h2, h3⟩
  · unfold writeIncrementally
    cases old with
    | nil => exact absurd rfl ho
    | cons l old =>
      simp only [if_true, if_false, Bool.false_eq_true]
      rw [List.foldlM_cons, writeOutput_eq ['\n'] true _ keys l (hone l (by simp)) (hok l (by simp))]
      exact writeIncrementally_eq keys old (fun l' hl' => hone l' (by simp [hl'])) (fun l' hl' => hok l' (by simp [hl'])) l
  · unfold writeIncrementally
    simp only [if_false, Bool.false_eq_true]
    exact writeIncrementally_eq keys rows hne hk old.flatten

example : (writeIncrementally ['\n'] true (some "x".toList)
      [[[("Model size".toList, "1".toList), ("F1".toList, "0.5".toList)]], [[("Model size".toList, "2".toList), ("F1".toList, "0.75".toList)]]]).toOption
    = some (some "F1,Model size\r\n0.5,1\r\n0.75,2\r\n".toList) := by decide +kernel

end MLRL.ParameterFiles
