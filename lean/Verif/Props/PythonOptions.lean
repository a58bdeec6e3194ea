import Verif.Model.PythonOptions
import Mathlib.Data.List.TakeWhile

/-!
# C102: the values of parameters and their options are parsed according to a grammar
-/

namespace MLRL.PythonOptions

/-! ### Specification -/

/-- The text of an element of a list of options: nothing or `key=value`. -/
def elementText : Option (Str × Str) → Str
  | none => []
  | some (key, value) => key ++ '=' :: value

/-- The texts of elements, separated by commas. -/
def listText : List (Option (Str × Str)) → Str
  | [] => []
  | [e] => elementText e
  | e :: es => elementText e ++ ',' :: listText es

/-- A key and a value may be written as an option: neither is empty, the key is allowed, and none of them contains a character with a special meaning. -/
structure Valid (allowed : List Str) (option : Str × Str) : Prop where
  key : option.1 ≠ []
  value : option.2 ≠ []
  mem : option.1 ∈ allowed
  keyComma : ',' ∉ option.1
  keyEquals : '=' ∉ option.1
  valueComma : ',' ∉ option.2
  valueEquals : '=' ∉ option.2

/-- The text is a list of options in curly braces. -/
structure Denotes (allowed : List Str) (text : Str) (es : List (Option (Str × Str))) : Prop where
  text : text = '{' :: (listText es ++ ['}'])
  valid : ∀ option, some option ∈ es → Valid allowed option

/-- The value of a key: the one that is given last. -/
def lastValue (es : List (Option (Str × Str))) (key : Str) : Option Str := ((es.filterMap id).reverse).lookup key

/-- The text is one of the values, possibly followed by options, possibly surrounded by spaces. -/
inductive Means (space : Char → Bool) (items : List (Str × List Str)) (text : Str) : Str → List (Option (Str × Str)) → Prop where
  | bare (name : Str) (allowed : List Str) (s : Str) : (name, allowed) ∈ items → (∀ c ∈ s, space c) → text = name ++ s → Means space items text name []
  | options (name : Str) (allowed : List Str) (s t body : Str) (es : List (Option (Str × Str))) : (name, allowed) ∈ items → (∀ c ∈ s, space c) →
      (∀ c ∈ t, space c) → Denotes allowed body es → text = name ++ (s ++ (body ++ t)) → Means space items text name es

/-- No value is the beginning of another one. -/
def PrefixFree (items : List (Str × List Str)) : Prop := items.Pairwise (fun a b => ¬ a.1 <+: b.1 ∧ ¬ b.1 <+: a.1)

instance (items : List (Str × List Str)) : Decidable (PrefixFree items) := by unfold PrefixFree; infer_instance

/-! ### Auxiliary lemmas -/

theorem split_ne_nil (c : Char) : ∀ s, split c s ≠ []
  | [] => by simp [split]
  | x :: xs => by
    unfold split
    split
    · simp
    · split <;> simp

theorem split_of_notMem {c : Char} : ∀ {s : Str}, c ∉ s → split c s = [s]
  | [], _ => rfl
  | x :: xs, h => by
    have hx : x ≠ c := fun hx => h (by simp [hx])
    rw [split, if_neg hx, split_of_notMem (fun hm => h (List.mem_cons_of_mem _ hm))]

theorem split_append {c : Char} : ∀ {s : Str} (t : Str), c ∉ s → split c (s ++ c :: t) = s :: split c t
  | [], t, _ => by simp [split]
  | x :: xs, t, h => by
    have hx : x ≠ c := fun hx => h (by simp [hx])
    rw [List.cons_append, split, if_neg hx, split_append t (fun hm => h (List.mem_cons_of_mem _ hm))]

/-- The parts do not contain the separator and the string can be put together from them. -/
theorem split_spec (c : Char) : ∀ s : Str, (∀ part ∈ split c s, c ∉ part) ∧ [c].intercalate (split c s) = s
  | [] => by simp [split]
  | x :: xs => by
    obtain ⟨h1, h2⟩ := split_spec c xs
    rw [split]
    split
    · rename_i hx
      refine ⟨?_, ?_⟩
      · intro part hp
        rcases List.mem_cons.1 hp with rfl | hp
        · simp
        · exact h1 part hp
      · cases hs : split c xs with
        | nil => exact absurd hs (split_ne_nil c xs)
        | cons p ps =>
          rw [hs] at h2
          rw [hx, List.intercalate_cons_cons, h2]
          simp
    · rename_i hx
      cases hs : split c xs with
      | nil => exact absurd hs (split_ne_nil c xs)
      | cons p ps =>
        rw [hs] at h1 h2
        refine ⟨?_, ?_⟩
        · intro part hp
          rcases List.mem_cons.1 hp with rfl | hp
          · intro hm
            rcases List.mem_cons.1 hm with h | hm
            · exact hx h.symm
            · exact h1 p (by simp) hm
          · exact h1 part (List.mem_cons_of_mem _ hp)
        · cases ps with
          | nil => simpa using h2
          | cons q qs =>
            rw [List.intercalate_cons_cons] at h2 ⊢
            rw [List.cons_append, List.cons_append] 
            exact congrArg (x :: ·) h2


/-- The effect of an element on the dictionary. -/
def record (dict : Dict) : Option (Str × Str) → Dict
  | none => dict
  | some (key, value) => assign dict key value

theorem createElement_text {allowed : List Str} {e : Option (Str × Str)} (h : ∀ option, e = some option → Valid allowed option) (dict : Dict) :
    createElement allowed dict (elementText e) = .ok (record dict e) := by
  cases e with
  | none => rfl
  | some option =>
    obtain ⟨key, value⟩ := option
    have hv := h _ rfl
    have hs : split '=' (key ++ '=' :: value) = [key, value] := by rw [split_append value hv.keyEquals, split_of_notMem hv.valueEquals]
    have hk : key.length ≠ 0 := fun h0 => hv.key (List.length_eq_zero_iff.1 h0)
    have hw : value.length ≠ 0 := fun h0 => hv.value (List.length_eq_zero_iff.1 h0)
    unfold createElement elementText
    rw [if_pos (by simp; omega), hs]
    show (if key.length = 0 then _ else _) = _
    rw [if_neg hk, if_neg (not_not_intro hv.mem), if_neg hw]
    rfl

theorem createElement_ok {allowed : List Str} {dict d : Dict} {text : Str} (hc : ',' ∉ text) (h : createElement allowed dict text = .ok d) :
    ∃ e, text = elementText e ∧ (∀ option, e = some option → Valid allowed option) ∧ d = record dict e := by
  unfold createElement at h
  split at h
  · rename_i hlen
    split at h
    · rename_i key value hs
      obtain ⟨h1, h2⟩ := split_spec '=' text
      rw [hs] at h1 h2
      have ht : text = key ++ '=' :: value := by rw [← h2]; simp
      split at h
      · cases h
      · rename_i hk
        split at h
        · cases h
        · rename_i hm
          split at h
          · cases h
          · rename_i hw
            cases h
            refine ⟨some (key, value), ht, ?_, rfl⟩
            rintro option ⟨⟩
            rw [ht] at hc
            exact ⟨fun h0 => hk (by simp only at h0; simp [h0]), fun h0 => hw (by simp only at h0; simp [h0]), Classical.not_not.1 hm, fun hm' => hc (by simp at hm' ⊢; exact .inl hm'), h1 _ (by simp),
              fun hm' => hc (by simp at hm' ⊢; exact .inr hm'), h1 _ (by simp)⟩
    · cases h
  · rename_i hlen
    cases h
    refine ⟨none, ?_, (fun _ h => by cases h), rfl⟩
    exact List.length_eq_zero_iff.1 (by omega)

theorem comma_notMem {allowed : List Str} {e : Option (Str × Str)} (h : ∀ option, e = some option → Valid allowed option) : ',' ∉ elementText e := by
  cases e with
  | none => simp [elementText]
  | some option =>
    have hv := h _ rfl
    obtain ⟨key, value⟩ := option
    intro hm
    rw [elementText, List.mem_append, List.mem_cons] at hm
    rcases hm with hm | hm | hm
    · exact hv.keyComma hm
    · exact absurd hm (by decide)
    · exact hv.valueComma hm

theorem split_listText {allowed : List Str} : ∀ {es : List (Option (Str × Str))}, es ≠ [] → (∀ option, some option ∈ es → Valid allowed option) →
    split ',' (listText es) = es.map elementText
  | [], h, _ => absurd rfl h
  | [e], _, hv => by
    rw [listText, split_of_notMem (comma_notMem (allowed := allowed) (fun option h => hv option (by simp [h])))]
    rfl
  | e :: e' :: es, _, hv => by
    rw [listText, split_append _ (comma_notMem (allowed := allowed) (fun option h => hv option (by simp [h]))),
      split_listText (List.cons_ne_nil _ _) (fun option h => hv option (List.mem_cons_of_mem _ h))]
    · rfl
    · simp

theorem foldlM_text {allowed : List Str} : ∀ {es : List (Option (Str × Str))} (dict : Dict), (∀ option, some option ∈ es → Valid allowed option) →
    (es.map elementText).foldlM (createElement allowed) dict = .ok (es.foldl record dict)
  | [], _, _ => rfl
  | e :: es, dict, hv => by
    rw [List.map_cons, List.foldlM_cons, createElement_text (fun option h => hv option (by simp [h]))]
    exact foldlM_text _ (fun option h => hv option (List.mem_cons_of_mem _ h))

theorem foldlM_ok {allowed : List Str} : ∀ {parts : List Str} {dict d : Dict}, (∀ part ∈ parts, ',' ∉ part) →
    parts.foldlM (createElement allowed) dict = .ok d →
    ∃ es : List (Option (Str × Str)), parts = es.map elementText ∧ (∀ option, some option ∈ es → Valid allowed option) ∧ d = es.foldl record dict
  | [], _, _, _, h => by
    cases h
    exact ⟨[], rfl, (fun _ h => by cases h), rfl⟩
  | part :: parts, dict, d, hc, h => by
    rw [List.foldlM_cons] at h
    cases h1 : createElement allowed dict part with
    | error e => rw [h1] at h; cases h
    | ok d1 =>
      rw [h1] at h
      obtain ⟨e, he1, he2, he3⟩ := createElement_ok (hc part (by simp)) h1
      obtain ⟨es, hs1, hs2, hs3⟩ := foldlM_ok (dict := d1) (fun p hp => hc p (List.mem_cons_of_mem _ hp)) h
      refine ⟨e :: es, by rw [he1, hs1]; rfl, ?_, ?_⟩
      · intro option hm
        rcases List.mem_cons.1 hm with hm | hm
        · exact he2 option hm.symm
        · exact hs2 option hm
      · rw [hs3, he3]; rfl

theorem listText_eq : ∀ es : List (Option (Str × Str)), listText es = [','].intercalate (es.map elementText)
  | [] => rfl
  | [e] => by simp [listText]
  | e :: e' :: es => by
    rw [listText, List.map_cons, List.map_cons, List.intercalate_cons_cons, listText_eq (e' :: es)]
    · simp
    · simp

theorem lookup_assign (key value : Str) (k : Str) : ∀ dict : Dict, (assign dict key value).lookup k = if k = key then some value else dict.lookup k
  | [] => by
    simp only [assign, List.lookup]
    by_cases h : k = key
    · simp [h]
    · rw [if_neg h]
      have : (k == key) = false := by simpa using h
      simp [this]
  | (k', v') :: rest => by
    rw [assign]
    split
    · rename_i hk
      subst hk
      by_cases h : k = k'
      · subst h; simp [List.lookup]
      · have : (k == k') = false := by simpa using h
        simp [List.lookup, this, h]
    · rename_i hk
      by_cases h : k = k'
      · subst h
        simp [List.lookup, hk]
      · have : (k == k') = false := by simpa using h
        rw [List.lookup, this]
        show (assign rest key value).lookup k = _
        rw [lookup_assign key value k rest, List.lookup, this]

theorem lookup_append (k : Str) : ∀ (a b : List (Str × Str)), (a ++ b).lookup k = (a.lookup k).or (b.lookup k)
  | [], b => by simp
  | (k', v) :: a, b => by
    rw [List.cons_append, List.lookup, List.lookup]
    cases h : k == k' with
    | true => simp
    | false => simpa using lookup_append k a b

theorem lookup_foldl (k : Str) : ∀ (es : List (Option (Str × Str))) (dict : Dict), (es.foldl record dict).lookup k = (lastValue es k).or (dict.lookup k)
  | [], dict => by simp [lastValue]
  | none :: es, dict => by
    rw [List.foldl_cons, lookup_foldl k es]
    rfl
  | some (key, value) :: es, dict => by
    rw [List.foldl_cons, lookup_foldl k es, record, lookup_assign]
    have : lastValue (some (key, value) :: es) k = (lastValue es k).or (if k = key then some value else none) := by
      unfold lastValue
      rw [List.filterMap_cons]
      show (((key, value) :: es.filterMap id).reverse).lookup k = _
      rw [List.reverse_cons, lookup_append]
      congr 1
      by_cases h : k = key
      · simp [h, List.lookup]
      · have hb : (k == key) = false := by simpa using h
        simp [h, List.lookup, hb]
    rw [this]
    cases lastValue es k with
    | some v => simp
    | none =>
      split <;> simp

theorem braces {string : Str} (h1 : ['{'].isPrefixOf string) (h2 : ['}'].isSuffixOf string) : string = '{' :: ((string.drop 1).dropLast ++ ['}']) := by
  cases string with
  | nil => cases h1
  | cons c s =>
    have hc : c = '{' := by
      rw [List.isPrefixOf_iff_prefix] at h1
      obtain ⟨t, ht⟩ := h1
      exact (List.cons.inj ht).1.symm
    subst hc
    obtain ⟨t, ht⟩ := List.isSuffixOf_iff_suffix.1 h2
    have hs : s ≠ [] := by
      rintro rfl
      cases t with
      | nil => simp at ht
      | cons a t => simp at ht
    have hl : (('{' :: s).getLast (by simp)) = '}' := by
      simp only [← ht]; simp
    rw [List.getLast_cons hs] at hl
    show _ = '{' :: (s.dropLast ++ ['}'])
    rw [← hl, List.dropLast_concat_getLast hs]

/-! ### Theorems -/

/-- **C102**: a text that conforms to the grammar is parsed, and the value that is associated with a key is the one that is given last. -/
theorem create_text {allowed : List Str} {text : Str} {es : List (Option (Str × Str))} (h : Denotes allowed text es) :
    ∃ dict, create text allowed = .ok dict ∧ ∀ key, dict.lookup key = lastValue es key := by
  refine ⟨es.foldl record [], ?_, fun key => by rw [lookup_foldl]; simp⟩
  have hl : (text.drop 1).dropLast = listText es := by rw [h.text]; simp
  have h1 : ['{'].isPrefixOf text := by rw [h.text]; simp [List.isPrefixOf]
  have h2 : ['}'].isSuffixOf text := by
    rw [List.isSuffixOf_iff_suffix, h.text]
    exact ⟨'{' :: listText es, by simp⟩
  unfold create
  rw [if_pos (by rw [h.text]; simp), if_neg (by simpa using h1), if_neg (by simpa using h2), hl]
  split
  · rename_i hlen
    have hne : es ≠ [] := by rintro rfl; simp [listText] at hlen
    rw [split_listText hne h.valid, foldlM_text _ h.valid]
  · rename_i hlen
    have hnil : listText es = [] := List.length_eq_zero_iff.1 (by omega)
    have : es.foldl record [] = [] := by
      cases es with
      | nil => rfl
      | cons e es =>
        cases es with
        | nil =>
          cases e with
          | none => rfl
          | some o => simp [listText, elementText] at hnil
        | cons e' es => simp [listText] at hnil
    rw [this]

/-- **C102**: the values that are retrieved from a text that conforms to the grammar: If an option is not given, the default value is used. Otherwise, the last
value is used, or an error is raised if it cannot be converted to the requested type. -/
theorem get_text {allowed : List Str} {text : Str} {es : List (Option (Str × Str))} (h : Denotes allowed text es) :
    ∃ dict, create text allowed = .ok dict ∧
      (∀ key default, getString dict key default = .ok ((lastValue es key).getD default)) ∧
      (∀ key default, lastValue es key = none → getBool dict key default = .ok default) ∧
      (∀ key default, lastValue es key = some "true".toList → getBool dict key default = .ok true) ∧
      (∀ key default, lastValue es key = some "false".toList → getBool dict key default = .ok false) ∧
      (∀ key default value, lastValue es key = some value → value ≠ "true".toList → value ≠ "false".toList →
        getBool dict key default = .error .valueError) ∧
      (∀ (α : Type) (convert : Str → Option α) key default, lastValue es key = none →
        getNumber convert dict key default = .ok default) ∧
      (∀ (α : Type) (convert : Str → Option α) key default value x, lastValue es key = some value → convert value = some x →
        getNumber convert dict key default = .ok x) ∧
      (∀ (α : Type) (convert : Str → Option α) key default value, lastValue es key = some value → convert value = none →
        getNumber convert dict key default = .error .valueError) := by
  obtain ⟨dict, h1, h2⟩ := create_text h
  refine ⟨dict, h1, ?_, ?_, ?_, ?_, ?_, ?_, ?_, ?_⟩
  · intro key default
    unfold getString
    rw [h2]
    cases lastValue es key <;> rfl
  · intro key default hk
    simp only [getBool, h2, hk]
  · intro key default hk
    simp only [getBool, h2, hk, parseBool]
    rfl
  · intro key default hk
    simp only [getBool, h2, hk, parseBool]
    rfl
  · intro key default value hk ht hf
    simp only [getBool, h2, hk, parseBool, if_neg ht, if_neg hf]
  · intro α convert key default hk
    simp only [getNumber, h2, hk]
  · intro α convert key default value x hk hx
    simp only [getNumber, h2, hk, hx]
  · intro α convert key default value hk hx
    simp only [getNumber, h2, hk, hx]

/-- **C102**: a text that is parsed is empty or conforms to the grammar. -/
theorem create_ok {allowed : List Str} {text : Str} {dict : Dict} (h : create text allowed = .ok dict) :
    (text = [] ∧ dict = []) ∨ ∃ es, Denotes allowed text es ∧ ∀ key, dict.lookup key = lastValue es key := by
  unfold create at h
  split at h
  · split at h
    · cases h
    · rename_i hp
      split at h
      · cases h
      · rename_i hs
        have hb := braces (Classical.not_not.1 hp) (Classical.not_not.1 hs)
        right
        split at h
        · obtain ⟨hc, hi⟩ := split_spec ',' (text.drop 1).dropLast
          obtain ⟨es, h1, h2, h3⟩ := foldlM_ok hc h
          refine ⟨es, ⟨?_, h2⟩, fun key => by rw [h3, lookup_foldl]; simp⟩
          rw [listText_eq, ← h1, hi]
          exact hb
        · rename_i hlen
          cases h
          refine ⟨[], ⟨?_, (fun _ h => by cases h)⟩, fun key => rfl⟩
          have : (text.drop 1).dropLast = [] := List.length_eq_zero_iff.1 (by omega)
          rw [this] at hb
          exact hb
  · rename_i hlen
    left
    cases h
    exact ⟨List.length_eq_zero_iff.1 (by omega), rfl⟩

/-- **C102**: only errors of the type `ValueError` are raised. -/
theorem create_error {allowed : List Str} {text : Str} {e : PyError} (h : create text allowed = .error e) : e = .valueError := by
  cases e with
  | valueError => rfl
  | attributeError =>
    have key : ∀ (parts : List Str) (dict : Dict), parts.foldlM (createElement allowed) dict ≠ .error .attributeError := by
      intro parts
      induction parts with
      | nil => intro dict h; cases h
      | cons part parts ih =>
        intro dict h
        rw [List.foldlM_cons] at h
        cases h1 : createElement allowed dict part with
        | ok d => rw [h1] at h; exact ih d h
        | error e =>
          rw [h1] at h
          cases h
          unfold createElement at h1
          split at h1
          · split at h1
            · split at h1
              · cases h1
              · split at h1
                · cases h1
                · split at h1 <;> cases h1
            · cases h1
          · cases h1
    unfold create at h
    split at h
    · split at h
      · cases h
      · split at h
        · cases h
        · split at h
          · exact absurd h (key _ _)
          · cases h
    · cases h

/-! ### Values of parameters -/

theorem strip_all {space : Char → Bool} {s : Str} (h : ∀ c ∈ s, space c) : strip space s = [] := by
  have : s.dropWhile space = [] := by rw [List.dropWhile_eq_nil_iff]; exact h
  simp [strip, this]

theorem dropWhile_append_all {space : Char → Bool} : ∀ {s : Str} (t : Str), (∀ c ∈ s, space c) → (s ++ t).dropWhile space = t.dropWhile space
  | [], _, _ => rfl
  | c :: s, t, h => by
    rw [List.cons_append, List.dropWhile_cons, if_pos (h c (by simp))]
    exact dropWhile_append_all t (fun c hc => h c (List.mem_cons_of_mem _ hc))

theorem strip_braces {space : Char → Bool} {s t body : Str} (hs : ∀ c ∈ s, space c) (ht : ∀ c ∈ t, space c) (h1 : space '{' = false) (h2 : space '}' = false)
    (x : Str) (hb : body = '{' :: (x ++ ['}'])) : strip space (s ++ (body ++ t)) = body := by
  unfold strip
  rw [dropWhile_append_all _ hs]
  have e1 : (body ++ t).dropWhile space = body ++ t := by
    rw [hb, List.cons_append, List.dropWhile_cons, h1]
    rfl
  have e2 : body.reverse.dropWhile space = body.reverse := by
    rw [hb, List.reverse_cons, List.reverse_append]
    show ('}' :: (x.reverse ++ ['{'])).dropWhile space = _
    rw [List.dropWhile_cons, h2]
    rfl
  rw [e1, List.reverse_append, dropWhile_append_all _ (fun c hc => ht c (List.mem_reverse.1 hc)), e2, List.reverse_reverse]

/-- What is removed from the ends consists of spaces. -/
theorem strip_spec (space : Char → Bool) (s : Str) : ∃ a b, (∀ c ∈ a, space c) ∧ (∀ c ∈ b, space c) ∧ s = a ++ (strip space s ++ b) := by
  refine ⟨s.takeWhile space, ((s.dropWhile space).reverse.takeWhile space).reverse, ?_, ?_, ?_⟩
  · intro c hc
    exact List.mem_takeWhile_imp hc
  · intro c hc
    exact List.mem_takeWhile_imp (List.mem_reverse.1 hc)
  · have h : (s.dropWhile space).reverse = (s.dropWhile space).reverse.takeWhile space ++ (s.dropWhile space).reverse.dropWhile space :=
      List.takeWhile_append_dropWhile.symm
    have h' := congrArg List.reverse h
    rw [List.reverse_reverse, List.reverse_append] at h'
    unfold strip
    rw [← h']
    exact List.takeWhile_append_dropWhile.symm

/-- **C102**: if a value and options are obtained from a text, this is what the text means: it is one of the supported values, possibly followed by options
that are supported by this value. -/
theorem parse_ok {space : Char → Bool} {text name : Str} {dict : Dict} : ∀ {items : List (Str × List Str)},
    parseParamAndOptions space text items = .ok (name, dict) →
    ∃ es, Means space items text name es ∧ ∀ key, dict.lookup key = lastValue es key
  | [], h => by cases h
  | (v, allowed) :: items, h => by
    rw [parseParamAndOptions] at h
    split at h
    · rename_i hp
      obtain ⟨rest, hrest⟩ := List.isPrefixOf_iff_prefix.1 hp
      have hd : text.drop v.length = rest := by rw [← hrest]; simp
      rw [hd] at h
      obtain ⟨a, b, ha, hb, hab⟩ := strip_spec space rest
      split at h
      · rename_i hlen
        split at h
        · rename_i options hc
          cases h
          rcases create_ok hc with ⟨h0, _⟩ | ⟨es, hes, hl⟩
          · rw [h0] at hlen; cases hlen
          · exact ⟨es, .options _ allowed a b _ es (by simp) ha hb hes (by rw [← hrest]; congr 1), hl⟩
        · cases h
      · rename_i hlen
        cases h
        have h0 : strip space rest = [] := List.length_eq_zero_iff.1 (by omega)
        refine ⟨[], .bare _ allowed rest (by simp) ?_ hrest.symm, fun key => rfl⟩
        intro c hc
        rw [hab, h0, List.nil_append, List.mem_append] at hc
        rcases hc with hc | hc
        · exact ha c hc
        · exact hb c hc
    · obtain ⟨es, hm, hl⟩ := parse_ok h
      refine ⟨es, ?_, hl⟩
      cases hm with
      | bare allowed s h1 h2 h3 => exact .bare _ allowed s (List.mem_cons_of_mem _ h1) h2 h3
      | options allowed s t body es h1 h2 h3 h4 h5 => exact .options _ allowed s t body es (List.mem_cons_of_mem _ h1) h2 h3 h4 h5

theorem prefix_eq {items : List (Str × List Str)} (hf : PrefixFree items) {a b : Str × List Str} (ha : a ∈ items) (hb : b ∈ items) {text : Str}
    (hpa : a.1 <+: text) (hpb : b.1 <+: text) : a = b := by
  refine Classical.byContradiction fun hne => ?_
  have : a.1 <+: b.1 ∨ b.1 <+: a.1 := List.prefix_or_prefix_of_prefix hpa hpb
  have hp : a = b ∨ (¬ a.1 <+: b.1 ∧ ¬ b.1 <+: a.1) := by
    have key : ∀ {l : List (Str × List Str)}, PrefixFree l → a ∈ l → b ∈ l → a = b ∨ (¬ a.1 <+: b.1 ∧ ¬ b.1 <+: a.1) := by
      intro l
      induction l with
      | nil => intro _ h; cases h
      | cons x l ih =>
        intro hl ha hb
        have hl' := List.pairwise_cons.1 hl
        rcases List.mem_cons.1 ha with rfl | ha'
        · rcases List.mem_cons.1 hb with rfl | hb
          · exact .inl rfl
          · exact .inr (hl'.1 b hb)
        · rcases List.mem_cons.1 hb with rfl | hb
          · exact .inr ⟨(hl'.1 a ha').2, (hl'.1 a ha').1⟩
          · exact ih hl'.2 ha' hb
    exact key hf ha hb
  rcases hp with h | h
  · exact hne h
  · exact this.elim h.1 h.2

/-- **C102** (partial): if no value is the beginning of another one, every text that means a value and options is parsed accordingly. Without this hypothesis
the claim is false, see `parse_shadowed`. -/
theorem parse_text_partial {space : Char → Bool} (h1 : space '{' = false) (h2 : space '}' = false) {text name : Str} {es : List (Option (Str × Str))} :
    ∀ {items : List (Str × List Str)}, PrefixFree items → Means space items text name es →
    ∃ dict, parseParamAndOptions space text items = .ok (name, dict) ∧ ∀ key, dict.lookup key = lastValue es key
  | [], _, hm => by cases hm <;> simp at *
  | (v, allowed) :: items, hf, hm => by
    have hname : ∃ al, (name, al) ∈ (v, allowed) :: items ∧ name <+: text := by
      cases hm with
      | bare al s h1 h2 h3 => exact ⟨al, h1, ⟨_, h3.symm⟩⟩
      | options al s t body es h1 h2 h3 h4 h5 => exact ⟨al, h1, ⟨_, h5.symm⟩⟩
    rw [parseParamAndOptions]
    split
    · rename_i hp
      have hp' := List.isPrefixOf_iff_prefix.1 hp
      cases hm with
      | bare al s hi hs ht =>
        have he := prefix_eq hf hi (List.mem_cons_self) (text := text) ⟨_, ht.symm⟩ hp'
        cases he
        have hd : text.drop name.length = s := by rw [ht]; simp
        rw [hd, strip_all hs, if_neg (by simp)]
        exact ⟨[], rfl, fun key => rfl⟩
      | options al s t body es hi hs ht hb htext =>
        have he := prefix_eq hf hi (List.mem_cons_self) (text := text) ⟨_, htext.symm⟩ hp'
        cases he
        have hd : text.drop name.length = s ++ (body ++ t) := by rw [htext]; simp
        rw [hd, strip_braces hs ht h1 h2 _ hb.text, if_pos (by rw [hb.text]; simp)]
        obtain ⟨dict, hc, hl⟩ := create_text hb
        rw [hc]
        exact ⟨dict, rfl, hl⟩
    · rename_i hp
      have hp' : ¬ v <+: text := fun h => hp (List.isPrefixOf_iff_prefix.2 h)
      refine parse_text_partial h1 h2 (List.Pairwise.of_cons hf) ?_
      cases hm with
      | bare al s hi hs ht =>
        rcases List.mem_cons.1 hi with hi | hi
        · cases hi; exact absurd ⟨_, ht.symm⟩ hp'
        · exact .bare _ al s hi hs ht
      | options al s t body es hi hs ht hb htext =>
        rcases List.mem_cons.1 hi with hi | hi
        · cases hi; exact absurd ⟨_, htext.symm⟩ hp'
        · exact .options _ al s t body es hi hs ht hb htext

/-- **C102**: only errors of the type `ValueError` are raised. -/
theorem parse_error {space : Char → Bool} {text : Str} {e : PyError} : ∀ {items : List (Str × List Str)},
    parseParamAndOptions space text items = .error e → e = .valueError
  | [], h => by cases h; rfl
  | (v, allowed) :: items, h => by
    rw [parseParamAndOptions] at h
    split at h
    · split at h
      · split at h
        · cases h
        · cases h; rfl
      · cases h
    · exact parse_error h

/-- **C102** (the claim is false in general): if a value is the beginning of another one that has been added later, the latter is rejected, no matter what options
are supported. -/
theorem parse_shadowed {space : Char → Bool} {name extra : Str} {allowed allowed' : List Str} {items : List (Str × List Str)} {c : Char} (hc : space c = false) (hb : c ≠ '{') :
    parseParamAndOptions space (name ++ c :: extra) ((name, allowed) :: (name ++ c :: extra, allowed') :: items) = .error .valueError ∧
    Means space ((name, allowed) :: (name ++ c :: extra, allowed') :: items) (name ++ c :: extra) (name ++ c :: extra) [] := by
  refine ⟨?_, .bare _ allowed' [] (by simp) (by simp) (by simp)⟩
  rw [parseParamAndOptions, if_pos (List.isPrefixOf_iff_prefix.2 ⟨_, rfl⟩)]
  have hd : (name ++ c :: extra).drop name.length = c :: extra := by simp
  rw [hd]
  have hs : ∃ rest, strip space (c :: extra) = c :: rest := by
    unfold strip
    rw [List.dropWhile_cons, hc]
    show ∃ rest, ((c :: extra).reverse.dropWhile space).reverse = c :: rest
    have : (c :: extra).reverse.dropWhile space = extra.reverse.dropWhile space ++ [c] := by
      rw [List.reverse_cons, List.dropWhile_append]
      split
      · rename_i he
        rw [List.isEmpty_iff.1 he]
        simp [List.dropWhile_cons, hc]
      · rfl
    rw [this]
    exact ⟨_, by rw [List.reverse_append]; rfl⟩
  obtain ⟨rest, hr⟩ := hs
  rw [hr, if_pos (by simp)]
  have : create (c :: rest) allowed = .error .valueError := by
    unfold create
    rw [if_pos (by simp), if_pos]
    intro h
    obtain ⟨t, ht⟩ := List.isPrefixOf_iff_prefix.1 h
    exact hb (List.cons.inj ht).1.symm
  rw [this]

/-! ### Examples -/

/-- A space, a tabulator or a line break. -/
def isBlank (c : Char) : Bool := c == ' ' || c == '\t' || c == '\n'

/-- The values of the parameter for the sampling of examples. -/
def samplingItems : List (Str × List Str) :=
  [("none".toList, []), ("with-replacement".toList, ["sample_size".toList, "min_samples".toList]), ("without-replacement".toList, ["sample_size".toList])]

example : PrefixFree samplingItems := by decide +kernel

example : Denotes ["sample_size".toList] "{sample_size=0.5,,sample_size=0.7}".toList
    [some ("sample_size".toList, "0.5".toList), none, some ("sample_size".toList, "0.7".toList)] :=
  ⟨by decide +kernel, by
    intro option h
    have : option = ("sample_size".toList, "0.5".toList) ∨ option = ("sample_size".toList, "0.7".toList) := by simpa using h
    rcases this with rfl | rfl <;> exact ⟨by decide +kernel, by decide +kernel, by decide +kernel, by decide +kernel, by decide +kernel, by decide +kernel, by decide +kernel⟩⟩

example : parseParamAndOptions isBlank "with-replacement {sample_size=0.5,min_samples=2,sample_size=0.7} ".toList samplingItems =
    .ok ("with-replacement".toList, [("sample_size".toList, "0.7".toList), ("min_samples".toList, "2".toList)]) := by rfl

example : parseParamAndOptions isBlank "without-replacement{min_samples=2}".toList samplingItems = .error .valueError := by rfl

example : create "{sample_size=0.5=0.7}".toList ["sample_size".toList] = .error .valueError := by rfl

end MLRL.PythonOptions
