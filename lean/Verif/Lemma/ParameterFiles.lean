import Verif.Model.ParameterFiles

/-!
# Lemmas about files that store parameters and results
-/

namespace MLRL.ParameterFiles

/-! ## The reader -/

def feed (r : Reader) (ts : List Token) : Except Err Reader := ts.foldlM Reader.step r

theorem feed_char (r : Reader) (c : Char) (ts : List Token) (r' : Reader) (h : r.char c = .ok r') :
    feed r (.char c :: ts) = feed r' ts := by
  simp only [feed, List.foldlM_cons, Reader.step, h]
  rfl

theorem feed_eol (r : Reader) (ts : List Token) : feed r (.eol :: ts) = feed r.eol.complete ts := by
  simp only [feed, List.foldlM_cons, Reader.step]
  rfl

theorem tokens_crlf (rest : Str) : tokens ('\r' :: '\n' :: rest) = .char '\r' :: .char '\n' :: .eol :: tokens rest := by
  simp [tokens]

theorem tokens_crcr (rest : Str) : tokens ('\r' :: '\r' :: '\n' :: rest) =
    .char '\r' :: .eol :: .char '\r' :: .char '\n' :: .eol :: tokens rest := by
  rw [tokens.eq_4 _ _ (by simp) (by simp)]
  simp [tokens]

theorem tokens_cons (c : Char) (rest : Str) (hc : c ≠ '\r') (hn : c ≠ '\n') (h : rest ≠ []) :
    tokens (c :: rest) = .char c :: tokens rest := by
  rw [tokens.eq_4 _ _ (fun r h1 => absurd h1 hc) h]
  simp [hc, hn]

theorem feed_quoted (field : Str) (fields : List Str) (rows : List (List Str)) (c : Char) (rest : Str) (hc : c ≠ '"')
    (h : rest ≠ []) : feed ⟨.inQuotedField, field, fields, rows⟩ (tokens (c :: rest)) =
      feed ⟨.inQuotedField, field ++ [c], fields, rows⟩ (tokens rest) := by
  have hchar : ∀ (f : Str) (c : Char), c ≠ '"' → (⟨.inQuotedField, f, fields, rows⟩ : Reader).char c =
      .ok ⟨.inQuotedField, f ++ [c], fields, rows⟩ := by
    intro f c hc
    simp [Reader.char, hc, Reader.add]
  have heol : ∀ (f : Str) (ts : List Token), feed ⟨.inQuotedField, f, fields, rows⟩ (.eol :: ts) =
      feed ⟨.inQuotedField, f, fields, rows⟩ ts := by
    intro f ts
    rw [feed_eol]
    simp [Reader.eol, Reader.complete]
  by_cases h1 : c = '\r'
  · subst h1
    cases rest with
    | nil => exact absurd rfl h
    | cons d rest =>
      by_cases h2 : d = '\n'
      · subst h2
        rw [tokens_crlf, feed_char _ _ _ _ (hchar _ _ hc)]
        cases rest with
        | nil => simp [tokens]
        | cons e rest =>
          rw [tokens.eq_4 '\n' _ (by simp) (by simp)]
          simp
      · rw [tokens.eq_4 '\r' _ (by simpa using h2) (by simp)]
        simp only [or_true, if_true]
        rw [feed_char _ _ _ _ (hchar _ _ hc), heol]
  · by_cases h2 : c = '\n'
    · subst h2
      rw [tokens.eq_4 '\n' _ (by simp) h]
      simp only [true_or, if_true]
      rw [feed_char _ _ _ _ (hchar _ _ hc), heol]
    · rw [tokens_cons c rest h1 h2 h, feed_char _ _ _ _ (hchar _ _ hc)]

theorem feed_escaped (field : Str) : ∀ (acc : Str) (fields : List Str) (rows : List (List Str)) (rest : Str), rest ≠ [] →
    feed ⟨.inQuotedField, acc, fields, rows⟩
        (tokens (field.flatMap (fun c => if c = '"' then ['"', '"'] else [c]) ++ ('"' :: rest))) =
      feed ⟨.quoteInQuotedField, acc ++ field, fields, rows⟩ (tokens rest) := by
  induction field with
  | nil =>
    intro acc fields rows rest h
    simp only [List.flatMap_nil, List.nil_append, List.append_nil]
    rw [tokens_cons _ _ (by decide) (by decide) h]
    exact feed_char _ _ _ _ (by simp [Reader.char])
  | cons c field ih =>
    intro acc fields rows rest h
    rw [List.flatMap_cons, List.append_assoc]
    by_cases hc : c = '"'
    · subst hc
      simp only [if_true, List.cons_append, List.nil_append]
      rw [tokens_cons _ _ (by decide) (by decide) (by simp), tokens_cons _ _ (by decide) (by decide) (by simp),
        feed_char _ _ _ ⟨.quoteInQuotedField, acc, fields, rows⟩ (by simp [Reader.char]),
        feed_char _ _ _ ⟨.inQuotedField, acc ++ ['"'], fields, rows⟩ (by simp [Reader.char, Reader.add]), ih _ _ _ _ h]
      simp
    · simp only [hc, if_false, List.cons_append, List.nil_append]
      rw [feed_quoted _ _ _ _ _ hc (by simp), ih _ _ _ _ h]
      simp

theorem feed_plain (field : Str) : ∀ (acc : Str) (fields : List Str) (rows : List (List Str)) (rest : Str), rest ≠ [] →
    field.any isSpecial = false → feed ⟨.inField, acc, fields, rows⟩ (tokens (field ++ rest)) =
      feed ⟨.inField, acc ++ field, fields, rows⟩ (tokens rest) := by
  induction field with
  | nil => intro acc fields rows rest h _; simp
  | cons c field ih =>
    intro acc fields rows rest h hs
    simp only [List.any_cons, Bool.or_eq_false_iff] at hs
    have hc := hs.1
    simp only [isSpecial, Bool.or_eq_false_iff, decide_eq_false_iff_not] at hc
    obtain ⟨⟨⟨h1, h2⟩, h3⟩, h4⟩ := hc
    rw [List.cons_append, tokens_cons _ _ h3 h4 (by simp [h]), feed_char _ _ _ ⟨.inField, acc ++ [c], fields, rows⟩, ih _ _ _ _ h hs.2]
    · simp
    · simp [Reader.char, Reader.add, h1, h3, h4]

/-- The state after a field has been read. -/
def after (s : State) (field : Str) : State :=
  if field.any isSpecial then .quoteInQuotedField else if field = [] then s else .inField

theorem feed_quote (s : State) (field : Str) (fields : List Str) (rows : List (List Str)) (rest : Str)
    (hs : s = .startRecord ∨ s = .startField) (h : rest ≠ []) :
    feed ⟨s, [], fields, rows⟩ (tokens (quote field ++ rest)) = feed ⟨.quoteInQuotedField, field, fields, rows⟩ (tokens rest) := by
  unfold quote
  rw [List.cons_append, tokens_cons _ _ (by decide) (by decide) (by simp),
    feed_char _ _ _ ⟨.inQuotedField, [], fields, rows⟩]
  · rw [List.append_assoc, List.singleton_append, feed_escaped _ _ _ _ _ h, List.nil_append]
  · rcases hs with rfl | rfl <;> simp [Reader.char, Reader.startField]

theorem feed_field (s : State) (field : Str) (fields : List Str) (rows : List (List Str)) (rest : Str)
    (hs : s = .startRecord ∨ s = .startField) (h : rest ≠ []) :
    feed ⟨s, [], fields, rows⟩ (tokens (writeField field ++ rest)) = feed ⟨after s field, field, fields, rows⟩ (tokens rest) := by
  unfold writeField after
  by_cases hq : field.any isSpecial = true
  · rw [if_pos hq, if_pos hq]
    exact feed_quote s field fields rows rest hs h
  · rw [if_neg hq, if_neg hq]
    simp only [Bool.not_eq_true] at hq
    cases field with
    | nil => simp
    | cons c field =>
      rw [if_neg (by simp)]
      simp only [List.any_cons, Bool.or_eq_false_iff] at hq
      have hc := hq.1
      simp only [isSpecial, Bool.or_eq_false_iff, decide_eq_false_iff_not] at hc
      obtain ⟨⟨⟨h1, h2⟩, h3⟩, h4⟩ := hc
      rw [List.cons_append, tokens_cons _ _ h3 h4 (by simp [h]), feed_char _ _ _ ⟨.inField, [c], fields, rows⟩,
        feed_plain _ _ _ _ _ h hq.2]
      · simp
      · rcases hs with rfl | rfl <;> simp [Reader.char, Reader.startField, Reader.add, h1, h2, h3, h4]

theorem char_comma (s : State) (field : Str) (fields : List Str) (rows : List (List Str))
    (hs : s = .startRecord ∧ field = [] ∨ s = .startField ∨ s = .inField ∨ s = .quoteInQuotedField) :
    (⟨s, field, fields, rows⟩ : Reader).char ',' = .ok ⟨.startField, [], fields ++ [field], rows⟩ := by
  rcases hs with ⟨rfl, rfl⟩ | rfl | rfl | rfl <;> simp [Reader.char, Reader.startField, Reader.save]

theorem after_cases (s : State) (field : Str) (hs : s = .startRecord ∨ s = .startField) :
    after s field = .startRecord ∧ field = [] ∨ after s field = .startField ∨ after s field = .inField ∨
      after s field = .quoteInQuotedField := by
  unfold after
  by_cases h1 : field.any isSpecial = true
  · simp [h1]
  · rw [if_neg h1]
    by_cases h2 : field = []
    · rcases hs with rfl | rfl <;> simp [h2]
    · simp [h2]

/-- What follows a row: the end of a line with or without translation. -/
theorem feed_end (linesep : Str) (hl : linesep = ['\n'] ∨ linesep = ['\r', '\n']) (s : State) (field : Str) (fields : List Str)
    (rows : List (List Str)) (rest : Str) (hs : s = .startField ∨ s = .inField ∨ s = .quoteInQuotedField) :
    feed ⟨s, field, fields, rows⟩ (tokens ('\r' :: (linesep ++ rest))) =
      feed ⟨.startRecord, [], [], rows ++ (fields ++ [field]) :: (if linesep = ['\n'] then [] else [[]])⟩ (tokens rest) := by
  have h1 : (⟨s, field, fields, rows⟩ : Reader).char '\r' = .ok ⟨.eatCrnl, [], fields ++ [field], rows⟩ := by
    rcases hs with rfl | rfl | rfl <;> simp [Reader.char, Reader.startField, Reader.save]
  rcases hl with rfl | rfl
  · show feed _ (tokens ('\r' :: '\n' :: rest)) = _
    rw [tokens_crlf, feed_char _ _ _ _ h1, feed_char _ _ _ ⟨.eatCrnl, [], fields ++ [field], rows⟩ (by simp [Reader.char]), feed_eol]
    simp [Reader.eol, Reader.complete]
  · show feed _ (tokens ('\r' :: '\r' :: '\n' :: rest)) = _
    rw [tokens_crcr, feed_char _ _ _ _ h1, feed_eol]
    simp only [Reader.eol, Reader.complete, if_true]
    rw [feed_char _ _ _ ⟨.eatCrnl, [], [], rows ++ [fields ++ [field]]⟩ (by simp [Reader.char]),
      feed_char _ _ _ ⟨.eatCrnl, [], [], rows ++ [fields ++ [field]]⟩ (by simp [Reader.char]), feed_eol]
    simp [Reader.eol, Reader.complete]

theorem feed_join (linesep : Str) (hl : linesep = ['\n'] ∨ linesep = ['\r', '\n']) (row : List Str) :
    ∀ (s : State) (fields : List Str) (rows : List (List Str)) (rest : Str),
      s = .startField ∧ row ≠ [] ∨ s = .startRecord ∧ row ≠ [] ∧ row ≠ [[]] →
      feed ⟨s, [], fields, rows⟩ (tokens (joinFields row ++ '\r' :: (linesep ++ rest))) =
        feed ⟨.startRecord, [], [], rows ++ (fields ++ row) :: (if linesep = ['\n'] then [] else [[]])⟩ (tokens rest) := by
  induction row with
  | nil => intro s fields rows rest h; simp at h
  | cons f row ih =>
    intro s fields rows rest h
    have hs : s = .startRecord ∨ s = .startField := by
      rcases h with h | h
      · exact Or.inr h.1
      · exact Or.inl h.1
    cases row with
    | nil =>
      show feed _ (tokens (writeField f ++ _)) = _
      rw [feed_field s f _ _ _ hs (by simp), feed_end linesep hl]
      rcases after_cases s f hs with h1 | h1
      · exfalso
        obtain ⟨h1, h2⟩ := h1
        subst h2
        rcases h with h | h
        · rw [h.1] at h1; simp [after] at h1
        · exact absurd rfl h.2.2
      · exact h1
    | cons g row =>
      show feed _ (tokens ((writeField f ++ ',' :: joinFields (g :: row)) ++ _)) = _
      rw [List.append_assoc, feed_field s f _ _ _ hs (by simp), List.cons_append, tokens_cons _ _ (by decide) (by decide) (by simp),
        feed_char _ _ _ _ (char_comma _ _ _ _ (after_cases s f hs)), ih _ _ _ _ (Or.inl ⟨rfl, by simp⟩)]
      simp

theorem feed_row (linesep : Str) (hl : linesep = ['\n'] ∨ linesep = ['\r', '\n']) (row : List Str) (rows : List (List Str)) (rest : Str) :
    feed ⟨.startRecord, [], [], rows⟩ (tokens ((if row = [[]] then quote [] else joinFields row) ++ '\r' :: (linesep ++ rest))) =
      feed ⟨.startRecord, [], [], rows ++ row :: (if linesep = ['\n'] then [] else [[]])⟩ (tokens rest) := by
  by_cases h1 : row = [[]]
  · subst h1
    rw [if_pos rfl, feed_quote _ _ _ _ _ (Or.inl rfl) (by simp), feed_end linesep hl _ _ _ _ _ (Or.inr (Or.inr rfl))]
    simp
  · rw [if_neg h1]
    cases row with
    | nil =>
      simp only [joinFields, List.nil_append]
      rcases hl with rfl | rfl
      · show feed _ (tokens ('\r' :: '\n' :: rest)) = _
        rw [tokens_crlf, feed_char _ _ _ ⟨.eatCrnl, [], [], rows⟩ (by simp [Reader.char]),
          feed_char _ _ _ ⟨.eatCrnl, [], [], rows⟩ (by simp [Reader.char]), feed_eol]
        simp [Reader.eol, Reader.complete]
      · show feed _ (tokens ('\r' :: '\r' :: '\n' :: rest)) = _
        rw [tokens_crcr, feed_char _ _ _ ⟨.eatCrnl, [], [], rows⟩ (by simp [Reader.char]), feed_eol]
        simp only [Reader.eol, Reader.complete, if_true]
        rw [feed_char _ _ _ ⟨.eatCrnl, [], [], rows ++ [[]]⟩ (by simp [Reader.char]),
          feed_char _ _ _ ⟨.eatCrnl, [], [], rows ++ [[]]⟩ (by simp [Reader.char]), feed_eol]
        simp [Reader.eol, Reader.complete]
    | cons f row =>
      rw [feed_join linesep hl (f :: row) _ _ _ _ (Or.inr ⟨rfl, by simp, h1⟩)]
      simp

/-! ## Translation -/

theorem translate_id (text : Str) : translate ['\n'] text = text := by
  unfold translate
  induction text with
  | nil => rfl
  | cons c text ih =>
    rw [List.flatMap_cons, ih]
    by_cases h : c = '\n' <;> simp [h]

theorem translate_append (linesep a b : Str) : translate linesep (a ++ b) = translate linesep a ++ translate linesep b := by
  simp [translate]

theorem translate_any (linesep : Str) (hl : linesep = ['\n'] ∨ linesep = ['\r', '\n']) (field : Str) :
    (translate linesep field).any isSpecial = field.any isSpecial := by
  unfold translate
  induction field with
  | nil => rfl
  | cons c field ih =>
    rw [List.flatMap_cons, List.any_append, ih, List.any_cons]
    congr 1
    by_cases h : c = '\n'
    · subst h
      rcases hl with rfl | rfl <;> simp [isSpecial]
    · simp [h]

theorem translate_quote (linesep : Str) (hl : linesep = ['\n'] ∨ linesep = ['\r', '\n']) (field : Str) :
    translate linesep (quote field) = quote (translate linesep field) := by
  have h : translate linesep (field.flatMap (fun c => if c = '"' then ['"', '"'] else [c])) =
      (translate linesep field).flatMap (fun c => if c = '"' then ['"', '"'] else [c]) := by
    unfold translate
    rw [List.flatMap_assoc, List.flatMap_assoc]
    congr 1
    funext c
    by_cases h1 : c = '"'
    · subst h1; simp
    · by_cases h2 : c = '\n'
      · subst h2
        rcases hl with rfl | rfl <;> simp
      · simp [h1, h2]
  have h1 : translate linesep ['"'] = ['"'] := by simp [translate]
  unfold quote
  rw [← h, show ∀ l : Str, '"' :: l = ['"'] ++ l from fun _ => rfl, translate_append, translate_append, h1]
  rfl

theorem translate_writeField (linesep : Str) (hl : linesep = ['\n'] ∨ linesep = ['\r', '\n']) (field : Str) :
    translate linesep (writeField field) = writeField (translate linesep field) := by
  unfold writeField
  rw [translate_any linesep hl]
  by_cases h : field.any isSpecial = true
  · rw [if_pos h, if_pos h, translate_quote linesep hl]
  · rw [if_neg h, if_neg h]

theorem translate_join (linesep : Str) (hl : linesep = ['\n'] ∨ linesep = ['\r', '\n']) (row : List Str) :
    translate linesep (joinFields row) = joinFields (row.map (translate linesep)) := by
  induction row with
  | nil => rfl
  | cons f row ih =>
    cases row with
    | nil => exact translate_writeField linesep hl f
    | cons g row =>
      simp only [joinFields, List.map_cons] at ih ⊢
      rw [translate_append, translate_writeField linesep hl, show ∀ l : Str, ',' :: l = [','] ++ l from fun _ => rfl, translate_append, ih]
      rfl

theorem translate_eq_nil (linesep : Str) (hl : linesep = ['\n'] ∨ linesep = ['\r', '\n']) (f : Str) : translate linesep f = [] ↔ f = [] := by
  cases f with
  | nil => simp [translate]
  | cons c f =>
    unfold translate
    rw [List.flatMap_cons]
    by_cases h : c = '\n'
    · rcases hl with rfl | rfl <;> simp [h]
    · simp [h]

theorem translate_row (linesep : Str) (hl : linesep = ['\n'] ∨ linesep = ['\r', '\n']) (row : List Str) :
    translate linesep (writeRow row) =
      (if row.map (translate linesep) = [[]] then quote [] else joinFields (row.map (translate linesep))) ++ '\r' :: linesep := by
  unfold writeRow
  rw [translate_append]
  have h1 : translate linesep ['\r', '\n'] = '\r' :: linesep := by simp [translate]
  rw [h1]
  congr 1
  by_cases h : row = [[]]
  · subst h
    rw [if_pos rfl, if_pos (by simp [translate]), translate_quote linesep hl]
    simp [translate]
  · rw [if_neg h, if_neg, translate_join linesep hl]
    intro h2
    apply h
    obtain ⟨f, hf, hf'⟩ := List.map_eq_singleton_iff.1 h2
    rw [hf, (translate_eq_nil linesep hl f).1 hf']

theorem feed_rows (linesep : Str) (hl : linesep = ['\n'] ∨ linesep = ['\r', '\n']) (todo : List (List Str)) :
    ∀ (rows : List (List Str)), feed ⟨.startRecord, [], [], rows⟩ (tokens (translate linesep (todo.map writeRow).flatten)) =
      .ok ⟨.startRecord, [], [], rows ++ todo.flatMap (fun row => row.map (translate linesep) :: (if linesep = ['\n'] then [] else [[]]))⟩ := by
  induction todo with
  | nil => intro rows; simp [translate, tokens, feed]; rfl
  | cons row todo ih =>
    intro rows
    rw [List.map_cons, List.flatten_cons, translate_append, translate_row linesep hl, List.append_assoc, List.cons_append, feed_row linesep hl, ih]
    simp

theorem readRows_eq (linesep : Str) (hl : linesep = ['\n'] ∨ linesep = ['\r', '\n']) (rows : List (List Str)) :
    readRows (translate linesep (rows.map writeRow).flatten) =
      .ok (rows.flatMap (fun row => row.map (translate linesep) :: (if linesep = ['\n'] then [] else [[]]))) := by
  have := feed_rows linesep hl rows []
  unfold feed at this
  unfold readRows
  rw [this]
  simp [Except.map, Reader.finish]

/-! ## Dictionaries -/

theorem insertKey_perm (key : Str) (keys : List Str) : (insertKey key keys).Perm (key :: keys) := by
  induction keys with
  | nil => simp [insertKey]
  | cons k keys ih =>
    simp only [insertKey]
    split
    · exact List.Perm.refl _
    · exact (List.Perm.cons k ih).trans (List.Perm.swap key k keys)

theorem sortKeys_perm (keys : List Str) : (sortKeys keys).Perm keys := by
  unfold sortKeys
  induction keys with
  | nil => simp
  | cons k keys ih => exact (insertKey_perm k _).trans (List.Perm.cons k ih)

theorem get_none {V : Type} (key : Str) (dict : Dict V) (h : key ∉ dict.map Prod.fst) : dict.get key = none := by
  induction dict with
  | nil => rfl
  | cons e dict ih =>
    obtain ⟨k, v⟩ := e
    simp only [List.map_cons, List.mem_cons, not_or] at h
    simp only [Dict.get]
    rw [if_neg (fun h' => h.1 h'.symm)]
    exact ih h.2

theorem get_isSome {V : Type} (key : Str) (dict : Dict V) : (dict.get key).isSome = true ↔ key ∈ dict.map Prod.fst := by
  induction dict with
  | nil => simp [Dict.get]
  | cons e dict ih =>
    obtain ⟨k, v⟩ := e
    simp only [Dict.get, List.map_cons, List.mem_cons]
    by_cases h : k = key
    · simp [h]
    · rw [if_neg h, ih]
      have h' : ¬ key = k := fun e => h e.symm
      simp [h']

theorem get_mem {V : Type} (key : Str) (value : V) (dict : Dict V) (hn : (dict.map Prod.fst).Nodup) :
    dict.get key = some value ↔ (key, value) ∈ dict := by
  induction dict with
  | nil => simp [Dict.get]
  | cons e dict ih =>
    obtain ⟨k, v⟩ := e
    simp only [List.map_cons, List.nodup_cons] at hn
    simp only [Dict.get, List.mem_cons, Prod.mk.injEq]
    by_cases h : k = key
    · subst h
      simp only [if_true, Option.some.injEq, true_and]
      constructor
      · exact fun h => Or.inl h.symm
      · rintro (h | h)
        · exact h.symm
        · exact absurd (List.mem_map.2 ⟨(k, value), h, rfl⟩) hn.1
    · rw [if_neg h, ih hn.2]
      have h' : ¬ key = k := fun e => h e.symm
      simp [h']

theorem assign_new {V : Type} (key : Str) (value : V) (dict : Dict V) (h : key ∉ dict.map Prod.fst) :
    dict.assign key value = dict ++ [(key, value)] := by
  induction dict with
  | nil => rfl
  | cons e dict ih =>
    obtain ⟨k, v⟩ := e
    simp only [List.map_cons, List.mem_cons, not_or] at h
    simp only [Dict.assign]
    rw [if_neg (fun h' => h.1 h'.symm), ih h.2]
    rfl

theorem assign_get {V : Type} (key k : Str) (value : V) (dict : Dict V) :
    (dict.assign key value).get k = if key = k then some value else dict.get k := by
  induction dict with
  | nil => simp [Dict.assign, Dict.get]
  | cons e dict ih =>
    obtain ⟨k', v⟩ := e
    simp only [Dict.assign]
    by_cases h : k' = key
    · subst h
      by_cases h2 : k' = k <;> simp [Dict.get, h2]
    · rw [if_neg h]
      simp only [Dict.get, ih]
      by_cases h2 : k' = k
      · subst h2
        have h' : ¬ key = k' := fun e => h e.symm
        simp [h']
      · simp [h2]

theorem assign_keys {V : Type} (key : Str) (value : V) (dict : Dict V) (h : key ∈ dict.map Prod.fst) :
    (dict.assign key value).map Prod.fst = dict.map Prod.fst := by
  induction dict with
  | nil => simp at h
  | cons e dict ih =>
    obtain ⟨k, v⟩ := e
    simp only [Dict.assign]
    by_cases h1 : k = key
    · simp [h1]
    · rw [if_neg h1]
      simp only [List.map_cons, List.mem_cons] at h ⊢
      rcases h with h | h
      · exact absurd h.symm h1
      · rw [ih h]

theorem assign_all {V : Type} (entries : Dict V) : ∀ (dict : Dict V), ((dict ++ entries).map Prod.fst).Nodup →
    entries.foldl (fun dict entry => dict.assign entry.1 entry.2) dict = dict ++ entries := by
  induction entries with
  | nil => intro dict _; simp
  | cons e entries ih =>
    intro dict hn
    rw [List.foldl_cons, assign_new, ih]
    · simp
    · simpa using hn
    · intro hm
      rw [List.map_append, List.nodup_append] at hn
      exact hn.2.2 e.1 hm e.1 (by simp) rfl

theorem dictRow_ok (header row : List Str) (hn : header.Nodup) (hl : header.length = row.length) :
    dictRow header row = .ok (header.zip row) := by
  unfold dictRow
  rw [if_pos hl, assign_all]
  · rfl
  · rw [List.nil_append, List.map_fst_zip (by omega)]
    exact hn

theorem zip_get (header : List Str) (g : Str → Str) (k : Str) :
    Dict.get k (header.zip (header.map g)) = if k ∈ header then some (g k) else none := by
  induction header with
  | nil => simp [Dict.get]
  | cons h header ih =>
    simp only [List.map_cons, List.zip_cons_cons, Dict.get, ih, List.mem_cons]
    by_cases h1 : h = k
    · simp [h1]
    · have h' : ¬ k = h := fun e => h1 e.symm
      simp [h1, h']

theorem tabularize_keys {V : Type} (toStr : V → Str) (params : Params V) :
    ((tabularize toStr params).map Prod.fst).Sublist (params.map Prod.fst) := by
  unfold tabularize
  induction params with
  | nil => simp
  | cons e params ih =>
    obtain ⟨k, v⟩ := e
    cases v with
    | none => simpa using ih.cons k
    | some v => simpa using ih

theorem tabularize_get {V : Type} (toStr : V → Str) (params : Params V) (hn : (params.map Prod.fst).Nodup) (k : Str) :
    (tabularize toStr params).get k = (Dict.get k params).join.map toStr := by
  induction params with
  | nil => rfl
  | cons e params ih =>
    obtain ⟨k', v⟩ := e
    simp only [List.map_cons, List.nodup_cons] at hn
    have ih := ih hn.2
    have hsub := tabularize_keys toStr params
    unfold tabularize at ih hsub ⊢
    cases v with
    | none =>
      rw [List.filterMap_cons_none (by rfl)]
      simp only [Dict.get]
      by_cases h : k' = k
      · subst h
        rw [if_pos rfl, get_none _ _ (fun h' => hn.1 (hsub.subset h'))]
        rfl
      · rw [if_neg h, ih]
    | some v =>
      rw [List.filterMap_cons_some (by rfl)]
      simp only [Dict.get]
      by_cases h : k' = k
      · simp [h]
      · rw [if_neg h, if_neg h, ih]

theorem tabularize_nil {V : Type} (toStr : V → Str) (params : Params V) :
    tabularize toStr params = [] ↔ ∀ entry ∈ params, entry.2 = none := by
  unfold tabularize
  rw [List.filterMap_eq_nil_iff]
  constructor
  · intro h e he
    have := h e he
    simpa using this
  · intro h e he
    simp [h e he]

theorem writeDict_ok (header : List Str) (row : Dict Str) (h : ∀ k ∈ row.map Prod.fst, k ∈ header) :
    writeDict header row = .ok (writeRow (header.map (fun key => (row.get key).getD []))) := by
  unfold writeDict
  rw [if_pos]
  intro e he
  exact h e.1 (List.mem_map.2 ⟨e, he, rfl⟩)

/-! ## Rows with the same keys -/

theorem mapM_ok {α β : Type} (f : α → Except Err β) (g : α → β) (l : List α) (h : ∀ a ∈ l, f a = .ok (g a)) :
    l.mapM f = .ok (l.map g) := by
  induction l with
  | nil => rfl
  | cons a l ih =>
    rw [List.mapM_cons, h a (by simp), ih (fun b hb => h b (by simp [hb]))]
    rfl

/-- The row that is written for a dictionary. -/
def rowOf (header : List Str) (row : Dict Str) : List Str := header.map (fun key => (row.get key).getD [])

theorem mapM_writeDict (header : List Str) (rows : List (Dict Str)) (h : ∀ row ∈ rows, ∀ k ∈ row.map Prod.fst, k ∈ header) :
    rows.mapM (writeDict header) = .ok ((rows.map (rowOf header)).map writeRow) := by
  rw [List.map_map]
  exact mapM_ok _ _ _ (fun row hrow => writeDict_ok header row (h row hrow))

theorem writeOutput_eq (linesep : Str) (append : Bool) (file : Option Str) (keys : List Str) (rows : List (Dict Str))
    (hne : rows ≠ []) (hk : ∀ row ∈ rows, row.map Prod.fst = keys) :
    writeOutput linesep append file rows = .ok (some (match append, file with
      | true, some content => content ++ translate linesep ((rows.map (rowOf (sortKeys keys))).map writeRow).flatten
      | _, _ => translate linesep ((sortKeys keys :: rows.map (rowOf (sortKeys keys))).map writeRow).flatten)) := by
  have hm : rows.mapM (writeDict (sortKeys keys)) = .ok ((rows.map (rowOf (sortKeys keys))).map writeRow) := by
    apply mapM_writeDict
    intro row hrow k hkm
    rw [hk row hrow] at hkm
    exact (sortKeys_perm keys).mem_iff.2 hkm
  cases rows with
  | nil => exact absurd rfl hne
  | cons first rows =>
    have h1 : first.map Prod.fst = keys := hk first (by simp)
    unfold writeOutput
    simp only [h1]
    rw [hm]
    cases append <;> cases file <;> rfl

theorem dictRows_ok (header : List Str) (hn : header.Nodup) (hne : header ≠ []) (rows : List (List Str))
    (h : ∀ row ∈ rows, row = [] ∨ row.length = header.length) :
    dictRows (header :: rows) = .ok ((rows.filter (fun row => row ≠ [])).map (fun row => header.zip row)) := by
  unfold dictRows
  apply mapM_ok
  intro row hrow
  rw [List.mem_filter] at hrow
  have h2 : row ≠ [] := by simpa using hrow.2
  rcases h row hrow.1 with h1 | h1
  · exact absurd h1 h2
  · exact dictRow_ok header row hn h1.symm

theorem setParams_ok {V : Type} (ofStr : Str → V) (dict : Dict Str) : ∀ (params : Params V), (dict.map Prod.fst).Nodup →
    (∀ k ∈ dict.map Prod.fst, k ∈ params.map Prod.fst) →
    ∃ params', setParams ofStr params dict = .ok params' ∧ params'.map Prod.fst = params.map Prod.fst ∧
      ∀ k, Dict.get k params' = (match Dict.get k dict with
        | some text => some (some (ofStr text))
        | none => Dict.get k params) := by
  induction dict with
  | nil => intro params _ _; exact ⟨params, rfl, rfl, fun k => rfl⟩
  | cons e dict ih =>
    intro params hn hk
    obtain ⟨k0, text⟩ := e
    simp only [List.map_cons, List.nodup_cons] at hn
    have h0 : k0 ∈ params.map Prod.fst := hk k0 (by simp)
    have hkeys : (Dict.assign k0 (some (ofStr text)) params).map Prod.fst = params.map Prod.fst := assign_keys _ _ _ h0
    obtain ⟨params', h1, h2, h3⟩ := ih (Dict.assign k0 (some (ofStr text)) params) hn.2 (by
      intro k hkm
      rw [hkeys]
      exact hk k (by simp [hkm]))
    refine ⟨params', ?_, by rw [h2, hkeys], ?_⟩
    · unfold setParams at h1 ⊢
      rw [List.foldlM_cons]
      simp only [(get_isSome k0 params).2 h0, if_true]
      exact h1
    · intro k
      rw [h3 k, assign_get]
      simp only [Dict.get]
      by_cases h : k0 = k
      · subst h
        rw [get_none _ _ hn.1]
        simp
      · simp [h]

end MLRL.ParameterFiles
