import Verif.Lemma.DataSets

/-!
# C106: Data sets can be loaded from files and can be restored after they have been saved
-/

namespace MLRL.DataSets

/-! ## Names and types -/

/-- How a name is written between quotes (specification): A backslash is put in front of each quote. -/
def escape : Name → Name
  | [] => []
  | c :: cs => if c = '\'' ∨ c = '"' then '\\' :: c :: escape cs else c :: escape cs

theorem escape_head (cs : Name) : ∀ b bs, escape cs = b :: bs → b ≠ '\'' ∧ b ≠ '"' := by
  intro b bs h
  cases cs with
  | nil => cases h
  | cons c cs =>
    unfold escape at h
    split at h
    · cases h; decide
    · rename_i hc
      cases h
      exact not_or.1 hc

theorem unescape_escape (w : Name) : unescape (escape w) = w := by
  induction w with
  | nil => rfl
  | cons c cs ih =>
    unfold escape
    split
    · rename_i hc
      rw [unescape, ih]
      rcases hc with rfl | rfl <;> rfl
    · cases he : escape cs with
      | nil =>
        rw [he] at ih
        rw [unescape, ← ih]
        rfl
      | cons b bs =>
        have := escape_head cs b bs he
        rw [unescape, ← he, ih]
        simp [this.1, this.2]

theorem dropWhile_space (pre w : Name) (hp : ∀ c ∈ pre, c.isWhitespace = true) (hw : ∀ c ∈ w.head?, c.isWhitespace = false) :
    (pre ++ w).dropWhile Char.isWhitespace = w := by
  induction pre with
  | nil =>
    cases w with
    | nil => rfl
    | cons c w => simp [List.dropWhile, hw c (by simp)]
  | cons p pre ih =>
    simp only [List.cons_append, List.dropWhile, hp p (by simp)]
    exact ih (fun c hc => hp c (by simp [hc]))

theorem strip_space (pre w post : Name) (hp : ∀ c ∈ pre, c.isWhitespace = true) (hq : ∀ c ∈ post, c.isWhitespace = true)
    (hne : w ≠ []) (h1 : ∀ c ∈ w.head?, c.isWhitespace = false) (h2 : ∀ c ∈ w.getLast?, c.isWhitespace = false) :
    strip (pre ++ w ++ post) = w := by
  unfold strip
  rw [List.append_assoc, dropWhile_space pre (w ++ post) hp (by
    cases w with
    | nil => exact absurd rfl hne
    | cons c w => simpa using h1 c (by simp))]
  rw [List.reverse_append, dropWhile_space post.reverse w.reverse (by simpa using hq) (by simpa using h2)]
  simp

/-- **C106.** A name that is written between quotes, possibly surrounded by whitespace, is restored, whatever characters it consists of. -/
theorem parse_quoted (pre w post : Name) (q : Char) (hq : q = '\'' ∨ q = '"') (h1 : ∀ c ∈ pre, c.isWhitespace = true)
    (h2 : ∀ c ∈ post, c.isWhitespace = true) : parseName (pre ++ (q :: escape w ++ [q]) ++ post) = w := by
  have hws : q.isWhitespace = false := by rcases hq with rfl | rfl <;> rfl
  have hd : ∀ cs, dropQuote (q :: cs) = cs := by
    intro cs
    rcases hq with rfl | rfl <;> rfl
  unfold parseName
  rw [strip_space pre _ post h1 h2 (by simp) (by simpa using hws)
    (by rw [List.getLast?_append]; simpa using hws)]
  rw [List.cons_append, hd, List.reverse_append]
  simp only [List.reverse_cons, List.reverse_nil, List.nil_append, List.cons_append, hd, List.reverse_reverse]
  exact unescape_escape w

/-- **C106.** A name that is not written between quotes and does not contain any quotes is restored, unless it starts or ends with whitespace. -/
theorem parse_unquoted (pre w post : Name) (hne : w ≠ []) (hw : ∀ c ∈ w, c ≠ '\'' ∧ c ≠ '"')
    (hs : ∀ c ∈ w.head?, c.isWhitespace = false) (he : ∀ c ∈ w.getLast?, c.isWhitespace = false) (h1 : ∀ c ∈ pre, c.isWhitespace = true)
    (h2 : ∀ c ∈ post, c.isWhitespace = true) : parseName (pre ++ w ++ post) = w := by
  have hd : ∀ cs : Name, (∀ c ∈ cs, c ≠ '\'' ∧ c ≠ '"') → dropQuote cs = cs := by
    intro cs h
    cases cs with
    | nil => rfl
    | cons c cs => simp [dropQuote, h c (by simp)]
  have hu : ∀ cs : Name, (∀ c ∈ cs, c ≠ '\'' ∧ c ≠ '"') → escape cs = cs := by
    intro cs
    induction cs with
    | nil => intro _; rfl
    | cons c cs ih =>
      intro h
      simp [escape, h c (by simp), ih (fun d hd => h d (by simp [hd]))]
  unfold parseName
  rw [strip_space pre w post h1 h2 hne hs he, hd w hw, hd w.reverse (by simpa using hw), List.reverse_reverse]
  have := unescape_escape w
  rwa [hu w hw] at this

example : parseName " 'it\\'s' ".toList = "it's".toList :=
  parse_quoted [' '] "it's".toList [' '] '\'' (Or.inl rfl) (by decide) (by decide)

/-- The type of a feature and its nominal values, given the type of the corresponding attribute (specification). -/
inductive HasType : AttrType → FeatureType → Option (List Name) → Prop
  | nominal (values : List Name) : HasType (.nominal values) .nominal (some values)
  | integer : HasType .integer .ordinal none
  | real : HasType .real .numerical none
  | numeric : HasType .numeric .numerical none

/-- **C106.** The features that result from attributes: Nominal attributes correspond to nominal features with the same values, integer attributes
to ordinal features and all other attributes to numerical features, except for textual ones that are not supported. -/
theorem toFeature_iff (a : Name × AttrType) (g : Feature) :
    toFeature a = .ok g ↔ g.name = parseName a.1 ∧ HasType a.2 g.type g.nominalValues := by
  obtain ⟨n, t⟩ := a
  obtain ⟨m, ft, vs⟩ := g
  constructor
  · intro h
    cases t <;> cases h <;> exact ⟨rfl, by constructor⟩
  · rintro ⟨rfl, h⟩
    cases h <;> rfl

theorem toFeature_string (n : Name) : toFeature (n, .string) = .error .value := rfl

section
variable {V : Type} [Zero V]

/-! ## Loading -/

theorem createMetaData_end (F O : List (Name × AttrType)) (outputs gs : List Feature) (hF : F ≠ [])
    (hf : F.map toFeature = gs.map .ok) (hFn : ∀ a ∈ F, parseName a.1 ∉ outputs.map fun o => o.name)
    (hOn : ∀ a ∈ O, parseName a.1 ∈ outputs.map fun o => o.name) :
    createMetaData (F ++ O) outputs = .ok ⟨gs, outputs, false⟩ := by
  have hg : gs ≠ [] := by
    intro h
    subst h
    simp at hf
    exact hF hf
  unfold createMetaData
  rw [metaLoop_append, metaLoop_features _ F [] gs false hFn hf]
  simp only [List.nil_append]
  rw [metaLoop_outputs _ O gs false hOn]
  simp [hg]

theorem createMetaData_start (F O : List (Name × AttrType)) (outputs gs : List Feature) (hO : O ≠ [])
    (hf : F.map toFeature = gs.map .ok) (hFn : ∀ a ∈ F, parseName a.1 ∉ outputs.map fun o => o.name)
    (hOn : ∀ a ∈ O, parseName a.1 ∈ outputs.map fun o => o.name) :
    createMetaData (O ++ F) outputs = .ok ⟨gs, outputs, true⟩ := by
  unfold createMetaData
  rw [metaLoop_append, metaLoop_outputs _ O [] false hOn]
  simp only [Bool.false_or, decide_true, Bool.true_and, hO, ne_eq, not_false_eq_true]
  rw [metaLoop_features _ F [] gs true hFn hf]
  simp

/-- **C106.** If the outputs are located at the end of a file in the dense format in the same order as in the XML file,
the feature matrix contains the columns of the features and the output matrix contains the columns of the outputs. -/
theorem load_end (F : List (Name × AttrType)) (names : List Name) (types : List AttrType) (rel : Option Int)
    (xs ys : List (List V)) (gs : List Feature) (hF : F ≠ []) (hO : names ≠ []) (ht : types.length = names.length)
    (hf : F.map toFeature = gs.map .ok) (hFn : ∀ a ∈ F, parseName a.1 ∉ names.map parseName)
    (hx : ∀ r ∈ xs, r.length = F.length) (hxy : xs.length = ys.length) :
    load ⟨rel, F ++ names.zip types, .dense (xs.zipWith (· ++ ·) ys)⟩ (some names)
      = .ok (⟨F.length, xs⟩, ⟨names.length, ys⟩, ⟨gs, names.map fun n => output (parseName n), false⟩) := by
  have hnames : ((names.map fun n => output (parseName n)).map fun o => o.name) = names.map parseName := by
    simp [output, Function.comp_def]
  have hmd := createMetaData_end F (names.zip types) (names.map fun n => output (parseName n)) gs hF hf
    (by rw [hnames]; exact hFn)
    (by
      rw [hnames]
      intro a ha
      exact List.mem_map_of_mem (List.of_mem_zip ha).1)
  have hk : names.length ≠ 0 := by simpa using hO
  have hz : (names.zip types).length = names.length := by simp [ht]
  have h1 : ∀ (xs ys : List (List V)), (∀ r ∈ xs, r.length = F.length) → xs.length = ys.length →
      (xs.zipWith (· ++ ·) ys).map (fun r => r.take F.length) = xs := by
    intro xs
    induction xs with
    | nil => intros; simp
    | cons r xs ih =>
      intro ys hx hl
      cases ys with
      | nil => simp at hl
      | cons q ys =>
        simp only [List.zipWith_cons_cons, List.map_cons, List.cons.injEq]
        refine ⟨?_, ih ys (fun r hr => hx r (by simp [hr])) (by simpa using hl)⟩
        rw [← hx r (by simp)]
        simp
  have h2 : ∀ (xs ys : List (List V)), (∀ r ∈ xs, r.length = F.length) → xs.length = ys.length →
      (xs.zipWith (· ++ ·) ys).map (fun r => r.drop F.length) = ys := by
    intro xs
    induction xs with
    | nil =>
      intro ys _ hl
      cases ys with
      | nil => rfl
      | cons q ys => simp at hl
    | cons r xs ih =>
      intro ys hx hl
      cases ys with
      | nil => simp at hl
      | cons q ys =>
        simp only [List.zipWith_cons_cons, List.map_cons, List.cons.injEq]
        refine ⟨?_, ih ys (fun r hr => hx r (by simp [hr])) (by simpa using hl)⟩
        rw [← hx r (by simp)]
        simp
  simp only [load, loadMatrix, outputsOf, hmd, splitMatrix, Bool.false_eq_true, if_false, List.length_map,
    List.length_append, hz, sliceIndex, if_neg hk, Nat.add_sub_cancel, Matrix.colsTo, Matrix.colsFrom,
    h1 xs ys hx hxy, h2 xs ys hx hxy, Nat.add_sub_cancel_left]
  rw [Nat.min_eq_left (Nat.le_add_right _ _)]

/-- **C106.** If the outputs are located at the start of a file in the dense format in the same order as in the XML
file, the feature matrix contains the columns of the features and the output matrix contains the columns of the
outputs. -/
theorem load_start (F : List (Name × AttrType)) (names : List Name) (types : List AttrType) (rel : Option Int)
    (xs ys : List (List V)) (gs : List Feature) (hO : names ≠ []) (ht : types.length = names.length)
    (hf : F.map toFeature = gs.map .ok) (hFn : ∀ a ∈ F, parseName a.1 ∉ names.map parseName)
    (hy : ∀ r ∈ ys, r.length = names.length) (hxy : ys.length = xs.length) :
    load ⟨rel, names.zip types ++ F, .dense (ys.zipWith (· ++ ·) xs)⟩ (some names)
      = .ok (⟨F.length, xs⟩, ⟨names.length, ys⟩, ⟨gs, names.map fun n => output (parseName n), true⟩) := by
  have hnames : ((names.map fun n => output (parseName n)).map fun o => o.name) = names.map parseName := by
    simp [output, Function.comp_def]
  have hz : (names.zip types).length = names.length := by simp [ht]
  have hmd := createMetaData_start F (names.zip types) (names.map fun n => output (parseName n)) gs
    (by
      intro h
      rw [h] at hz
      exact hO (List.length_eq_zero_iff.1 hz.symm)) hf
    (by rw [hnames]; exact hFn)
    (by
      rw [hnames]
      intro a ha
      exact List.mem_map_of_mem (List.of_mem_zip ha).1)
  have h1 : ∀ (xs ys : List (List V)), (∀ r ∈ xs, r.length = names.length) → xs.length = ys.length →
      (xs.zipWith (· ++ ·) ys).map (fun r => r.take names.length) = xs := by
    intro xs
    induction xs with
    | nil => intros; simp
    | cons r xs ih =>
      intro ys hx hl
      cases ys with
      | nil => simp at hl
      | cons q ys =>
        simp only [List.zipWith_cons_cons, List.map_cons, List.cons.injEq]
        refine ⟨?_, ih ys (fun r hr => hx r (by simp [hr])) (by simpa using hl)⟩
        rw [← hx r (by simp)]
        simp
  have h2 : ∀ (xs ys : List (List V)), (∀ r ∈ xs, r.length = names.length) → xs.length = ys.length →
      (xs.zipWith (· ++ ·) ys).map (fun r => r.drop names.length) = ys := by
    intro xs
    induction xs with
    | nil =>
      intro ys _ hl
      cases ys with
      | nil => rfl
      | cons q ys => simp at hl
    | cons r xs ih =>
      intro ys hx hl
      cases ys with
      | nil => simp at hl
      | cons q ys =>
        simp only [List.zipWith_cons_cons, List.map_cons, List.cons.injEq]
        refine ⟨?_, ih ys (fun r hr => hx r (by simp [hr])) (by simpa using hl)⟩
        rw [← hx r (by simp)]
        simp
  simp only [load, loadMatrix, outputsOf, hmd, splitMatrix, if_true, List.length_map,
    List.length_append, hz, Matrix.colsTo, Matrix.colsFrom,
    h1 ys xs hy hxy, h2 ys xs hy hxy, Nat.add_sub_cancel_left]
  rw [Nat.min_eq_left (Nat.le_add_right _ _)]

end

/-- A file with a nominal and an ordinal feature and two outputs. -/
example : load ⟨none, [("color".toList, .nominal ["red".toList, "blue".toList]), ("'size'".toList, .integer),
      ("A".toList, .nominal [['0'], ['1']]), ("B".toList, .nominal [['0'], ['1']])],
      .dense [[1, 5, 0, 1], [0, 7, 1, 1]]⟩ (some ["A".toList, "B".toList])
    = .ok (⟨2, [[1, 5], [0, 7]]⟩, ⟨2, [[0, 1], [1, 1]]⟩,
      ⟨[⟨"color".toList, .nominal, some ["red".toList, "blue".toList]⟩, ⟨"size".toList, .ordinal, none⟩],
        [output "A".toList, output "B".toList], false⟩) := by
  exact load_end (V := Nat) [("color".toList, .nominal ["red".toList, "blue".toList]), ("'size'".toList, .integer)]
    ["A".toList, "B".toList] [.nominal [['0'], ['1']], .nominal [['0'], ['1']]] none [[1, 5], [0, 7]] [[0, 1], [1, 1]]
    [⟨"color".toList, .nominal, some ["red".toList, "blue".toList]⟩, ⟨"size".toList, .ordinal, none⟩]
    (by decide) (by decide) (by decide) (by decide) (by decide) (by decide) (by decide)

/-- **C106 (disagreement).** If the order of outputs in the XML file is different from the ARFF file, the columns of the
output matrix do not correspond to the outputs in the meta-data: Output `B` is 0 for the only example according to the
file, but the first column of the output matrix is 1. -/
theorem load_order_wrong :
    load ⟨none, [("X".toList, .numeric), ("A".toList, .nominal [['0'], ['1']]), ("B".toList, .nominal [['0'], ['1']])],
      .dense [[5, 1, 0]]⟩ (some ["B".toList, "A".toList])
    = .ok (⟨1, [[5]]⟩, ⟨2, [[1, 0]]⟩,
      ⟨[⟨"X".toList, .numerical, none⟩], [output "B".toList, output "A".toList], false⟩) := by
  rfl

/-- **C106 (disagreement).** If outputs are located between features, the last columns are treated as outputs, although
they correspond to features according to the meta-data. -/
theorem load_interleaved_wrong :
    load ⟨none, [("X".toList, .numeric), ("A".toList, .nominal [['0'], ['1']]), ("Y".toList, .numeric)],
      .dense [[5, 1, 7]]⟩ (some ["A".toList])
    = .ok (⟨2, [[5, 1]]⟩, ⟨1, [[7]]⟩,
      ⟨[⟨"X".toList, .numerical, none⟩, ⟨"Y".toList, .numerical, none⟩], [output "A".toList], false⟩) := by
  rfl

/-! ## Saving -/

section
variable {V : Type} [Zero V] [DecidableEq V]

/-- The data sets that are considered (specification). -/
structure Valid (x y : Matrix V) (md : MetaData) : Prop where
  xRows : ∀ r ∈ x.rows, r.length = x.cols
  yRows : ∀ r ∈ y.rows, r.length = y.cols
  rows : x.rows.length = y.rows.length
  features : md.features.length = x.cols
  outputs : md.outputs.length = y.cols
  xCols : 0 < x.cols
  yCols : 0 < y.cols
  isOutput : ∀ o ∈ md.outputs, o = output o.name
  types : ∀ f ∈ md.features, (f.type = .numerical ∧ f.nominalValues = none) ∨
    (f.type = .nominal ∧ ∃ values, f.nominalValues = some values)
  names : ∀ f ∈ md.features ++ md.outputs, parseName f.name = f.name
  disjoint : ∀ f ∈ md.features, f.name ∉ md.outputs.map fun o => o.name

/-- The rows of the file. -/
def joined (x y : Matrix V) (md : MetaData) : List (List V) :=
  if md.outputsAtStart then y.rows.zipWith (· ++ ·) x.rows else x.rows.zipWith (· ++ ·) y.rows

/-- The attribute that corresponds to a feature. -/
def attr (f : Feature) : Name × AttrType :=
  match f.nominalValues with
  | none => (f.name, .numeric)
  | some values => if f.type = .numerical then (f.name, .numeric) else (f.name, .nominal values)

omit [Zero V] [DecidableEq V] in
theorem attributesOf_eq (fs : List Feature) (l : Char) (n : Nat) (str : Nat → Name) (h : fs.length = n) :
    attributesOf fs l n str = fs.map attr := by
  unfold attributesOf
  apply List.ext_getElem
  · simp [h]
  · intro i h1 h2
    have hi : i < fs.length := by simpa using h2
    simp only [List.getElem_map, List.getElem_range, List.getElem?_eq_getElem hi, attr]
    rfl

theorem attr_name (f : Feature) : (attr f).1 = f.name := by
  unfold attr
  split
  · rfl
  · split <;> rfl

theorem toFeature_attr (f : Feature) (ht : (f.type = .numerical ∧ f.nominalValues = none) ∨
    (f.type = .nominal ∧ ∃ values, f.nominalValues = some values)) (hn : parseName f.name = f.name) :
    toFeature (attr f) = .ok f := by
  obtain ⟨name, type, values⟩ := f
  rcases ht with ⟨h1, h2⟩ | ⟨h1, v, h2⟩
  · simp only at h1 h2 hn
    subst h1 h2
    simp [attr, toFeature, hn]
  · simp only at h1 h2 hn
    subst h1 h2
    simp [attr, toFeature, hn]

theorem createMetaData_save (x y : Matrix V) (s : Bool) (md : MetaData) (str : Nat → Name) (h : Valid x y md) :
    createMetaData (save x y s md str).attributes md.outputs = .ok md := by
  have hf : (md.features.map attr).map toFeature = md.features.map .ok := by
    rw [List.map_map]
    apply List.map_congr_left
    intro f hf
    exact toFeature_attr f (h.types f hf) (h.names f (by simp [hf]))
  have hFn : ∀ a ∈ md.features.map attr, parseName a.1 ∉ md.outputs.map fun o => o.name := by
    intro a ha
    obtain ⟨f, hf, rfl⟩ := List.mem_map.1 ha
    rw [attr_name, h.names f (by simp [hf])]
    exact h.disjoint f hf
  have hOn : ∀ a ∈ md.outputs.map attr, parseName a.1 ∈ md.outputs.map fun o => o.name := by
    intro a ha
    obtain ⟨f, hf, rfl⟩ := List.mem_map.1 ha
    rw [attr_name, h.names f (by simp [hf])]
    exact List.mem_map_of_mem hf
  have hFne : md.features.map attr ≠ [] := by
    intro hc
    have := congrArg List.length hc
    rw [List.length_map, h.features] at this
    have := h.xCols
    simp_all
  have hOne : md.outputs.map attr ≠ [] := by
    intro hc
    have := congrArg List.length hc
    rw [List.length_map, h.outputs] at this
    have := h.yCols
    simp_all
  obtain ⟨features, outputs, atStart⟩ := md
  simp only [save, attributesOf_eq _ _ _ _ h.features, attributesOf_eq _ _ _ _ h.outputs]
  cases atStart with
  | true => exact createMetaData_start _ _ _ _ hOne hf hFn hOn
  | false => exact createMetaData_end _ _ _ _ hFne hf hFn hOn

theorem outputs_names (md : MetaData) (x y : Matrix V) (h : Valid x y md) :
    ((md.outputs.map fun o => o.name).map fun n => output (parseName n)) = md.outputs := by
  rw [List.map_map]
  conv_rhs => rw [← List.map_id md.outputs]
  apply List.map_congr_left
  intro o ho
  simp only [Function.comp_apply, id_eq]
  rw [h.names o (by simp [ho])]
  exact (h.isOutput o ho).symm

theorem length_joined (x y : Matrix V) (md : MetaData) (h : Valid x y md) :
    ∀ z ∈ joined x y md, z.length = x.cols + y.cols := by
  have hgen : ∀ (a b : List (List V)) (n m : Nat), (∀ r ∈ a, r.length = n) → (∀ r ∈ b, r.length = m) →
      ∀ z ∈ a.zipWith (· ++ ·) b, z.length = n + m := by
    intro a
    induction a with
    | nil => intro b n m _ _ z hz; simp at hz
    | cons r a ih =>
      intro b n m ha hb z hz
      cases b with
      | nil => simp at hz
      | cons q b =>
        rw [List.zipWith_cons_cons, List.mem_cons] at hz
        rcases hz with rfl | hz
        · rw [List.length_append, ha r (by simp), hb q (by simp)]
        · exact ih b n m (fun r hr => ha r (by simp [hr])) (fun r hr => hb r (by simp [hr])) z hz
  unfold joined
  split
  · intro z hz
    rw [hgen _ _ _ _ h.yRows h.xRows z hz, Nat.add_comm]
  · exact hgen _ _ _ _ h.xRows h.yRows

theorem card_joined (x y : Matrix V) (md : MetaData) (h : Valid x y md) : (joined x y md).length = x.rows.length := by
  unfold joined
  have := h.rows
  split <;> simp <;> omega

/-- The rows of a file in the dense format. -/
theorem save_dense (x y : Matrix V) (md : MetaData) (str : Nat → Name) (h : Valid x y md) :
    (save x y false md str).rows = .dense (joined x y md) := by
  simp only [save, Bool.false_eq_true, if_false]
  congr 1
  have hrow : ∀ p ∈ x.rows.zip y.rows,
      assign (assign (List.replicate (x.cols + y.cols) 0) (if md.outputsAtStart = true then y.cols else 0) (items p.1))
        (if md.outputsAtStart = true then 0 else x.cols) (items p.2)
      = if md.outputsAtStart = true then p.2 ++ p.1 else p.1 ++ p.2 := by
    rintro ⟨a, b⟩ hp
    have ha := h.xRows a (List.of_mem_zip hp).1
    have hb := h.yRows b (List.of_mem_zip hp).2
    simp only
    cases md.outputsAtStart with
    | true =>
      simp only [if_true]
      rw [Nat.add_comm, ← hb, ← ha]
      have e1 := assign_items a (List.replicate b.length 0) []
      simp only [List.append_nil, List.length_replicate] at e1
      rw [← List.replicate_append_replicate, e1]
      have e2 := assign_items b [] a
      simpa using e2
    | false =>
      simp only [Bool.false_eq_true, if_false]
      rw [← hb, ← ha]
      have e1 := assign_items a [] (List.replicate b.length 0)
      simp only [List.nil_append, List.length_nil] at e1
      rw [← List.replicate_append_replicate, e1]
      have e2 := assign_items b a []
      simpa using e2
  rw [List.map_congr_left hrow]
  unfold joined
  cases md.outputsAtStart with
  | true =>
    simp only [if_true]
    apply List.ext_getElem
    · simp [Nat.min_comm]
    · intro i h1 h2
      simp
  | false =>
    simp only [Bool.false_eq_true, if_false]
    rw [← List.map_uncurry_zip_eq_zipWith]
    rfl

/-- Splitting the rows of the file. -/
theorem split_joined (x y : Matrix V) (md : MetaData) (h : Valid x y md) :
    splitMatrix ⟨x.cols + y.cols, joined x y md⟩ md = (x, y) := by
  have h1 : ∀ (n : Nat) (xs ys : List (List V)), (∀ r ∈ xs, r.length = n) → xs.length = ys.length →
      (xs.zipWith (· ++ ·) ys).map (fun r => r.take n) = xs := by
    intro n xs
    induction xs with
    | nil => intros; simp
    | cons r xs ih =>
      intro ys hx hl
      cases ys with
      | nil => simp at hl
      | cons q ys =>
        simp only [List.zipWith_cons_cons, List.map_cons, List.cons.injEq]
        refine ⟨?_, ih ys (fun r hr => hx r (by simp [hr])) (by simpa using hl)⟩
        rw [← hx r (by simp)]
        simp
  have h2 : ∀ (n : Nat) (xs ys : List (List V)), (∀ r ∈ xs, r.length = n) → xs.length = ys.length →
      (xs.zipWith (· ++ ·) ys).map (fun r => r.drop n) = ys := by
    intro n xs
    induction xs with
    | nil =>
      intro ys _ hl
      cases ys with
      | nil => rfl
      | cons q ys => simp at hl
    | cons r xs ih =>
      intro ys hx hl
      cases ys with
      | nil => simp at hl
      | cons q ys =>
        simp only [List.zipWith_cons_cons, List.map_cons, List.cons.injEq]
        refine ⟨?_, ih ys (fun r hr => hx r (by simp [hr])) (by simpa using hl)⟩
        rw [← hx r (by simp)]
        simp
  have hy : y.cols ≠ 0 := by have := h.yCols; omega
  obtain ⟨xc, xr⟩ := x
  obtain ⟨yc, yr⟩ := y
  unfold splitMatrix joined
  cases hs : md.outputsAtStart with
  | true =>
    simp only [if_true, h.outputs, Matrix.colsFrom, Matrix.colsTo, h1 yc yr xr h.yRows h.rows.symm,
      h2 yc yr xr h.yRows h.rows.symm, Nat.add_sub_cancel]
    rw [Nat.min_eq_left (Nat.le_add_left _ _)]
  | false =>
    simp only [Bool.false_eq_true, if_false, h.outputs, Matrix.colsFrom, Matrix.colsTo, sliceIndex]
    rw [if_neg hy, Nat.add_sub_cancel, h1 xc xr yr h.xRows h.rows, h2 xc xr yr h.xRows h.rows,
      Nat.min_eq_left (Nat.le_add_right _ _), Nat.add_sub_cancel_left]

theorem attributes_length (x y : Matrix V) (s : Bool) (md : MetaData) (str : Nat → Name) :
    (save x y s md str).attributes.length = x.cols + y.cols := by
  simp only [save]
  split <;> simp [attributesOf, Nat.add_comm]

theorem load_save (x y : Matrix V) (s : Bool) (md : MetaData) (str : Nat → Name) (h : Valid x y md) (m : Matrix V)
    (hm : loadMatrix (save x y s md str).rows (x.cols + y.cols) = .ok m) :
    load (save x y s md str) (some (md.outputs.map fun o => o.name))
      = .ok ((splitMatrix m md).1, (splitMatrix m md).2, md) := by
  simp only [load, attributes_length, hm, outputsOf, outputs_names md x y h, createMetaData_save x y s md str h]

/-- **C106.** A data set that is saved in the dense format, together with an XML file, is restored by loading it. -/
theorem roundtrip_dense (x y : Matrix V) (md : MetaData) (str : Nat → Name) (h : Valid x y md) :
    load (save x y false md str) (some (md.outputs.map fun o => o.name)) = .ok (x, y, md) := by
  rw [load_save x y false md str h ⟨x.cols + y.cols, joined x y md⟩ (by rw [save_dense x y md str h]; rfl),
    split_joined x y md h]

theorem save_sparse (x y : Matrix V) (md : MetaData) (str : Nat → Name) (h : Valid x y md) :
    ∃ rows, (save x y true md str).rows = .sparse rows ∧ rows.length = (joined x y md).length ∧
      ∀ (i : Nat) (h1 : i < rows.length) (h2 : i < (joined x y md).length), Stores rows[i] (joined x y md)[i] := by
  refine ⟨_, by simp only [save, if_true]; rfl, ?_, ?_⟩
  · rw [card_joined x y md h]
    have := h.rows
    simp
    omega
  · intro i h1 h2
    have hix : i < x.rows.length := by rw [← card_joined x y md h]; exact h2
    have hiy : i < y.rows.length := by rw [← h.rows]; exact hix
    have ha := h.xRows _ (List.getElem_mem hix)
    have hb := h.yRows _ (List.getElem_mem hiy)
    simp only [List.getElem_map, List.getElem_zip]
    by_cases hs : md.outputsAtStart = true
    · have hj : (joined x y md)[i] = y.rows[i] ++ x.rows[i] := by simp [joined, hs]
      rw [hj]
      simp only [hs, if_true]
      have := stores_append y.rows[i] x.rows[i]
      rw [hb] at this
      intro c v
      rw [← this c v, List.mem_append, List.mem_append]
      exact Or.comm
    · have hj : (joined x y md)[i] = x.rows[i] ++ y.rows[i] := by simp [joined, hs]
      rw [hj]
      simp only [hs, if_false]
      have := stores_append x.rows[i] y.rows[i]
      rw [ha] at this
      exact this

/-- What is loaded, if a data set is saved in the sparse format: Trailing rows and columns that contain only zeros are
lost, before the columns are assigned to features and outputs. -/
theorem load_sparse (x y : Matrix V) (md : MetaData) (str : Nat → Name) (h : Valid x y md) (R C : Nat)
    (ht : Trimmed (joined x y md) R C) :
    load (save x y true md str) (some (md.outputs.map fun o => o.name))
      = .ok ((splitMatrix ⟨C, ((joined x y md).take R).map fun z => z.take C⟩ md).1,
        (splitMatrix ⟨C, ((joined x y md).take R).map fun z => z.take C⟩ md).2, md) := by
  obtain ⟨rows, h1, h2, h3⟩ := save_sparse x y md str h
  apply load_save x y true md str h
  rw [h1]
  exact loadMatrix_sparse rows (joined x y md) (x.cols + y.cols) _ R C h2 h3 (length_joined x y md h) ht

/-- **C106.** A data set that is saved in the sparse format, together with an XML file, is restored by loading it if and
only if the last row and the last column of the file contain a non-zero value. -/
theorem roundtrip_sparse_iff (x y : Matrix V) (md : MetaData) (str : Nat → Name) (h : Valid x y md) (R C : Nat)
    (ht : Trimmed (joined x y md) R C) :
    load (save x y true md str) (some (md.outputs.map fun o => o.name)) = .ok (x, y, md)
      ↔ R = x.rows.length ∧ C = x.cols + y.cols := by
  rw [load_sparse x y md str h R C ht]
  constructor
  · intro heq
    have heq' := Except.ok.inj heq
    have hx : (splitMatrix ⟨C, ((joined x y md).take R).map fun z => z.take C⟩ md).1 = x := congrArg Prod.fst heq'
    have hcols := congrArg Matrix.cols hx
    have hrows := congrArg (fun m => m.rows.length) hx
    have hxc := h.xCols
    have hyc := h.yCols
    have hRle : R ≤ x.rows.length := by
      obtain ⟨i, j, v, hR, h1, _⟩ := ht.row
      by_contra hh
      rw [List.getElem?_eq_none (by rw [card_joined x y md h]; omega)] at h1
      simp at h1
    cases hs : md.outputsAtStart with
    | true =>
      simp only [splitMatrix, hs, if_true, h.outputs, Matrix.colsFrom, List.length_map, List.length_take,
        card_joined x y md h] at hcols hrows
      omega
    | false =>
      simp only [splitMatrix, hs, Bool.false_eq_true, if_false, h.outputs, Matrix.colsTo, List.length_map,
        List.length_take, card_joined x y md h, sliceIndex] at hcols hrows
      rw [if_neg (by omega)] at hcols
      omega
  · rintro ⟨rfl, rfl⟩
    have h1 : (joined x y md).take x.rows.length = joined x y md := by
      rw [← card_joined x y md h, List.take_length]
    have h2 : (joined x y md).map (fun z => z.take (x.cols + y.cols)) = joined x y md := by
      conv_rhs => rw [← List.map_id (joined x y md)]
      apply List.map_congr_left
      intro z hz
      rw [← length_joined x y md h z hz]
      simp
    rw [h1, h2, split_joined x y md h]

/-- **C106 (disagreement).** If all features and outputs are zero, a data set that has been saved in the sparse format
cannot be loaded. -/
theorem load_sparse_zero (x y : Matrix V) (md : MetaData) (str : Nat → Name) (h : Valid x y md)
    (hz : ∀ z ∈ joined x y md, ∀ v ∈ z, v = 0) (xml : Option (List Name)) :
    load (save x y true md str) xml = .error .value := by
  obtain ⟨rows, h1, h2, h3⟩ := save_sparse x y md str h
  have : loadMatrix (.sparse rows) (x.cols + y.cols) = .error .value := by
    apply loadMatrix_zero
    intro r hr
    obtain ⟨i, hi, rfl⟩ := List.getElem_of_mem hr
    apply List.eq_nil_iff_forall_not_mem.2
    rintro ⟨c, v⟩ hcv
    have := (h3 i hi (h2 ▸ hi) c v).1 hcv
    exact this.2 (hz _ (List.getElem_mem _) v (List.mem_of_getElem? this.1))
  simp only [load, attributes_length, h1, this]

/-- **C106.** A data set that is saved in the dense format is restored by loading it without an XML file, if the outputs
are located at the start of the file. -/
theorem roundtrip_relation_partial (x y : Matrix V) (md : MetaData) (str : Nat → Name) (h : Valid x y md)
    (hs : md.outputsAtStart = true) : load (save x y false md str) none = .ok (x, y, md) := by
  have hrel : outputsFromRelation (save x y false md str) = .ok md.outputs := by
    have hc : ((y.cols : Int) * 1).toNat = y.cols := by simp
    have hlen := attributes_length x y false md str
    unfold outputsFromRelation
    have : (save x y false md str).relation = some ((y.cols : Int) * 1) := by simp [save, hs]
    rw [this]
    simp only [hc, hlen]
    rw [if_neg (by omega)]
    congr 1
    have hattr : (save x y false md str).attributes = md.outputs.map attr ++ md.features.map attr := by
      simp [save, hs, attributesOf_eq _ _ _ _ h.features, attributesOf_eq _ _ _ _ h.outputs]
    rw [hattr, List.take_append_of_le_length (by simp [h.outputs]), List.take_of_length_le (by simp [h.outputs]),
      List.map_map]
    conv_rhs => rw [← List.map_id md.outputs]
    apply List.map_congr_left
    intro o ho
    simp only [Function.comp_apply, id_eq, attr_name]
    rw [h.names o (by simp [ho])]
    exact (h.isOutput o ho).symm
  have hl := roundtrip_dense x y md str h
  simp only [load, outputsOf, outputs_names md x y h] at hl
  simp only [load, outputsOf, hrel]
  exact hl

/-- **C106 (disagreement).** If the outputs are located at the end of the file, as it is always the case when using the
function `save_data_set`, and no XML file is available, all columns of the file are treated as outputs when it is loaded,
although the meta-data does not contain any outputs. -/
theorem load_relation_wrong (x y : Matrix V) (md : MetaData) (str : Nat → Name) (h : Valid x y md)
    (hs : md.outputsAtStart = false) :
    load (save x y false md str) none
      = .ok (⟨0, (joined x y md).map fun _ => []⟩, ⟨x.cols + y.cols, joined x y md⟩,
        ⟨md.features ++ md.outputs, [], false⟩) := by
  have hrel : outputsFromRelation (save x y false md str) = .ok [] := by
    unfold outputsFromRelation
    have : (save x y false md str).relation = some ((y.cols : Int) * -1) := by simp [save, hs]
    rw [this]
    have hc : ((y.cols : Int) * -1).toNat = 0 := by omega
    simp [hc]
  have hattr : (save x y false md str).attributes = (md.features ++ md.outputs).map attr := by
    simp [save, hs, attributesOf_eq _ _ _ _ h.features, attributesOf_eq _ _ _ _ h.outputs]
  have hmd : createMetaData (save x y false md str).attributes [] = .ok ⟨md.features ++ md.outputs, [], false⟩ := by
    unfold createMetaData
    rw [hattr, metaLoop_features _ _ [] (md.features ++ md.outputs) false (by simp)]
    · rfl
    · rw [List.map_map]
      apply List.map_congr_left
      intro f hf
      refine toFeature_attr f ?_ (h.names f hf)
      rcases List.mem_append.1 hf with hf | hf
      · exact h.types f hf
      · right
        rw [h.isOutput f hf]
        exact ⟨rfl, _, rfl⟩
  simp only [load, attributes_length, save_dense x y md str h, loadMatrix, outputsOf, hrel, hmd, splitMatrix,
    Bool.false_eq_true, if_false, List.length_nil, sliceIndex, if_true, Matrix.colsTo, Matrix.colsFrom, List.take_zero,
    List.drop_zero, Nat.sub_zero, Nat.zero_min, List.map_id']

end

/-! ## Examples -/

/-- The decimal representation of small numbers, which is irrelevant here. -/
def exampleStr (_ : Nat) : Name := []

/-- A data set with two numerical features and two outputs, the second of which is irrelevant for all examples. -/
def exampleX : Matrix Nat := ⟨2, [[3, 0], [4, 1]]⟩
/-- The outputs of the data set. -/
def exampleY : Matrix Nat := ⟨2, [[0, 0], [1, 0]]⟩
/-- The meta-data of the data set. -/
def exampleMetaData : MetaData :=
  ⟨[⟨"X".toList, .numerical, none⟩, ⟨"Y".toList, .nominal, some ["r".toList, "b".toList]⟩],
    [output "A".toList, output "B".toList], false⟩

theorem example_valid : Valid exampleX exampleY exampleMetaData where
  xRows := by decide
  yRows := by decide
  rows := by decide
  features := by decide
  outputs := by decide
  xCols := by decide
  yCols := by decide
  isOutput := by decide
  types := by
    intro f hf
    simp only [exampleMetaData, List.mem_cons, List.not_mem_nil, or_false] at hf
    rcases hf with rfl | rfl
    · left; exact ⟨rfl, rfl⟩
    · right; exact ⟨rfl, _, rfl⟩
  names := by decide
  disjoint := by decide

example : load (save exampleX exampleY false exampleMetaData exampleStr) (some ["A".toList, "B".toList])
    = .ok (exampleX, exampleY, exampleMetaData) :=
  roundtrip_dense _ _ _ _ example_valid

/-- **C106 (disagreement).** If the last output is irrelevant for all examples, and the data set is saved in the sparse
format, the values of the second feature are loaded as values of the first output. -/
theorem roundtrip_sparse_wrong :
    load (save exampleX exampleY true exampleMetaData exampleStr) (some ["A".toList, "B".toList])
    = .ok (⟨1, [[3], [4]]⟩, ⟨2, [[0, 0], [1, 1]]⟩, exampleMetaData) := by
  rfl

/-- **C106 (disagreement).** Ordinal features become numerical features if a data set is saved. -/
theorem roundtrip_ordinal_wrong (f : Feature) (name : Name) (hf : f = ⟨name, .ordinal, none⟩)
    (hn : parseName name = name) : toFeature (attr f) = .ok ⟨name, .numerical, none⟩ := by
  subst hf
  simp [attr, toFeature, hn]

example : Trimmed (joined exampleX exampleY exampleMetaData) 2 3 where
  row := ⟨1, 0, 4, rfl, rfl, by decide⟩
  rows := by
    intro i j v h hv
    by_contra hc
    rw [List.getElem?_eq_none (by simp [joined, exampleX, exampleY, exampleMetaData]; omega)] at h
    simp at h
  col := ⟨1, 2, 1, rfl, rfl, by decide⟩
  cols := by
    intro i j v h hv
    match i, j with
    | 0, 3 => exact absurd (Option.some.inj h).symm hv
    | 1, 3 => exact absurd (Option.some.inj h).symm hv
    | 0, 0 | 0, 1 | 0, 2 | 1, 0 | 1, 1 | 1, 2 => omega
    | 0, j + 4 => simp [joined, exampleX, exampleY, exampleMetaData] at h
    | 1, j + 4 => simp [joined, exampleX, exampleY, exampleMetaData] at h
    | i + 2, j => simp [joined, exampleX, exampleY, exampleMetaData] at h

end MLRL.DataSets
