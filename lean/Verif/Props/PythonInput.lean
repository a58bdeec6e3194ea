import Verif.Model.PythonInput
import Mathlib.Tactic.Ring
import Mathlib.Tactic.Linarith

/-!
# C98: the matrices that are given to the Python API are represented faithfully
-/

namespace MLRL.PythonInput

variable {K : Type}

/-! ### Specification -/

/-- The sizes fit together, indices are valid and no element is stored more than once. -/
def WellFormed : Input K → Prop
  | .array numRows numCols rows => rows.length = numRows ∧ ∀ row ∈ rows, row.length = numCols
  | .vector _ => True
  | .sparse _ numRows numCols rows => rows.length = numRows ∧
      ∀ row ∈ rows, (∀ e ∈ row, e.1 < numCols) ∧ (row.map Prod.fst).Nodup

/-- The value of a matrix at a position, if `sparseValue` is the value of elements that are not stored. -/
def HasValue (sparseValue : K) : Input K → (row col : Nat) → K → Prop
  | .array _ _ rows, r, c, v => ∃ row, rows[r]? = some row ∧ row[c]? = some v
  | .vector values, r, c, v => c = 0 ∧ values[r]? = some v
  | .sparse _ _ numCols rows, r, c, v => c < numCols ∧ ∃ row, rows[r]? = some row ∧
      ((c, v) ∈ row ∨ ((∀ w, (c, w) ∉ row) ∧ v = sparseValue))

/-- A zero is stored explicitly at a position. -/
def StoresZero [Zero K] : Input K → (row col : Nat) → Prop
  | .array _ _ _, _, _ => False
  | .vector _, _, _ => False
  | .sparse _ _ _ rows, r, c => ∃ row, rows[r]? = some row ∧ (c, 0) ∈ row

/-- The matrix is given in a format that is supported. -/
def Supported : Input K → Prop
  | .sparse format _ _ _ => format ≠ .other
  | _ => True

/-- The matrix is sparse and no elements are stored. -/
def NothingStored : Input K → Prop
  | .sparse _ _ _ rows => ∀ row ∈ rows, row = []
  | _ => False

/-- The matrix is sparse. -/
def IsSparse : Input K → Prop
  | .sparse _ _ _ _ => True
  | _ => False

/-! ### Lemmas -/

theorem stored_of_mem {row : List (Nat × K)} (hn : (row.map Prod.fst).Nodup) {c : Nat} {v : K} (h : (c, v) ∈ row) :
    stored row c = some v := by
  induction row with
  | nil => cases h
  | cons e row ih =>
    unfold stored
    rw [List.map_cons, List.nodup_cons] at hn
    by_cases he : e.1 = c
    · rw [List.find?_cons_of_pos (by simpa using he)]
      rcases List.mem_cons.1 h with rfl | h
      · rfl
      · exact absurd (List.mem_map_of_mem (f := Prod.fst) h) (by rw [← he]; exact hn.1)
    · rw [List.find?_cons_of_neg (by simpa using he)]
      rcases List.mem_cons.1 h with rfl | h
      · exact absurd rfl he
      · exact ih hn.2 h

theorem stored_of_notMem {row : List (Nat × K)} {c : Nat} (h : ∀ w, (c, w) ∉ row) : stored row c = none := by
  unfold stored
  rw [List.find?_eq_none.2, Option.map_none]
  intro e he hc
  have : e.1 = c := by simpa using hc
  exact h e.2 (this ▸ he)

theorem numStored_pos {rows : List (List (Nat × K))} : 0 < numStored rows ↔ ¬ ∀ row ∈ rows, row = [] := by
  unfold numStored
  rw [Nat.pos_iff_ne_zero, ne_eq, not_iff_not]
  induction rows with
  | nil => simp
  | cons a rows ih => simp only [List.map_cons, List.sum_cons, Nat.add_eq_zero_iff, List.length_eq_zero_iff, ih, List.forall_mem_cons]

theorem shouldEnforceSparse_unsupported (policy : Policy) (csc : Bool) (n : Nat) (b : Bool) (x : Input K) (h : ¬ Supported x) :
    shouldEnforceSparse policy csc n b x = .error .exception := by
  cases x with
  | sparse format numRows numCols rows =>
    simp only [Supported, ne_eq, not_not] at h
    simp [shouldEnforceSparse, h]
  | _ => exact absurd trivial h

/-- The representation that is chosen. -/
theorem shouldEnforceSparse_supported (policy : Policy) (csc : Bool) (n : Nat) (b : Bool) (x : Input K) (h : Supported x) :
    ∃ sparse, shouldEnforceSparse policy csc n b x = .ok sparse ∧ (sparse = true → IsSparse x) ∧
      (IsSparse x → policy = .forceSparse → sparse = true) ∧ (policy = .forceDense → sparse = false) := by
  cases x with
  | sparse format numRows numCols rows =>
    simp only [Supported] at h
    unfold shouldEnforceSparse
    simp only [h, not_false_eq_true, if_true, ne_eq]
    cases policy <;> simp [IsSparse]
  | _ => exact ⟨false, rfl, by simp, by simp [IsSparse], by simp⟩

theorem enforceDense_get [AddZeroClass K] [DecidableEq K] (sparseValue : K) (x : Input K) (hx : WellFormed x) {r c : Nat} {v : K}
    (h : HasValue sparseValue x r c v) : ∃ row, (enforceDense sparseValue x)[r]? = some row ∧ row.length = (shape x).2 ∧
      ((sparseValue ≠ 0 → ¬ StoresZero x r c) → row[c]? = some v) ∧
      (StoresZero x r c → row[c]? = some sparseValue) := by
  cases x with
  | array numRows numCols rows =>
    obtain ⟨row, h1, h2⟩ := h
    exact ⟨row, h1, hx.2 row (List.mem_of_getElem? h1), fun _ => h2, fun h => h.elim⟩
  | vector values =>
    obtain ⟨rfl, h⟩ := h
    exact ⟨[v], by simp [enforceDense, h], rfl, fun _ => rfl, fun h => h.elim⟩
  | sparse format numRows numCols rows =>
    obtain ⟨hc, row, h1, h2⟩ := h
    have hn := (hx.2 row (List.mem_of_getElem? h1)).2
    simp only [enforceDense, StoresZero, h1, Option.some.injEq, exists_eq_left', shape]
    by_cases hs : sparseValue = 0
    · subst hs
      simp only [ne_eq, not_true_eq_false, if_false, false_implies, forall_const]
      refine ⟨(List.range numCols).map (fun c => (stored row c).getD 0), by simp [toArray, h1], by simp, ?_, ?_⟩
      · rw [List.getElem?_map, List.getElem?_range hc, Option.map_some]
        rcases h2 with h2 | ⟨h2, rfl⟩
        · rw [stored_of_mem hn h2]; rfl
        · rw [stored_of_notMem h2]; rfl
      · intro h0
        rw [List.getElem?_map, List.getElem?_range hc, Option.map_some, stored_of_mem hn h0]
        rfl
    · rw [if_pos hs]
      refine ⟨List.zipWith (· + ·) ((List.range numCols).map (fun c => if isNonzero row c then 0 else sparseValue))
        ((List.range numCols).map (fun c => (stored row c).getD 0)), by simp [fillSparse, toArray, h1], by simp, ?_, ?_⟩
      · intro hz
        rw [List.getElem?_zipWith, List.getElem?_map, List.getElem?_map, List.getElem?_range hc]
        simp only [Option.map_some]
        rcases h2 with h2 | ⟨h2, rfl⟩
        · have hv : v ≠ 0 := fun e => hz hs (e ▸ h2)
          simp [isNonzero, stored_of_mem hn h2, hv]
        · simp [isNonzero, stored_of_notMem h2]
      · intro h0
        rw [List.getElem?_zipWith, List.getElem?_map, List.getElem?_map, List.getElem?_range hc]
        simp [isNonzero, stored_of_mem hn h0]

/-! ### Feature matrices, row-wise -/

/-- **C98.** The feature values of query examples are faithful, unless a zero is stored explicitly, the sparse value is not zero and the
matrix is converted into a dense one (see `features_explicit_zero`): this is why the theorem is partial. -/
theorem features_partial [AddZeroClass K] [DecidableEq K] (policy : Policy) (sparseValue : K) (x : Input K) (hx : WellFormed x)
    {m : FeatureMatrix K} (hm : createRowWiseFeatureMatrix policy sparseValue x = .ok m) {r c : Nat} {v : K}
    (h : HasValue sparseValue x r c v) (hz : sparseValue ≠ 0 → ¬ StoresZero x r c) : m.get r c = .ok v := by
  have hdense : (FeatureMatrix.dense (enforceDense sparseValue x)).get r c = .ok v := by
    obtain ⟨row, h1, _, h2, _⟩ := enforceDense_get sparseValue x hx h
    simp only [FeatureMatrix.get]
    rw [readAt_of_getElem? h1, ok_bind, readAt_of_getElem? (h2 hz)]
  unfold createRowWiseFeatureMatrix at hm
  cases hs : shouldEnforceSparse policy false 4 true x with
  | error e => rw [hs] at hm; exact absurd hm (by simp [error_bind])
  | ok sparse =>
    rw [hs, ok_bind] at hm
    cases hv : validate x with
    | error e => rw [hv] at hm; exact absurd hm (by simp [error_bind])
    | ok u =>
      rw [hv, ok_bind] at hm
      split at hm
      · rename_i format numRows numCols rows
        cases ha : addressOfFirst (numStored rows) with
        | error e => rw [ha, error_bind] at hm; cases hm
        | ok u =>
          rw [ha, ok_bind, pure_eq_ok] at hm
          rw [← Except.ok.inj hm]
          obtain ⟨hc, row, h1, h2⟩ := h
          have hn := (hx.2 row (List.mem_of_getElem? h1)).2
          simp only [FeatureMatrix.get]
          rw [readAt_of_getElem? h1, ok_bind]
          rcases h2 with h2 | ⟨h2, rfl⟩
          · rw [stored_of_mem hn h2]; rfl
          · rw [stored_of_notMem h2]; rfl
      · rw [pure_eq_ok] at hm
        rw [← Except.ok.inj hm]
        exact hdense

/-- **C98.** The restriction is necessary: if a sparse matrix is converted into a dense one, the value at a position where a zero is stored
explicitly is the sparse value instead of zero. If the sparse format is used, the value is zero. Hence, the predictions depend on which
format is chosen, although the automatic choice is merely meant to save memory. -/
theorem features_explicit_zero [AddZeroClass K] [DecidableEq K] (sparseValue : K) (x : Input K) (hx : WellFormed x) (hf : Supported x)
    (hshape : (shape x).1 > 0 ∧ (shape x).2 > 0) {r c : Nat} (h : StoresZero x r c) :
    HasValue sparseValue x r c 0 ∧
    (∃ m, createRowWiseFeatureMatrix .forceDense sparseValue x = .ok m ∧ m.get r c = .ok sparseValue) ∧
    ∃ m, createRowWiseFeatureMatrix .forceSparse sparseValue x = .ok m ∧ m.get r c = .ok 0 := by
  cases x with
  | array _ _ _ => exact h.elim
  | vector _ => exact h.elim
  | sparse format numRows numCols rows =>
    have hval : HasValue sparseValue (.sparse format numRows numCols rows) r c 0 := by
      obtain ⟨row, h1, h2⟩ := h
      exact ⟨(hx.2 row (List.mem_of_getElem? h1)).1 _ h2, row, h1, .inl h2⟩
    have hvalidate : validate (Input.sparse format numRows numCols rows) = .ok () := by
      unfold validate; rw [if_pos hshape]
    refine ⟨hval, ?_, ?_⟩
    · refine ⟨.dense (enforceDense sparseValue (.sparse format numRows numCols rows)), ?_, ?_⟩
      · unfold createRowWiseFeatureMatrix
        obtain ⟨s, h1, _, _, h2⟩ := shouldEnforceSparse_supported .forceDense false 4 true _ hf
        rw [h1, ok_bind, hvalidate, ok_bind, h2 rfl]
        rfl
      · obtain ⟨row, h1, _, _, h2⟩ := enforceDense_get sparseValue _ hx hval
        simp only [FeatureMatrix.get]
        rw [readAt_of_getElem? h1, ok_bind, readAt_of_getElem? (h2 h)]
    · obtain ⟨row, h1, h2⟩ := h
      refine ⟨.sparse rows sparseValue, ?_, ?_⟩
      · unfold createRowWiseFeatureMatrix
        obtain ⟨s, h3, _, h4, _⟩ := shouldEnforceSparse_supported .forceSparse false 4 true _ hf
        rw [h3, ok_bind, hvalidate, ok_bind, h4 trivial rfl]
        have : 0 < numStored rows := numStored_pos.2 (fun hc => by
          rw [hc row (List.mem_of_getElem? h1)] at h2; cases h2)
        simp only [addressOfFirst, this, gt_iff_lt, if_true]
        rfl
      · simp only [FeatureMatrix.get]
        rw [readAt_of_getElem? h1, ok_bind, stored_of_mem (hx.2 row (List.mem_of_getElem? h1)).2 h2]
        rfl

/-- A matrix with a single example, the first feature of which is explicitly zero. -/
def exZero : Input Int := .sparse .csr 1 3 [[(0, 0), (2, 5)]]

/-- Instance: the sparse value is one. The predictor sees the values `1, 1, 5` or `0, 1, 5`, depending on the format. -/
example : WellFormed exZero ∧ Supported exZero ∧ StoresZero exZero 0 0 ∧
    createRowWiseFeatureMatrix .forceDense 1 exZero = .ok (.dense [[1, 1, 5]]) ∧
    (createRowWiseFeatureMatrix .forceSparse 1 exZero).map (fun m => (m.get 0 0, m.get 0 1, m.get 0 2)) =
      .ok (.ok 0, .ok 1, .ok 5) := by
  refine ⟨⟨rfl, by decide⟩, by simp [Supported, exZero], ⟨_, rfl, by simp⟩, rfl, rfl⟩

/-- **C98.** When a matrix is rejected: it is empty, its format is not supported, or the sparse format is enforced and no elements are
stored. In the latter case, the matrix is valid, and it is accepted if the dense format is enforced. -/
theorem features_accepted [AddZeroClass K] [DecidableEq K] (policy : Policy) (sparseValue : K) (x : Input K)
    (hshape : (shape x).1 > 0 ∧ (shape x).2 > 0) (hf : Supported x) :
    (¬ NothingStored x → ∃ m, createRowWiseFeatureMatrix policy sparseValue x = .ok m) ∧
    (NothingStored x → (∃ m, createRowWiseFeatureMatrix .forceDense sparseValue x = .ok m) ∧
      createRowWiseFeatureMatrix .forceSparse sparseValue x = .error .exception) := by
  have hvalidate : validate x = .ok () := by unfold validate; rw [if_pos hshape]
  refine ⟨fun h => ?_, fun h => ⟨?_, ?_⟩⟩
  · unfold createRowWiseFeatureMatrix
    obtain ⟨s, h1, -⟩ := shouldEnforceSparse_supported policy false 4 true x hf
    rw [h1, ok_bind, hvalidate, ok_bind]
    split
    · rename_i rows
      have : 0 < numStored rows := numStored_pos.2 h
      simp only [addressOfFirst, this, gt_iff_lt, if_true]
      exact ⟨_, rfl⟩
    · exact ⟨_, rfl⟩
  · unfold createRowWiseFeatureMatrix
    obtain ⟨s, h1, -, -, h2⟩ := shouldEnforceSparse_supported .forceDense false 4 true x hf
    rw [h1, ok_bind, hvalidate, ok_bind, h2 rfl]
    cases x <;> exact ⟨_, rfl⟩
  · unfold createRowWiseFeatureMatrix
    obtain ⟨s, h1, _, h2, _⟩ := shouldEnforceSparse_supported .forceSparse false 4 true x hf
    cases x with
    | sparse format numRows numCols rows =>
      rw [h1, ok_bind, hvalidate, ok_bind, h2 trivial rfl]
      have : ¬ 0 < numStored rows := fun h' => numStored_pos.1 h' h
      simp only [addressOfFirst, this, gt_iff_lt, if_false]
      rfl
    | _ => exact h.elim

/-- **C98.** By default (`auto`), query examples that are given as a sparse matrix and do not have any nonzero values are rejected if
there is more than one feature. -/
theorem features_all_zero [AddZeroClass K] [DecidableEq K] (sparseValue : K) (format : Format) (hf : format ≠ .other) (n d : Nat)
    (hn : 0 < n) (hd : 1 < d) :
    createRowWiseFeatureMatrix .auto sparseValue (.sparse format n d (List.replicate n [])) = .error .exception := by
  have h0 : numStored (List.replicate n ([] : List (Nat × K))) = 0 := by simp [numStored]
  have hlt : n * 4 < n * d * 4 := by nlinarith
  unfold createRowWiseFeatureMatrix
  simp only [shouldEnforceSparse, hf, ne_eq, not_false_eq_true, if_true, isSparseAndMemoryEfficient, h0, Nat.zero_mul, Nat.zero_add,
    Bool.false_eq_true, if_false, hlt, decide_true]
  rw [ok_bind]
  unfold validate
  rw [if_pos ⟨hn, by simp only [shape]; omega⟩, ok_bind]
  simp only [addressOfFirst, h0, gt_iff_lt, Nat.lt_irrefl, if_false]
  rfl

/-! ### Feature matrices, column-wise -/

theorem columns_get {numCols : Nat} {rows : List (List K)} (hlen : ∀ row ∈ rows, row.length = numCols) {r c : Nat} {row : List K} {v : K}
    (h1 : rows[r]? = some row) (h2 : row[c]? = some v) :
    ∃ column, (columns numCols rows)[c]? = some column ∧ column[r]? = some v := by
  have hc : c < numCols := by
    rw [← hlen row (List.mem_of_getElem? h1)]
    exact (List.getElem?_eq_some_iff.1 h2).1
  refine ⟨rows.filterMap (fun row => row[c]?), by simp [columns, List.getElem?_range hc], ?_⟩
  have key : ∀ (l : List (List K)) (r : Nat), (∀ row ∈ l, row.length = numCols) → l[r]? = some row →
      (l.filterMap (fun row => row[c]?))[r]? = some v := by
    intro l
    induction l with
    | nil => intro r _ h; simp at h
    | cons a l ih =>
      intro r hl h
      have ha : c < a.length := by rw [hl a List.mem_cons_self]; exact hc
      rw [List.filterMap_cons_some (f := fun row : List K => row[c]?) (List.getElem?_eq_getElem ha)]
      cases r with
      | zero =>
        simp only [List.getElem?_cons_zero, Option.some.injEq] at h ⊢
        subst h
        exact (List.getElem?_eq_some_iff.1 h2).2
      | succ r => simpa using ih r (fun row hr => hl row (List.mem_cons_of_mem _ hr)) (by simpa using h)
  exact key rows r hlen h1

theorem stored_column (c : Nat) : ∀ (rows : List (List (Nat × K))) (k r : Nat) (row : List (Nat × K)), rows[r]? = some row →
    stored ((rows.zipIdx k).filterMap (fun e => (stored e.1 c).map (fun v => (e.2, v)))) (k + r) = stored row c
  | [], k, r, row, h => by simp at h
  | a :: rows, k, r, row, h => by
    rw [List.zipIdx_cons]
    cases r with
    | zero =>
      simp only [List.getElem?_cons_zero, Option.some.injEq] at h
      subst h
      cases hs : stored a c with
      | some v =>
        rw [List.filterMap_cons_some (b := (k, v)) (by simp [hs])]
        simp [stored]
      | none =>
        rw [List.filterMap_cons_none (by simp [hs])]
        unfold stored
        rw [List.find?_eq_none.2, Option.map_none]
        intro e he hc
        rw [List.mem_filterMap] at he
        obtain ⟨p, hp, hp'⟩ := he
        have := List.mem_zipIdx hp
        rw [Option.map_eq_some_iff] at hp'
        obtain ⟨v, _, rfl⟩ := hp'
        simp at hc
        omega
    | succ r =>
      have ih := stored_column c rows (k + 1) r row (by simpa using h)
      rw [show k + (r + 1) = k + 1 + r by omega]
      cases hs : stored a c with
      | some v =>
        rw [List.filterMap_cons_some (b := (k, v)) (by simp [hs])]
        unfold stored at ih ⊢
        rw [List.find?_cons_of_neg (by simp; omega)]
        exact ih
      | none =>
        rw [List.filterMap_cons_none (by simp [hs])]
        exact ih

theorem length_enforceDense [AddZeroClass K] [DecidableEq K] (sparseValue : K) (x : Input K) (hx : WellFormed x) :
    ∀ row ∈ enforceDense sparseValue x, row.length = (shape x).2 := by
  cases x with
  | array _ _ rows => exact hx.2
  | vector values => simp [enforceDense, shape]
  | sparse format numRows numCols rows =>
    intro row hrow
    simp only [enforceDense] at hrow
    split at hrow
    · rw [fillSparse, toArray, List.zipWith_map_left, List.zipWith_map_right, List.mem_iff_getElem] at hrow
      obtain ⟨i, hi, rfl⟩ := hrow
      simp [shape]
    · simp only [toArray, List.mem_map] at hrow
      obtain ⟨a, _, rfl⟩ := hrow
      simp [shape]

/-- **C98.** The feature values of training examples are faithful, with the same restriction as for query examples. -/
theorem columns_partial [AddZeroClass K] [DecidableEq K] (policy : Policy) (sparseValue : K) (x : Input K) (hx : WellFormed x)
    {m : FeatureMatrix K} (hm : createColumnWiseFeatureMatrix policy sparseValue x = .ok m) {r c : Nat} {v : K}
    (h : HasValue sparseValue x r c v) (hz : sparseValue ≠ 0 → ¬ StoresZero x r c) : m.get c r = .ok v := by
  have hdense : (FeatureMatrix.dense (columns (shape x).2 (enforceDense sparseValue x))).get c r = .ok v := by
    obtain ⟨row, h1, _, h2, _⟩ := enforceDense_get sparseValue x hx h
    obtain ⟨column, h3, h4⟩ := columns_get (length_enforceDense sparseValue x hx) h1 (h2 hz)
    simp only [FeatureMatrix.get]
    rw [readAt_of_getElem? h3, ok_bind, readAt_of_getElem? h4]
  unfold createColumnWiseFeatureMatrix at hm
  cases hs : shouldEnforceSparse policy true 4 true x with
  | error e => rw [hs] at hm; exact absurd hm (by simp [error_bind])
  | ok sparse =>
    rw [hs, ok_bind] at hm
    cases hv : validate x with
    | error e => rw [hv] at hm; exact absurd hm (by simp [error_bind])
    | ok u =>
      rw [hv, ok_bind] at hm
      split at hm
      · rename_i format numRows numCols rows
        cases ha : addressOfFirst (numStored rows) with
        | error e => rw [ha, error_bind] at hm; cases hm
        | ok u =>
          rw [ha, ok_bind, pure_eq_ok] at hm
          rw [← Except.ok.inj hm]
          obtain ⟨hc, row, h1, h2⟩ := h
          have hn := (hx.2 row (List.mem_of_getElem? h1)).2
          simp only [FeatureMatrix.get, toColumns]
          rw [readAt_of_getElem? (x := rows.zipIdx.filterMap (fun e => (stored e.1 c).map (fun v => (e.2, v))))
            (by simp [List.getElem?_range hc]), ok_bind]
          have := stored_column c rows 0 r row h1
          rw [Nat.zero_add] at this
          rw [this]
          rcases h2 with h2 | ⟨h2, rfl⟩
          · rw [stored_of_mem hn h2]; rfl
          · rw [stored_of_notMem h2]; rfl
      · rw [pure_eq_ok] at hm
        rw [← Except.ok.inj hm]
        exact hdense

/-- Instance: two examples, three features. -/
example : (createColumnWiseFeatureMatrix .forceSparse (0 : Int) (.sparse .csr 2 3 [[(0, 4), (2, 5)], [(2, 6)]])).map
      (fun m => (m.get 2 1, m.get 1 0)) = .ok (.ok 6, .ok 0) ∧
    createColumnWiseFeatureMatrix .forceDense (0 : Int) (.sparse .csr 2 3 [[(0, 4), (2, 5)], [(2, 6)]]) =
      .ok (.dense [[4, 0], [0, 0], [5, 6]]) := ⟨rfl, rfl⟩

/-! ### Labels -/

/-- **C98.** A label is relevant if and only if its value is not zero, unless a zero is stored explicitly and the sparse format is used (see
`labels_explicit_zero`): this is why the theorem is partial. -/
theorem labels_partial [AddZeroClass K] [DecidableEq K] (policy : Policy) (y : Input K) (hy : WellFormed y)
    {m : LabelMatrix K} (hm : createLabelMatrix policy y = .ok m) {r c : Nat} {v : K}
    (h : HasValue 0 y r c v) (hz : StoresZero y r c → policy = .forceDense) : m.isRelevant r c = .ok (decide (v ≠ 0)) := by
  have hdense : (LabelMatrix.dense (enforceDense 0 y)).isRelevant r c = .ok (decide (v ≠ 0)) := by
    obtain ⟨row, h1, _, h2, _⟩ := enforceDense_get 0 y hy h
    simp only [LabelMatrix.isRelevant]
    rw [readAt_of_getElem? h1, ok_bind, readAt_of_getElem? (h2 (fun h => absurd rfl h)), ok_bind]
    rfl
  unfold createLabelMatrix at hm
  cases hs : shouldEnforceSparse policy false 1 false y with
  | error e => rw [hs] at hm; exact absurd hm (by simp [error_bind])
  | ok sparse =>
    rw [hs, ok_bind] at hm
    cases hv : validate y with
    | error e => rw [hv] at hm; exact absurd hm (by simp [error_bind])
    | ok u =>
      rw [hv, ok_bind] at hm
      split at hm
      · rename_i format numRows numCols rows
        have hp : policy ≠ .forceDense := by
          rintro rfl
          simp only [shouldEnforceSparse] at hs
          split at hs <;> simp at hs
        cases ha : addressOfFirst (numStored rows) with
        | error e => rw [ha, error_bind] at hm; cases hm
        | ok u =>
          rw [ha, ok_bind, pure_eq_ok] at hm
          rw [← Except.ok.inj hm]
          obtain ⟨hc, row, h1, h2⟩ := h
          simp only [LabelMatrix.isRelevant]
          rw [readAt_of_getElem? (x := row.map Prod.fst) (by simp [h1]), ok_bind, pure_eq_ok]
          congr 1
          rw [decide_eq_decide]
          rcases h2 with h2 | ⟨h2, rfl⟩
          · refine ⟨fun _ e => hp (hz ⟨row, h1, e ▸ h2⟩), fun _ => List.mem_map_of_mem (f := Prod.fst) h2⟩
          · simp only [ne_eq, not_true_eq_false, iff_false, List.mem_map, not_exists, not_and]
            intro e he hec
            exact h2 e.2 (hec ▸ he)
      · rw [pure_eq_ok] at hm
        rw [← Except.ok.inj hm]
        exact hdense

/-- **C98.** The restriction is necessary: a label, the value of which is explicitly stored as zero, is considered to be relevant if the sparse
format is used, and irrelevant otherwise. -/
theorem labels_explicit_zero [AddZeroClass K] [DecidableEq K] (y : Input K) (hy : WellFormed y) (hf : Supported y)
    (hshape : (shape y).1 > 0 ∧ (shape y).2 > 0) {r c : Nat} (h : StoresZero y r c) :
    HasValue 0 y r c 0 ∧
    (∃ m, createLabelMatrix .forceDense y = .ok m ∧ m.isRelevant r c = .ok false) ∧
    ∃ m, createLabelMatrix .forceSparse y = .ok m ∧ m.isRelevant r c = .ok true := by
  cases y with
  | array _ _ _ => exact h.elim
  | vector _ => exact h.elim
  | sparse format numRows numCols rows =>
    have hval : HasValue 0 (.sparse format numRows numCols rows) r c (0 : K) := by
      obtain ⟨row, h1, h2⟩ := h
      exact ⟨(hy.2 row (List.mem_of_getElem? h1)).1 _ h2, row, h1, .inl h2⟩
    have hvalidate : validate (Input.sparse format numRows numCols rows) = .ok () := by
      unfold validate; rw [if_pos hshape]
    refine ⟨hval, ?_, ?_⟩
    · have hm : createLabelMatrix .forceDense (.sparse format numRows numCols rows) =
          .ok (.dense (enforceDense 0 (.sparse format numRows numCols rows))) := by
        unfold createLabelMatrix
        obtain ⟨s, h1, _, _, h2⟩ := shouldEnforceSparse_supported .forceDense false 1 false _ hf
        rw [h1, ok_bind, hvalidate, ok_bind, h2 rfl]
        rfl
      exact ⟨_, hm, by simpa using labels_partial .forceDense _ hy hm hval (fun _ => rfl)⟩
    · obtain ⟨row, h1, h2⟩ := h
      refine ⟨.sparse (rows.map (fun row => row.map Prod.fst)), ?_, ?_⟩
      · unfold createLabelMatrix
        obtain ⟨s, h3, _, h4, _⟩ := shouldEnforceSparse_supported .forceSparse false 1 false _ hf
        rw [h3, ok_bind, hvalidate, ok_bind, h4 trivial rfl]
        have : 0 < numStored rows := numStored_pos.2 (fun hc => by
          rw [hc row (List.mem_of_getElem? h1)] at h2; cases h2)
        simp only [addressOfFirst, this, gt_iff_lt, if_true]
        rfl
      · simp only [LabelMatrix.isRelevant]
        rw [readAt_of_getElem? (x := row.map Prod.fst) (by simp [h1]), ok_bind, pure_eq_ok]
        congr 1
        exact decide_eq_true (List.mem_map_of_mem (f := Prod.fst) h2)

/-- Instance: ten labels, the first of which is explicitly irrelevant. The format is chosen automatically, and the label becomes relevant. -/
example : (createLabelMatrix .auto (.sparse .csr 1 20 [[(0, (0 : Int)), (3, 1)]])).map (fun m => (m.isRelevant 0 0, m.isRelevant 0 3,
    m.isRelevant 0 4)) = .ok (.ok true, .ok true, .ok false) := rfl

/-! ### Regression scores -/

/-- **C98.** The regression scores of training examples are faithful. -/
theorem regression_faithful [AddZeroClass K] [DecidableEq K] (policy : Policy) (y : Input K) (hy : WellFormed y)
    {m : RegressionMatrix K} (hm : createRegressionMatrix policy y = .ok m) {r c : Nat} {v : K}
    (h : HasValue 0 y r c v) : m.get r c = .ok v := by
  have hdense : (RegressionMatrix.dense (enforceDense 0 y)).get r c = .ok v := by
    obtain ⟨row, h1, _, h2, _⟩ := enforceDense_get 0 y hy h
    simp only [RegressionMatrix.get]
    rw [readAt_of_getElem? h1, ok_bind, readAt_of_getElem? (h2 (fun h => absurd rfl h))]
  unfold createRegressionMatrix at hm
  cases hs : shouldEnforceSparse policy false 1 false y with
  | error e => rw [hs] at hm; exact absurd hm (by simp [error_bind])
  | ok sparse =>
    rw [hs, ok_bind] at hm
    cases hv : validate y with
    | error e => rw [hv] at hm; exact absurd hm (by simp [error_bind])
    | ok u =>
      rw [hv, ok_bind] at hm
      split at hm
      · rename_i format numRows numCols rows
        cases ha : addressOfFirst (numStored rows) with
        | error e => rw [ha, error_bind] at hm; cases hm
        | ok u =>
          rw [ha, ok_bind, pure_eq_ok] at hm
          rw [← Except.ok.inj hm]
          obtain ⟨hc, row, h1, h2⟩ := h
          have hn := (hy.2 row (List.mem_of_getElem? h1)).2
          simp only [RegressionMatrix.get]
          rw [readAt_of_getElem? h1, ok_bind]
          rcases h2 with h2 | ⟨h2, rfl⟩
          · rw [stored_of_mem hn h2]; rfl
          · rw [stored_of_notMem h2]; rfl
      · rw [pure_eq_ok] at hm
        rw [← Except.ok.inj hm]
        exact hdense

/-- Instance: sparse regression scores. -/
example : (createRegressionMatrix .forceSparse (.sparse .coo 1 3 [[(1, (7 : Int))]])).map (fun m => (m.get 0 0, m.get 0 1)) =
    .ok (.ok 0, .ok 7) := rfl

/-! ### Automatic choice of the format -/

/-- The number of bytes of a matrix in the CSR format: values, indices and pointers, of which there is one more than there are rows. -/
def csrBytes (numRows numStored sizeData : Nat) : Nat := numStored * sizeData + numStored * 4 + (numRows + 1) * 4

/-- **C98.** If the sparse format is chosen automatically for query examples, it takes at most four more bytes than the dense format. -/
theorem auto_features (format : Format) (n d : Nat) (rows : List (List (Nat × K)))
    (h : shouldEnforceSparse .auto false 4 true (.sparse format n d rows) = .ok true) :
    csrBytes n (numStored rows) 4 ≤ n * d * 4 + 3 := by
  simp only [shouldEnforceSparse] at h
  split at h
  · simp only [if_true, isSparseAndMemoryEfficient, Except.ok.injEq, decide_eq_true_eq, Bool.false_eq_true, if_false] at h
    unfold csrBytes
    omega
  · cases h

/-- The sparse format does not necessarily take less memory. -/
example : shouldEnforceSparse .auto false 4 true (.sparse .csr 1 2 [[]] : Input Int) = .ok true ∧ csrBytes 1 0 4 = 1 * 2 * 4 := by
  decide

/-- **C98.** If the sparse format is chosen automatically for regression scores, it takes less memory than the dense format. -/
theorem auto_regression (format : Format) (n d : Nat) (rows : List (List (Nat × K)))
    (h : shouldEnforceSparse .auto false 1 false (.sparse format n d rows) = .ok true) :
    csrBytes n (numStored rows) 4 < n * d * 4 := by
  simp only [shouldEnforceSparse] at h
  split at h
  · simp only [if_true, isSparseAndMemoryEfficient, Except.ok.injEq, decide_eq_true_eq, Bool.false_eq_true, if_false] at h
    unfold csrBytes
    rcases Nat.eq_zero_or_pos n with rfl | hn
    · omega
    · omega
  · cases h

/-- **C98.** However, the dense format may be chosen although the sparse format takes less memory, because the memory consumption is
estimated as if the scores were labels: whenever between a quarter and half of the scores of sufficiently many outputs are stored. -/
theorem auto_regression_wrong (format : Format) (hf : format ≠ .other) (n d : Nat) (rows : List (List (Nat × K))) (hn : 0 < n) (hd : 2 < d)
    (h1 : n * d ≤ 4 * numStored rows + 4 * n) (h2 : 2 * numStored rows + n + 1 < n * d) :
    shouldEnforceSparse .auto false 1 false (.sparse format n d rows) = .ok false ∧ csrBytes n (numStored rows) 4 < n * d * 4 := by
  refine ⟨?_, by unfold csrBytes; omega⟩
  unfold shouldEnforceSparse
  simp only [hf, ne_eq, not_false_eq_true, if_true, isSparseAndMemoryEfficient, Bool.false_eq_true, if_false]
  congr 1
  rw [decide_eq_false_iff_not]
  omega

/-- Instance: four of ten scores are stored. -/
example : (1 : Nat) * 10 ≤ 4 * 4 + 4 * 1 ∧ 2 * 4 + 1 + 1 ≤ 10 := by decide

end MLRL.PythonInput
