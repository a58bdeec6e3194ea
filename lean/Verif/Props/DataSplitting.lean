import Verif.Model.DataSplitting
import Verif.Props.CrossValidation
import Verif.Props.ParameterFiles

/-!
# C117: Each example is used either for training or for testing, and for testing exactly once
-/

namespace MLRL.DataSplitting

open ParameterFiles (Str fileName fileNamePerFold)
open CrossValidation (Split)
open ResultFiles (dataTypeFileName)

variable {E : Type}

/-! ### Specification -/

/-- The training and test sets of a cross validation: each of them makes up all available data, and so do the test sets. -/
structure Folds (data : List E) (sets : List (List E × List E)) : Prop where
  whole : ∀ s ∈ sets, (s.1 ++ s.2).Perm data
  tests : (sets.map Prod.snd).flatten.Perm data

/-- The names of the files with predefined folds. -/
def foldNames (name : Str) (numFolds : Nat) : List Str :=
  (List.range numFolds).map fun fold => fileNamePerFold name "arff".toList (some fold)

/-- The data to be used by a cross validation: the data in the files for all folds, if they exist, or in a single file. -/
inductive Source (files : Files E) (name : Str) (numFolds : Nat) : List E → Prop where
  | folds (data : List (List E)) (h : (foldNames name numFolds).map files = data.map some) : Source files name numFolds data.flatten
  | single (data : List E) (h : ∀ n ∈ foldNames name numFolds, files n = none)
      (h' : files (name ++ ".arff".toList) = some data) : Source files name numFolds data

/-- Shuffling is a permutation. -/
def Shuffle (shuffle : Nat → List Nat) : Prop := ∀ n, (shuffle n).Perm (List.range n)

/-! ### Files -/

theorem checkIfFilesExist_true (files : Files E) (names : List Str) :
    checkIfFilesExist files names = .ok true ↔ ∀ n ∈ names, (files n).isSome = true := by
  have hiff : (names.filter fun name => (files name).isNone).length = 0 ↔ ∀ n ∈ names, (files n).isSome = true := by
    rw [List.length_eq_zero_iff, List.filter_eq_nil_iff]
    refine forall_congr' fun n => forall_congr' fun _ => ?_
    cases files n <;> simp
  unfold checkIfFilesExist
  dsimp only
  split
  · rename_i h
    exact ⟨fun _ => hiff.1 h, fun _ => rfl⟩
  · rename_i h
    refine ⟨fun hh => ?_, fun hh => absurd (hiff.2 hh) h⟩
    split at hh <;> cases hh

theorem checkIfFilesExist_false (files : Files E) (names : List Str) :
    checkIfFilesExist files names = .ok false ↔ names ≠ [] ∧ ∀ n ∈ names, files n = none := by
  have hiff : (names.filter fun name => (files name).isNone).length = names.length ↔ ∀ n ∈ names, files n = none := by
    rw [List.length_filter_eq_length_iff]
    refine forall_congr' fun n => forall_congr' fun _ => ?_
    cases files n <;> simp
  unfold checkIfFilesExist
  dsimp only
  split
  · rename_i h
    refine ⟨fun hh => (by cases hh), fun hh => ?_⟩
    rw [hiff.2 hh.2, List.length_eq_zero_iff] at h
    exact absurd h hh.1
  · rename_i h
    split
    · rename_i h2
      exact ⟨fun _ => ⟨fun hh => h (by rw [hh]; rfl), hiff.1 h2⟩, fun _ => rfl⟩
    · rename_i h2
      exact ⟨fun hh => (by cases hh), fun hh => absurd (hiff.2 hh.2) h2⟩

/-- **Data sets that are incomplete are rejected.** An error is raised if and only if some, but not all, files are missing. -/
theorem checkIfFilesExist_error (files : Files E) (names : List Str) :
    checkIfFilesExist files names = .error .io ↔ (∃ n ∈ names, files n = none) ∧ ∃ n ∈ names, (files n).isSome = true := by
  have ht := checkIfFilesExist_true files names
  have hf := checkIfFilesExist_false files names
  have hcases : ∀ r, checkIfFilesExist files names = r → r = .ok true ∨ r = .ok false ∨ r = .error .io := by
    rintro r rfl
    unfold checkIfFilesExist
    dsimp only
    split
    · exact Or.inl rfl
    · split
      · exact Or.inr (Or.inl rfl)
      · exact Or.inr (Or.inr rfl)
  constructor
  · intro h
    constructor
    · by_contra hc
      push_neg at hc
      have := ht.2 fun n hn => Option.isSome_iff_ne_none.2 (hc n hn)
      rw [h] at this
      cases this
    · by_contra hc
      push_neg at hc
      by_cases hne : names = []
      · subst hne
        cases h
      · have := hf.2 ⟨hne, fun n hn => by have := hc n hn; cases hh : files n <;> simp_all⟩
        rw [h] at this
        cases this
  · rintro ⟨⟨a, ha, ha'⟩, b, hb, hb'⟩
    rcases hcases _ rfl with h | h | h
    · have := ht.1 h a ha
      rw [ha'] at this
      cases this
    · have := (hf.1 h).2 b hb
      rw [this] at hb'
      cases hb'
    · exact h

theorem loadAll_ok (files : Files E) : ∀ (names : List Str) (data : List (List E)),
    loadAll files names = .ok data ↔ names.map files = data.map some := by
  intro names
  induction names with
  | nil =>
    intro data
    cases data <;> simp [loadAll]
  | cons name names ih =>
    intro data
    unfold loadAll load
    cases hn : files name with
    | none =>
      simp only [bind, Except.bind, List.map_cons, hn]
      cases data <;> simp
    | some d =>
      simp only [bind, Except.bind, List.map_cons, hn]
      cases data with
      | nil => cases loadAll files names <;> simp [pure, Except.pure]
      | cons d' data =>
        rw [List.map_cons, List.cons.injEq, ← ih]
        cases loadAll files names <;> simp [pure, Except.pure]

/-! ### Selecting examples -/

/-- The examples with given indices. -/
def pick (data : List E) (indices : List Nat) : List E := indices.filterMap fun i => data[i]?

theorem gather_eq (data : List E) (indices : List Nat) (h : ∀ i ∈ indices, i < data.length) :
    gather data indices = .ok (pick data indices) := by
  induction indices with
  | nil => rfl
  | cons i indices ih =>
    rw [List.forall_mem_cons] at h
    unfold gather pick
    rw [List.filterMap_cons, List.getElem?_eq_getElem h.1, ih h.2]
    rfl

theorem pick_range (data : List E) : pick data (List.range data.length) = data := by
  unfold pick
  induction data with
  | nil => rfl
  | cons e data ih =>
    rw [List.length_cons, List.range_succ_eq_map, List.filterMap_cons, List.getElem?_cons_zero, List.filterMap_map]
    exact congrArg _ ih

theorem pick_perm (data : List E) {indices : List Nat} (h : indices.Perm (List.range data.length)) :
    (pick data indices).Perm data := by
  have := h.filterMap fun i => data[i]?
  rwa [show (List.range data.length).filterMap (fun i => data[i]?) = data from pick_range data] at this

theorem pick_append (data : List E) (a b : List Nat) : pick data (a ++ b) = pick data a ++ pick data b :=
  List.filterMap_append

theorem pick_flatten (data : List E) (l : List (List Nat)) : pick data l.flatten = (l.map (pick data)).flatten := by
  induction l with
  | nil => rfl
  | cons a l ih => rw [List.flatten_cons, pick_append, ih, List.map_cons, List.flatten_cons]

/-! ### Folds -/

theorem chunks_flatten (sizes : List Nat) : ∀ indices : List Nat, indices.length ≤ sizes.sum → (chunks sizes indices).flatten = indices := by
  induction sizes with
  | nil =>
    intro indices h
    simp only [List.sum_nil, Nat.le_zero, List.length_eq_zero_iff] at h
    subst h
    rfl
  | cons size sizes ih =>
    intro indices h
    rw [List.sum_cons] at h
    rw [chunks, List.flatten_cons, ih _ (by rw [List.length_drop]; omega), List.take_append_drop]

theorem chunks_length (sizes indices : List Nat) : (chunks sizes indices).length = sizes.length := by
  induction sizes generalizing indices with
  | nil => rfl
  | cons size sizes ih => simp [chunks, ih]

theorem sizes_sum (q r : Nat) : ∀ m, ((List.range m).map fun f => q + if f < r then 1 else 0).sum = m * q + min m r := by
  intro m
  induction m with
  | zero => simp
  | succ m ih =>
    rw [List.range_succ, List.map_append, List.sum_append, ih, List.map_singleton, List.sum_singleton, Nat.succ_mul]
    split <;> omega

theorem kFold_ok {shuffle : Nat → List Nat} (hs : Shuffle shuffle) {k n : Nat} {folds : List (List Nat × List Nat)}
    (h : kFold shuffle k n = .ok folds) : folds.length = k ∧ 2 ≤ k ∧ k ≤ n ∧
      (∀ f ∈ folds, (f.1 ++ f.2).Perm (List.range n)) ∧ (folds.map Prod.snd).flatten.Perm (List.range n) := by
  unfold kFold at h
  split at h
  · cases h
  rename_i hk
  push_neg at hk
  cases h
  have hsum : ((List.range k).map fun f => n / k + if f < n % k then 1 else 0).sum = n := by
    rw [sizes_sum, Nat.min_eq_right (Nat.mod_lt _ (by omega)).le]
    exact Nat.div_add_mod n k
  generalize hc : chunks ((List.range k).map fun f => n / k + if f < n % k then 1 else 0) (shuffle n) = c
  have hlen : c.length = k := by rw [← hc, chunks_length]; simp
  have hflat : c.flatten.Perm (List.range n) := by
    rw [← hc, chunks_flatten]
    · exact hs n
    · rw [hsum, (hs n).length_eq, List.length_range]
  refine ⟨by simpa using hlen, by omega, by omega, ?_, ?_⟩
  · intro f hf
    obtain ⟨chunk, -, rfl⟩ := List.mem_map.1 hf
    exact List.perm_append_comm.trans (List.filter_append_perm _ _)
  · rw [List.map_map]
    refine List.Perm.trans ?_ hflat
    have hsub : ∀ chunk ∈ c, chunk.Nodup ∧ ∀ i ∈ chunk, i < n := by
      intro chunk hm
      have hnd : c.flatten.Nodup := hflat.nodup_iff.2 List.nodup_range
      refine ⟨(List.nodup_flatten.1 hnd).1 chunk hm, fun i hi => ?_⟩
      exact List.mem_range.1 (hflat.mem_iff.1 (List.mem_flatten.2 ⟨chunk, hm, hi⟩))
    clear hflat hlen hc
    induction c with
    | nil => exact List.Perm.refl _
    | cons chunk c ih =>
      rw [List.map_cons, List.flatten_cons, List.flatten_cons]
      refine List.Perm.append ?_ (ih fun x hx => hsub x (List.mem_cons_of_mem _ hx))
      obtain ⟨h1, h2⟩ := hsub chunk List.mem_cons_self
      refine (List.perm_ext_iff_of_nodup (List.nodup_range.filter _) h1).2 fun i => ?_
      simp only [List.mem_filter, List.mem_range, decide_eq_true_eq]
      exact ⟨fun hh => hh.2, fun hh => ⟨h2 i hh, hh⟩⟩

/-- Whether a fold is performed. -/
def selected (cur : Int) (fold : Nat) : Bool := decide (cur < 0 ∨ (fold : Int) = cur)

theorem crossValidationFrom_eq (data : List E) (k : Nat) (cur : Int) : ∀ (folds : List (List Nat × List Nat)) (i : Nat),
    (∀ f ∈ folds, (∀ j ∈ f.1, j < data.length) ∧ ∀ j ∈ f.2, j < data.length) →
    crossValidationFrom data k cur i folds = .ok (((folds.zipIdx i).filter fun p => selected cur p.2).map fun p =>
      (.fold k p.2 cur, pick data p.1.1, pick data p.1.2)) := by
  intro folds
  induction folds with
  | nil => intro i _; rfl
  | cons f folds ih =>
    intro i h
    rw [List.forall_mem_cons] at h
    unfold crossValidationFrom
    rw [List.zipIdx_cons, ih _ h.2]
    by_cases hc : cur < 0 ∨ (i : Int) = cur
    · rw [if_pos hc, gather_eq _ _ h.1.1, gather_eq _ _ h.1.2, List.filter_cons_of_pos (by simpa [selected] using hc)]
      rfl
    · rw [if_neg hc, List.filter_cons_of_neg (by simpa [selected] using hc)]

theorem filter_zipIdx {α : Type} (f : Nat) : ∀ (l : List α) (i : Nat),
    (l.zipIdx i).filter (fun p => decide (p.2 = i + f)) = (l[f]?).toList.map fun x => (x, i + f) := by
  induction f with
  | zero =>
    intro l i
    cases l with
    | nil => rfl
    | cons x l =>
      rw [List.zipIdx_cons, List.filter_cons_of_pos (by simp), List.filter_eq_nil_iff.2]
      · rfl
      · rintro ⟨a, j⟩ hm
        have := List.le_snd_of_mem_zipIdx hm
        simp only [decide_eq_true_eq]
        intro hj
        dsimp only at this
        omega
  | succ f ih =>
    intro l i
    cases l with
    | nil => rfl
    | cons x l =>
      rw [List.zipIdx_cons, List.filter_cons_of_neg (by simp), List.getElem?_cons_succ]
      have := ih l (i + 1)
      rw [show i + 1 + f = i + (f + 1) by omega] at this
      exact this

/-! ### Theorems -/

/-- What a cross validation computes. -/
theorem crossValidation_cases {files : Files E} {name : Str} {shuffle : Nat → List Nat} {k : Nat} (hk : 2 ≤ k) (cur : Int) :
    (∃ data, (foldNames name k).map files = data.map some ∧ data.length = k ∧
      crossValidation files name shuffle k cur = match CrossValidation.predefined data data.length cur with
        | .error e => .error (.fold e)
        | .ok sets => .ok sets) ∨
    ((∀ n ∈ foldNames name k, files n = none) ∧ crossValidation files name shuffle k cur = do
      let data ← load files (name ++ ".arff".toList)
      let folds ← kFold shuffle k data.length
      crossValidationFrom data k cur 0 folds) ∨
    ((∃ n ∈ foldNames name k, files n = none) ∧ (∃ n ∈ foldNames name k, (files n).isSome = true) ∧
      crossValidation files name shuffle k cur = .error .io) := by
  have hne : foldNames name k ≠ [] := by
    intro h
    have := congrArg List.length h
    simp [foldNames] at this
    omega
  have hcv : crossValidation files name shuffle k cur = (do
      let predefinedSplit ← checkIfFilesExist files (foldNames name k)
      if predefinedSplit then
        let data ← loadAll files (foldNames name k)
        match CrossValidation.predefined data k cur with
        | .error e => .error (.fold e)
        | .ok sets => .ok sets
      else
        let data ← load files (name ++ ".arff".toList)
        let folds ← kFold shuffle k data.length
        crossValidationFrom data k cur 0 folds) := rfl
  by_cases h1 : ∀ n ∈ foldNames name k, (files n).isSome = true
  · left
    have hdata : (foldNames name k).map files = ((foldNames name k).map fun n => (files n).getD []).map some := by
      rw [List.map_map]
      refine List.map_congr_left fun n hn => ?_
      obtain ⟨d, hd⟩ := Option.isSome_iff_exists.1 (h1 n hn)
      simp [hd]
    refine ⟨_, hdata, by simp [foldNames], ?_⟩
    rw [hcv, (checkIfFilesExist_true ..).2 h1]
    simp only [bind, Except.bind, if_true]
    rw [(loadAll_ok ..).2 hdata]
    simp only [List.length_map, show (foldNames name k).length = k by simp [foldNames]]
  · by_cases h2 : ∀ n ∈ foldNames name k, files n = none
    · right; left
      refine ⟨h2, ?_⟩
      rw [hcv, (checkIfFilesExist_false ..).2 ⟨hne, h2⟩]
      rfl
    · right; right
      push_neg at h1 h2
      obtain ⟨a, ha, ha'⟩ := h1
      obtain ⟨b, hb, hb'⟩ := h2
      have h3 : ∃ n ∈ foldNames name k, files n = none := ⟨a, ha, by cases hh : files a <;> simp_all⟩
      have h4 : ∃ n ∈ foldNames name k, (files n).isSome = true := ⟨b, hb, Option.isSome_iff_ne_none.2 hb'⟩
      refine ⟨h3, h4, ?_⟩
      rw [hcv, (checkIfFilesExist_error ..).2 ⟨h3, h4⟩]
      rfl

theorem kFold_bounds {n : Nat} {folds : List (List Nat × List Nat)} (h : ∀ f ∈ folds, (f.1 ++ f.2).Perm (List.range n)) :
    ∀ f ∈ folds, (∀ j ∈ f.1, j < n) ∧ ∀ j ∈ f.2, j < n := fun f hf =>
  ⟨fun j hj => List.mem_range.1 ((h f hf).mem_iff.1 (List.mem_append_left _ hj)),
    fun j hj => List.mem_range.1 ((h f hf).mem_iff.1 (List.mem_append_right _ hj))⟩

/-- **Cross validations use all examples.** If a full cross validation succeeds, each example of the available data is used either
for training or for testing in each fold, and for testing in exactly one fold. All folds are performed, in order. -/
theorem crossValidation_folds {files : Files E} {name : Str} {shuffle : Nat → List Nat} (hs : Shuffle shuffle) {k : Nat} (hk : 2 ≤ k)
    {cur : Int} (hc : cur < 0) {sets : List (Split × List E × List E)} (h : crossValidation files name shuffle k cur = .ok sets) :
    ∃ data, Source files name k data ∧ Folds data (sets.map Prod.snd) ∧
      sets.map Prod.fst = (List.range k).map fun fold => Split.fold k fold cur := by
  rcases crossValidation_cases hk cur with ⟨data, hd, hl, he⟩ | ⟨hn, he⟩ | ⟨-, -, he⟩
  · rw [he] at h
    have hpe : CrossValidation.predefined data data.length cur = .ok ((List.range data.length).map fun f =>
        (Split.fold data.length f cur, (CrossValidation.others data f).flatten, (data[f]?).getD [])) := by
      unfold CrossValidation.predefined CrossValidation.performed
      rw [if_pos hc]
      exact CrossValidation.predefinedFrom_eq data cur (by omega) _ (by simp)
    obtain ⟨sets', h1, -, h3, -⟩ := CrossValidation.predefined_full data cur (by omega) hc
    rw [h1] at h
    cases h
    refine ⟨data.flatten, .folds data hd, ⟨?_, ?_⟩, ?_⟩
    · intro s hs'
      obtain ⟨p, hp, rfl⟩ := List.mem_map.1 hs'
      rw [hpe] at h1
      cases h1
      obtain ⟨f, hf, rfl⟩ := List.mem_map.1 hp
      rw [List.mem_range] at hf
      refine CrossValidation.foldSets_perm data f _ _ ?_ (by omega) hf
      rw [CrossValidation.foldSets_eq data f (by omega) hf, List.getElem?_eq_getElem hf]
      rfl
    · rw [List.map_map]
      have h4 : (sets.map (Prod.snd ∘ Prod.snd)) = data := h3
      rw [h4]
    · rw [hpe] at h1
      cases h1
      rw [List.map_map, hl]
      rfl
  · rw [he] at h
    unfold load at h
    cases hf : files (name ++ ".arff".toList) with
    | none =>
      rw [hf] at h
      cases h
    | some data =>
      rw [hf] at h
      simp only [bind, Except.bind] at h
      cases hk' : kFold shuffle k data.length with
      | error e =>
        rw [hk'] at h
        cases h
      | ok folds =>
        rw [hk'] at h
        dsimp only at h
        obtain ⟨h1, -, -, h2, h3⟩ := kFold_ok hs hk'
        rw [crossValidationFrom_eq _ _ _ _ _ (kFold_bounds h2)] at h
        rw [List.filter_eq_self.2 (fun p _ => by simp [selected, hc])] at h
        cases h
        refine ⟨data, .single data hn hf, ⟨?_, ?_⟩, ?_⟩
        · intro s hs'
          rw [List.map_map] at hs'
          obtain ⟨⟨f, i⟩, hp, rfl⟩ := List.mem_map.1 hs'
          have hm := h2 f (List.fst_mem_of_mem_zipIdx hp)
          show (pick data f.1 ++ pick data f.2).Perm data
          rw [← pick_append]
          exact pick_perm data hm
        · have : (((folds.zipIdx 0).map fun p => (Split.fold k p.2 cur, pick data p.1.1, pick data p.1.2)).map Prod.snd).map Prod.snd
              = (folds.map Prod.snd).map (pick data) := by
            rw [List.map_map, List.map_map, List.map_map]
            conv_rhs => rw [← List.zipIdx_map_fst 0 folds, List.map_map]
            rfl
          rw [this, ← pick_flatten]
          exact pick_perm data h3
        · rw [List.map_map, ← h1]
          have : (List.range folds.length) = (folds.zipIdx 0).map Prod.snd := by
            rw [List.zipIdx_map_snd, List.range_eq_range']
          rw [this, List.map_map]
          rfl
  · rw [he] at h
    cases h

/-- **Predefined folds are respected**: the examples in the file of a certain fold are used for testing in that fold. -/
theorem crossValidation_predefined {files : Files E} {name : Str} {shuffle : Nat → List Nat} {k : Nat} (hk : 2 ≤ k)
    {cur : Int} (hc : cur < 0) {data : List (List E)} (hd : (foldNames name k).map files = data.map some) :
    ∃ sets, crossValidation files name shuffle k cur = .ok sets ∧ (sets.map fun s => s.2.2) = data := by
  have hm : fileNamePerFold name "arff".toList (some 0) ∈ foldNames name k :=
    List.mem_map_of_mem (f := fun fold => fileNamePerFold name "arff".toList (some fold)) (List.mem_range.2 (by omega : 0 < k))
  have hsome : ∀ n ∈ foldNames name k, files n ≠ none := by
    intro n hn h
    have := List.mem_map_of_mem (f := files) hn
    rw [h, hd] at this
    simp at this
  rcases crossValidation_cases (files := files) (name := name) (shuffle := shuffle) hk cur with ⟨data', hd', hl, he⟩ | ⟨hn, -⟩ | ⟨⟨n, hn, hn'⟩, -, -⟩
  · have : data' = data := List.map_injective_iff.2 (Option.some_injective _) (hd'.symm.trans hd)
    subst this
    obtain ⟨sets, h1, -, h3, -⟩ := CrossValidation.predefined_full data' cur (by omega) hc
    rw [he, h1]
    exact ⟨sets, rfl, h3⟩
  · exact absurd (hn _ hm) (hsome _ hm)
  · exact absurd hn' (hsome n hn)

/-- **Folds can be performed individually**: if a single fold is performed, its training and test set are the same as in the full
cross validation. -/
theorem crossValidation_single {files : Files E} {name : Str} {shuffle : Nat → List Nat} (hs : Shuffle shuffle) {k : Nat} (hk : 2 ≤ k)
    {cur : Int} (hc : cur < 0) {sets : List (Split × List E × List E)} (h : crossValidation files name shuffle k cur = .ok sets)
    {fold : Nat} {s : Split × List E × List E} (hf : sets[fold]? = some s) :
    crossValidation files name shuffle k fold = .ok [(.fold k fold fold, s.2)] := by
  have hfk : fold < k := by
    obtain ⟨_, -, -, h1⟩ := crossValidation_folds hs hk hc h
    have := congrArg List.length h1
    simp only [List.length_map, List.length_range] at this
    rw [← this]
    exact (List.getElem?_eq_some_iff.1 hf).1
  rcases crossValidation_cases (files := files) (name := name) (shuffle := shuffle) hk cur with ⟨data, hd, hl, he⟩ | ⟨hn, he⟩ | ⟨-, -, he⟩
  · have he' : crossValidation files name shuffle k fold = match CrossValidation.predefined data data.length fold with
        | .error e => .error (.fold e)
        | .ok sets => .ok sets := by
      rcases crossValidation_cases (files := files) (name := name) (shuffle := shuffle) hk (fold : Int) with
        ⟨data', hd', -, he'⟩ | ⟨hn', -⟩ | ⟨⟨n, hn, hn'⟩, -, -⟩
      · have : data' = data := List.map_injective_iff.2 (Option.some_injective _) (hd'.symm.trans hd)
        rw [he', this]
      · exfalso
        have hm : files (fileNamePerFold name "arff".toList (some 0)) ∈ (foldNames name k).map files :=
          List.mem_map_of_mem (List.mem_map_of_mem (f := fun fold => fileNamePerFold name "arff".toList (some fold)) (List.mem_range.2 (by omega : 0 < k)))
        rw [hn' _ (List.mem_map_of_mem (f := fun fold => fileNamePerFold name "arff".toList (some fold)) (List.mem_range.2 (by omega : 0 < k))), hd] at hm
        simp at hm
      · exfalso
        have hm : files n ∈ (foldNames name k).map files := List.mem_map_of_mem hn
        rw [hn', hd] at hm
        simp at hm
    have hpe : CrossValidation.predefined data data.length cur = .ok ((List.range data.length).map fun f =>
        (Split.fold data.length f cur, (CrossValidation.others data f).flatten, (data[f]?).getD [])) := by
      unfold CrossValidation.predefined CrossValidation.performed
      rw [if_pos hc]
      exact CrossValidation.predefinedFrom_eq data cur (by omega) _ (by simp)
    rw [he, hpe] at h
    cases h
    rw [he', CrossValidation.predefined_single data fold (by omega) (by omega)]
    rw [List.getElem?_map, List.getElem?_range (by omega)] at hf
    cases hf
    simp only [hl, List.getElem?_eq_getElem (show fold < data.length by omega), Option.getD_some]
  · have he' : crossValidation files name shuffle k fold = (do
        let data ← load files (name ++ ".arff".toList)
        let folds ← kFold shuffle k data.length
        crossValidationFrom data k fold 0 folds) := by
      have hm : fileNamePerFold name "arff".toList (some 0) ∈ foldNames name k :=
        List.mem_map_of_mem (f := fun fold => fileNamePerFold name "arff".toList (some fold)) (List.mem_range.2 (by omega : 0 < k))
      rcases crossValidation_cases (files := files) (name := name) (shuffle := shuffle) hk (fold : Int) with
        ⟨data', hd', -, -⟩ | ⟨-, he'⟩ | ⟨-, ⟨n, hn', hn''⟩, -⟩
      · exfalso
        have := List.mem_map_of_mem (f := files) hm
        rw [hn _ hm, hd'] at this
        simp at this
      · exact he'
      · rw [hn n hn'] at hn''
        cases hn''
    rw [he] at h
    rw [he']
    unfold load at h ⊢
    cases hfile : files (name ++ ".arff".toList) with
    | none =>
      rw [hfile] at h
      cases h
    | some data =>
      rw [hfile] at h
      simp only [bind, Except.bind] at h ⊢
      cases hk' : kFold shuffle k data.length with
      | error e =>
        rw [hk'] at h
        cases h
      | ok folds =>
        rw [hk'] at h
        dsimp only at h ⊢
        obtain ⟨h1, -, -, h2, h3⟩ := kFold_ok hs hk'
        rw [crossValidationFrom_eq _ _ _ _ _ (kFold_bounds h2)] at h ⊢
        rw [List.filter_eq_self.2 (fun p _ => by simp [selected, hc])] at h
        cases h
        have hsel : (fun p : (List Nat × List Nat) × Nat => selected (fold : Int) p.2) = fun p => decide (p.2 = 0 + fold) := by
          funext p
          unfold selected
          refine decide_eq_decide.2 ⟨fun hh => ?_, fun hh => Or.inr ?_⟩ <;> omega
        rw [hsel, filter_zipIdx, List.getElem?_eq_getElem (show fold < folds.length by omega)]
        rw [List.getElem?_map, List.getElem?_zipIdx, List.getElem?_eq_getElem (show fold < folds.length by omega)] at hf
        cases hf
        simp
  · rw [he] at h
    cases h

/-- **When a cross validation succeeds**: there must be files for all folds, or for none of them and a single file with at least as many
examples as there are folds. In particular, if there are files for some folds only, an error is raised, although there may be a file
that contains all data. -/
theorem crossValidation_succeeds {files : Files E} {name : Str} {shuffle : Nat → List Nat} (hs : Shuffle shuffle) {k : Nat} (hk : 2 ≤ k)
    {cur : Int} (hc : cur < 0) : (∃ sets, crossValidation files name shuffle k cur = .ok sets) ↔
      (∀ n ∈ foldNames name k, (files n).isSome = true) ∨
        ((∀ n ∈ foldNames name k, files n = none) ∧ ∃ data, files (name ++ ".arff".toList) = some data ∧ k ≤ data.length) := by
  have hm : fileNamePerFold name "arff".toList (some 0) ∈ foldNames name k :=
    List.mem_map_of_mem (f := fun fold => fileNamePerFold name "arff".toList (some fold)) (List.mem_range.2 (by omega : 0 < k))
  rcases crossValidation_cases (files := files) (name := name) (shuffle := shuffle) hk cur with
    ⟨data, hd, hl, he⟩ | ⟨hn, he⟩ | ⟨⟨a, ha, ha'⟩, ⟨b, hb, hb'⟩, he⟩
  · obtain ⟨sets, h1, -⟩ := CrossValidation.predefined_full data cur (by omega) hc
    rw [he, h1]
    refine ⟨fun _ => Or.inl fun n hn => ?_, fun _ => ⟨sets, rfl⟩⟩
    have := List.mem_map_of_mem (f := files) hn
    rw [hd] at this
    obtain ⟨d, -, hd'⟩ := List.mem_map.1 this
    rw [← hd']
    rfl
  · rw [he]
    unfold load
    cases hfile : files (name ++ ".arff".toList) with
    | none =>
      constructor
      · rintro ⟨sets, hh⟩
        cases hh
      · rintro (hh | ⟨-, data, hh, -⟩)
        · have := hh _ hm
          rw [hn _ hm] at this
          cases this
        · cases hh
    | some data =>
      simp only [bind, Except.bind]
      by_cases hkn : k ≤ data.length
      · refine ⟨fun _ => Or.inr ⟨hn, data, rfl, hkn⟩, fun _ => ?_⟩
        have : ∃ folds, kFold shuffle k data.length = .ok folds := by
          unfold kFold
          rw [if_neg (by omega)]
          exact ⟨_, rfl⟩
        obtain ⟨folds, hf⟩ := this
        obtain ⟨-, -, -, h2, -⟩ := kFold_ok hs hf
        rw [hf]
        dsimp only
        rw [crossValidationFrom_eq _ _ _ _ _ (kFold_bounds h2)]
        exact ⟨_, rfl⟩
      · have : kFold shuffle k data.length = .error .value := by
          unfold kFold
          rw [if_pos (by omega)]
        rw [this]
        constructor
        · rintro ⟨sets, hh⟩
          cases hh
        · rintro (hh | ⟨-, data', hh, hle⟩)
          · have := hh _ hm
            rw [hn _ hm] at this
            cases this
          · cases hh
            exact absurd hle hkn
  · rw [he]
    constructor
    · rintro ⟨sets, hh⟩
      cases hh
    · rintro (hh | ⟨hh, -⟩)
      · have := hh a ha
        rw [ha'] at this
        cases this
      · rw [hh b hb] at hb'
        cases hb'

/-- **Predefined folds may be ignored**: only the files for the given number of folds matter. If there are more of them, the examples they
contain are used neither for training nor for testing, without a warning. -/
theorem folds_ignored {files files' : Files E} {name : Str} {shuffle : Nat → List Nat} {k : Nat} (hk : 2 ≤ k) (cur : Int)
    (hall : ∀ n ∈ foldNames name k, (files n).isSome = true) (heq : ∀ n ∈ foldNames name k, files' n = files n) :
    crossValidation files' name shuffle k cur = crossValidation files name shuffle k cur := by
  have hmap : (foldNames name k).map files' = (foldNames name k).map files := List.map_congr_left heq
  have hm : fileNamePerFold name "arff".toList (some 0) ∈ foldNames name k :=
    List.mem_map_of_mem (f := fun fold => fileNamePerFold name "arff".toList (some fold)) (List.mem_range.2 (by omega : 0 < k))
  have hcases : ∀ g : Files E, (∀ n ∈ foldNames name k, (g n).isSome = true) → ∃ data, (foldNames name k).map g = data.map some ∧
      data.length = k ∧ crossValidation g name shuffle k cur = match CrossValidation.predefined data data.length cur with
        | .error e => .error (.fold e)
        | .ok sets => .ok sets := by
    intro g hg
    rcases crossValidation_cases (files := g) (name := name) (shuffle := shuffle) hk cur with h | ⟨hn, -⟩ | ⟨⟨n, hn, hn'⟩, -, -⟩
    · exact h
    · have := hg _ hm
      rw [hn _ hm] at this
      cases this
    · have := hg n hn
      rw [hn'] at this
      cases this
  obtain ⟨d, h1, -, h2⟩ := hcases files hall
  obtain ⟨d', h1', -, h2'⟩ := hcases files' fun n hn => by rw [heq n hn]; exact hall n hn
  have : d' = d := List.map_injective_iff.2 (Option.some_injective _) (h1'.symm.trans (hmap.trans h1))
  rw [h2, h2', this]

/-- **Training and test sets.** If the data is split into a training and a test set, they are those that are predefined by two files, or they
make up the data in a single file. -/
theorem trainTest_ok {files : Files E} {name : Str} {split : Nat → Except Error (List Nat × List Nat)}
    (hs : ∀ n train test, split n = .ok (train, test) → (train ++ test).Perm (List.range n)) {sets : List (Split × List E × List E)}
    (h : trainTest files name split = .ok sets) : ∃ train test, sets = [(.trainTest, train, test)] ∧
      ((files (name ++ "_training.arff".toList) = some train ∧ files (name ++ "_test.arff".toList) = some test) ∨
        (files (name ++ "_training.arff".toList) = none ∧ files (name ++ "_test.arff".toList) = none ∧
          ∃ data, files (name ++ ".arff".toList) = some data ∧ (train ++ test).Perm data)) := by
  have e1 : fileName (dataTypeFileName .training name) suffixArff = name ++ "_training.arff".toList := by
    simp only [fileName, dataTypeFileName, List.append_assoc]
    rfl
  have e2 : fileName (dataTypeFileName .test name) suffixArff = name ++ "_test.arff".toList := by
    simp only [fileName, dataTypeFileName, List.append_assoc]
    rfl
  have e3 : fileName name suffixArff = name ++ ".arff".toList := rfl
  unfold trainTest at h
  rw [e1, e2, e3] at h
  dsimp only at h
  cases h1 : files (name ++ "_training.arff".toList) with
  | none =>
    cases h2 : files (name ++ "_test.arff".toList) with
    | none =>
      rw [(checkIfFilesExist_false ..).2 ⟨by simp, by
        intro n hn
        rcases List.mem_cons.1 hn with rfl | hn
        · exact h1
        · rw [List.mem_singleton] at hn
          rw [hn]
          exact h2⟩] at h
      simp only [bind, Except.bind, Bool.false_eq_true, if_false] at h
      unfold load at h
      cases h3 : files (name ++ ".arff".toList) with
      | none =>
        rw [h3] at h
        cases h
      | some data =>
        rw [h3] at h
        dsimp only at h
        cases h4 : split data.length with
        | error e =>
          rw [h4] at h
          cases h
        | ok p =>
          obtain ⟨train, test⟩ := p
          rw [h4] at h
          dsimp only at h
          have hp := hs _ _ _ h4
          rw [gather_eq _ _ fun j hj => List.mem_range.1 (hp.mem_iff.1 (List.mem_append_left _ hj)),
            gather_eq _ _ fun j hj => List.mem_range.1 (hp.mem_iff.1 (List.mem_append_right _ hj))] at h
          cases h
          refine ⟨_, _, rfl, Or.inr ⟨rfl, rfl, data, rfl, ?_⟩⟩
          rw [← pick_append]
          exact pick_perm data hp
    | some test =>
      rw [(checkIfFilesExist_error ..).2 ⟨⟨_, List.mem_cons_self, h1⟩, ⟨_, List.mem_cons_of_mem _ List.mem_cons_self, by rw [h2]; rfl⟩⟩] at h
      cases h
  | some train =>
    cases h2 : files (name ++ "_test.arff".toList) with
    | none =>
      rw [(checkIfFilesExist_error ..).2 ⟨⟨_, List.mem_cons_of_mem _ List.mem_cons_self, h2⟩, ⟨_, List.mem_cons_self, by rw [h1]; rfl⟩⟩] at h
      cases h
    | some test =>
      rw [(checkIfFilesExist_true ..).2 (by
        intro n hn
        rcases List.mem_cons.1 hn with rfl | hn
        · rw [h1]; rfl
        · rw [List.mem_singleton] at hn
          rw [hn, h2]
          rfl)] at h
      simp only [bind, Except.bind, if_true] at h
      unfold load at h
      rw [h1, h2] at h
      cases h
      exact ⟨_, _, rfl, Or.inl ⟨rfl, rfl⟩⟩

/-- **The names of files with predefined folds** consist of the name of the data set and the number of the fold, starting at one. -/
theorem foldNames_eq (name : Str) (k : Nat) : foldNames name k =
    (List.range k).map fun fold => name ++ "_fold-".toList ++ Nat.toDigits 10 (fold + 1) ++ ".arff".toList := by
  unfold foldNames
  refine List.map_congr_left fun fold _ => ?_
  simp only [fileNamePerFold, fileName, ParameterFiles.str, List.append_assoc]
  rfl

/-- **No split**: all examples are used for training, as well as for testing. -/
theorem noSplit_ok (files : Files E) (name : Str) : noSplit files name =
    match files (name ++ ".arff".toList) with
    | none => .error .io
    | some data => .ok [(.noSplit, data, data)] := by
  unfold noSplit load
  rw [show fileName name suffixArff = name ++ ".arff".toList from rfl]
  cases files (name ++ ".arff".toList) <;> rfl

/-! ### Examples -/

/-- Files for two folds and a file that contains all data. -/
def exampleFiles : Files Nat := fun name =>
  if name = "data_fold-1.arff".toList then some [1, 2] else if name = "data_fold-2.arff".toList then some [3]
  else if name = "data.arff".toList then some [1, 2, 3] else none

/-- The predefined folds are used. -/
example : crossValidation exampleFiles "data".toList List.range 2 (-1) =
    .ok [(.fold 2 0 (-1), [3], [1, 2]), (.fold 2 1 (-1), [1, 2], [3])] := by rfl

/-- There is no third fold. -/
example : crossValidation exampleFiles "data".toList List.range 3 (-1) = .error .io := by rfl

/-- The order of examples is reversed. -/
def exampleShuffle (n : Nat) : List Nat := (List.range n).reverse

example : Shuffle exampleShuffle := fun n => List.reverse_perm _

/-- Without predefined folds, the first fold contains the last two examples. -/
example : crossValidation (fun n => if n = "data.arff".toList then some [1, 2, 3] else none) "data".toList exampleShuffle 2 (-1) =
    .ok [(.fold 2 0 (-1), [1], [2, 3]), (.fold 2 1 (-1), [2, 3], [1])] := by rfl

end MLRL.DataSplitting
