import Verif.Model.PythonFeatures
import Verif.Props.TabularData
import Mathlib.Data.List.Perm.Subperm
import Mathlib.Data.List.Nodup

/-!
# C99: the types of features given to the Python API
-/

namespace MLRL.PythonFeatures

open TabularData

/-! ### Specification -/

/-- The type the user has declared a feature to have. -/
def intended (ordinal nominal : List Int) (f : Nat) : Kind :=
  if (f : Int) ∈ ordinal then .ordinal else if (f : Int) ∈ nominal then .nominal else .numerical

/-- The indices of different features among `n`. -/
structure Indices (n : Nat) (indices : List Int) : Prop where
  range : ∀ i ∈ indices, 0 ≤ i ∧ i < n
  nodup : indices.Nodup

/-- A list that is not given is the same as an empty list, as far as the intention of the user is concerned. -/
def listed : Option (List Int) → List Int
  | none => []
  | some indices => indices

/-! ### Auxiliary lemmas -/

theorem setAll_eq (kind : Kind) {n : Nat} (hn : n ≤ 2 ^ 32) : ∀ (indices : List Int) (info : BitFeatureInfo), (∀ i ∈ indices, 0 ≤ i ∧ i < n) →
    setAll kind info indices = (indices.map (fun i => (i.toNat, kind))).foldlM (fun info c => BitFeatureInfo.set info c.1 c.2) info
  | [], _, _ => rfl
  | i :: is, info, h => by
    have hi := h i (by simp)
    have hc : toUint32 i = .ok i.toNat := if_pos ⟨hi.1, by omega⟩
    have ih := setAll_eq kind hn is
    unfold setAll at ih ⊢
    rw [List.map_cons, List.foldlM_cons, List.foldlM_cons, hc, ok_bind]
    show (info.set i.toNat kind >>= fun info => _) = (info.set i.toNat kind >>= fun info => _)
    cases info.set i.toNat kind with
    | error e => rfl
    | ok info' => exact ih info' (fun j hj => h j (List.mem_cons_of_mem _ hj))

theorem declared_eq {n : Nat} {ordinal nominal : List Int} (ho : ∀ i ∈ ordinal, 0 ≤ i ∧ i < (n : Int)) (hm : ∀ i ∈ nominal, 0 ≤ i ∧ i < (n : Int)) (f : Nat) :
    declared (nominal.map (fun i => (i.toNat, Kind.nominal)) ++ ordinal.map (fun i => (i.toNat, Kind.ordinal))) f = intended ordinal nominal f := by
  have key : ∀ (l : List Int) (k : Kind), (∀ i ∈ l, 0 ≤ i ∧ i < (n : Int)) →
      (l.map (fun i => (i.toNat, k))).reverse.find? (fun c => c.1 = f) = if (f : Int) ∈ l then some (f, k) else none := by
    intro l k hl
    split
    · rename_i hf
      cases hfind : (l.map (fun i => (i.toNat, k))).reverse.find? (fun c => c.1 = f) with
      | none =>
        rw [List.find?_eq_none] at hfind
        have := hfind ((f : Int).toNat, k) (by rw [List.mem_reverse]; exact List.mem_map.2 ⟨_, hf, rfl⟩)
        simp at this
      | some c =>
        have h1 := List.find?_some hfind
        have h2 := List.mem_of_find?_eq_some hfind
        rw [List.mem_reverse, List.mem_map] at h2
        obtain ⟨i, _, rfl⟩ := h2
        simp only [decide_eq_true_eq] at h1
        rw [h1]
    · rename_i hf
      rw [List.find?_eq_none]
      intro c hc
      rw [List.mem_reverse, List.mem_map] at hc
      obtain ⟨i, hi, rfl⟩ := hc
      simp only [decide_eq_true_eq]
      intro h
      have := (hl i hi).1
      exact hf (by rw [← h, Int.toNat_of_nonneg this]; exact hi)
  unfold declared intended
  rw [List.reverse_append, List.find?_append, key ordinal .ordinal ho, key nominal .nominal hm]
  by_cases h1 : (f : Int) ∈ ordinal
  · simp [h1]
  · by_cases h2 : (f : Int) ∈ nominal <;> simp [h1, h2]

/-- If `n` different features are listed, all features are. -/
theorem Indices.full {n : Nat} {l : List Int} (h : Indices n l) (hlen : l.length = n) {f : Nat} (hf : f < n) : (f : Int) ∈ l := by
  have hsub : l ⊆ (List.range n).map (fun (k : Nat) => Int.ofNat k) := by
    intro i hi
    have := h.range i hi
    exact List.mem_map.2 ⟨i.toNat, by rw [List.mem_range]; omega, Int.toNat_of_nonneg this.1⟩
  have hp := (List.subperm_of_subset h.nodup hsub).perm_of_length_le (by simp [hlen])
  exact hp.mem_iff.2 (List.mem_map.2 ⟨f, List.mem_range.2 hf, rfl⟩)

theorem count_eq (l : Option (List Int)) : count l = (listed l).length := by cases l <;> rfl

/-! ### Property theorems -/

/-- **C99**, partial. If the lists contain the indices of different features, each feature has the type the user has declared. Missing: exactly one of the
lists is not given (`createFeatureInfo_none`), an index is listed more than once (`createFeatureInfo_counts`), or there is no such feature
(`createFeatureInfo_negative`, `createFeatureInfo_invalid`). -/
theorem createFeatureInfo_partial {n : Nat} (hn : n ≤ 2 ^ 32) {ordinal nominal : Option (List Int)} (ho : Indices n (listed ordinal))
    (hm : Indices n (listed nominal)) (hd : ∀ i ∈ listed ordinal, i ∉ listed nominal)
    (hnone : (ordinal = none → listed nominal = [] ∨ (listed nominal).length = n) ∧ (nominal = none → listed ordinal = [] ∨ (listed ordinal).length = n)) :
    ∃ info, createFeatureInfo n ordinal nominal = .ok info ∧ ∀ f < n, info.createFeatureType f = .ok (intended (listed ordinal) (listed nominal) f) := by
  unfold createFeatureInfo
  rw [count_eq, count_eq]
  split
  · rename_i h
    refine ⟨_, rfl, fun f _ => ?_⟩
    simp [FeatureInfo.createFeatureType, intended, List.eq_nil_of_length_eq_zero h.1, List.eq_nil_of_length_eq_zero h.2]
  split
  · rename_i h
    refine ⟨_, rfl, fun f hf => ?_⟩
    simp [FeatureInfo.createFeatureType, intended, ho.full h hf]
  split
  · rename_i h
    refine ⟨_, rfl, fun f hf => ?_⟩
    have h1 := hm.full h hf
    have h2 : (f : Int) ∉ listed ordinal := fun h3 => hd _ h3 h1
    simp [FeatureInfo.createFeatureType, intended, h1, h2]
  · rename_i h1 h2 h3
    match ordinal, nominal with
    | none, none => exact absurd ⟨rfl, rfl⟩ h1
    | none, some m =>
      rcases hnone.1 rfl with h | h
      · exact absurd ⟨rfl, by rw [h]; rfl⟩ h1
      · exact absurd h h3
    | some o, none =>
      rcases hnone.2 rfl with h | h
      · exact absurd ⟨by rw [h]; rfl, rfl⟩ h1
      · exact absurd h h2
    | some o, some m =>
      have hcalls : ∀ c ∈ m.map (fun i => (i.toNat, Kind.nominal)) ++ o.map (fun i => (i.toNat, Kind.ordinal)), c.1 < n := by
        intro c hc
        rcases List.mem_append.1 hc with hc | hc <;> obtain ⟨i, hi, rfl⟩ := List.mem_map.1 hc
        · have := hm.range i hi
          show i.toNat < n
          omega
        · have := ho.range i hi
          show i.toNat < n
          omega
      obtain ⟨info, h4, h5⟩ := featureInfo_correct hcalls
      refine ⟨.mixed info, ?_, fun f hf => ?_⟩
      · rw [List.foldlM_append] at h4
        unfold mixedFeatureInfo
        simp only
        rw [setAll_eq .nominal hn m _ hm.range]
        obtain ⟨info', h6, h7⟩ := ok_of_bind h4
        rw [h6, ok_bind, setAll_eq .ordinal hn o _ ho.range, h7, ok_bind]
        rfl
      · rw [h5 f hf]
        exact congrArg Except.ok (declared_eq (n := n) ho.range hm.range f)

/-- **C99** is violated: if only one of the lists is given, and some but not all features are listed, an error is raised. -/
theorem createFeatureInfo_none {n : Nat} {l : List Int} (h0 : l ≠ []) (hn : 0 < n) (h : l.length ≠ n) :
    createFeatureInfo n none (some l) = .error .exception ∧ createFeatureInfo n (some l) none = .error .exception := by
  have hl : l.length ≠ 0 := fun h => h0 (List.eq_nil_of_length_eq_zero h)
  unfold createFeatureInfo count
  simp only
  rw [if_neg (fun h => hl h.2), if_neg (by omega), if_neg h, if_neg (fun h => hl h.1), if_neg h, if_neg (by omega)]
  exact ⟨rfl, rfl⟩

/-- **C99** is violated: whether all features are ordinal (or nominal) is decided by the length of the list. If a feature is listed several times, features
that are not listed may be affected. -/
theorem createFeatureInfo_counts {n : Nat} {l : List Int} (hn : 0 < n) (hlen : l.length = n) {f : Nat} (hf : (f : Int) ∉ l) :
    (∃ info, createFeatureInfo n (some l) (some []) = .ok info ∧ info.createFeatureType f = .ok .ordinal ∧ intended l [] f = .numerical) ∧
    (∃ info, createFeatureInfo n (some []) (some l) = .ok info ∧ info.createFeatureType f = .ok .nominal ∧ intended [] l f = .numerical) := by
  unfold createFeatureInfo count
  refine ⟨⟨.equal .ordinal, ?_, rfl, by simp [intended, hf]⟩, ⟨.equal .nominal, ?_, rfl, by simp [intended, hf]⟩⟩
  · simp only
    rw [if_neg (fun h => by omega), if_pos hlen]
  · simp only [List.length_nil]
    rw [if_neg (fun h => by omega), if_neg (by omega), if_pos hlen]

/-- Negative indices, which refer to the last elements of a list in Python, are not supported, but an error is raised. -/
theorem createFeatureInfo_negative {n : Nat} (hn : 2 ≤ n) {i : Int} (hi : i < 0) : createFeatureInfo n (some []) (some [i]) = .error .exception := by
  unfold createFeatureInfo count
  simp only [List.length_nil, List.length_singleton]
  rw [if_neg (fun h => by omega), if_neg (by omega), if_neg (by omega)]
  have : toUint32 i = .error .exception := if_neg (fun h => by omega)
  simp only [mixedFeatureInfo, setAll, List.foldlM_cons, this, error_bind]

/-- **C99** is violated: indices are not checked. If there is no such feature, memory that does not belong to the bit vectors is accessed. -/
theorem createFeatureInfo_invalid {n : Nat} (hn : 2 ≤ n) {i : Nat} (hi : n + 31 ≤ i) (hi2 : i < 2 ^ 32) :
    createFeatureInfo n (some []) (some [(i : Int)]) = .error .outOfBounds := by
  unfold createFeatureInfo count
  simp only [List.length_nil, List.length_singleton]
  rw [if_neg (fun h => by omega), if_neg (by omega), if_neg (by omega)]
  have h1 : toUint32 (i : Int) = .ok i := if_pos ⟨by omega, by omega⟩
  have h2 : (BitVector.create n true).set i false = .error .outOfBounds := by
    have h3 : readAt (BitVector.create n true).words (BitVector.index i) = .error .outOfBounds := by
      unfold readAt
      rw [List.getElem?_eq_none]
      simp only [BitVector.create, List.length_replicate, BitVector.size, BitVector.index, BitVector.wordSize]
      by_cases h4 : n % 32 = 0 <;> simp only [h4, ne_eq, not_true_eq_false, not_false_eq_true, if_true, if_false] <;> omega
    simp only [BitVector.set, h3, error_bind]
  simp only [mixedFeatureInfo, setAll, List.foldlM_cons, h1, ok_bind, BitFeatureInfo.create, BitFeatureInfo.set, h2, error_bind]

/-! ### Concrete cases -/

example : ∃ info, createFeatureInfo 40 (some [0, 35]) (some [33, 7]) = .ok info ∧ info.createFeatureType 35 = .ok .ordinal ∧
    info.createFeatureType 33 = .ok .nominal ∧ info.createFeatureType 34 = .ok .numerical := by
  obtain ⟨info, h1, h2⟩ := createFeatureInfo_partial (n := 40) (by decide) (ordinal := some [0, 35]) (nominal := some [33, 7])
    ⟨by decide, by decide⟩ ⟨by decide, by decide⟩ (by decide) ⟨(fun h => by cases h), (fun h => by cases h)⟩
  exact ⟨info, h1, h2 35 (by omega), h2 33 (by omega), h2 34 (by omega)⟩

/-- All features are ordinal; nominal features are not given. -/
example : ∃ info, createFeatureInfo 3 (some [2, 0, 1]) none = .ok info ∧ info.createFeatureType 1 = .ok .ordinal := by
  obtain ⟨info, h1, h2⟩ := createFeatureInfo_partial (n := 3) (by decide) (ordinal := some [2, 0, 1]) (nominal := none)
    ⟨by decide, by decide⟩ ⟨by decide, by decide⟩ (by decide) ⟨(fun h => by cases h), fun _ => .inr rfl⟩
  exact ⟨info, h1, h2 1 (by omega)⟩

example : createFeatureInfo 3 none (some [1]) = .error .exception := (createFeatureInfo_none (by decide) (by decide) (by decide)).1

/-- Feature 2 is numerical, but is treated as an ordinal feature. -/
example : ∃ info, createFeatureInfo 3 (some [0, 1, 1]) (some []) = .ok info ∧ info.createFeatureType 2 = .ok .ordinal ∧ intended [0, 1, 1] [] 2 = .numerical :=
  (createFeatureInfo_counts (n := 3) (by decide) rfl (f := 2) (by decide)).1

end MLRL.PythonFeatures
