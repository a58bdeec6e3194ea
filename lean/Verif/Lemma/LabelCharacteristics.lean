import Verif.Model.LabelCharacteristics
import Verif.Props.PythonOptions
import Mathlib.Data.List.Basic
import Mathlib.Data.List.Count
import Mathlib.Data.List.Induction
import Mathlib.Data.List.Perm.Basic
import Mathlib.Algebra.BigOperators.Group.List.Basic

/-!
# Lemmas about unique label vectors and characteristics of output matrices
-/

namespace MLRL.LabelCharacteristics

open MLRL.PythonOptions (Str PyError split split_append split_of_notMem)

/-! ## Strings -/

theorem comma_notMem_str (n : Nat) : ',' ∉ str n := by
  intro h
  have := Nat.isDigit_of_mem_toDigits (by decide) (by decide) h
  exact absurd this (by decide)

theorem int_str (n : Nat) : int (str n) = .ok n := by
  unfold int str
  rw [if_neg Nat.toDigits_ne_nil, if_pos, Nat.ofDigitChars_ten_toDigits]
  rw [List.all_eq_true]
  intro c hc
  exact Nat.isDigit_of_mem_toDigits (by decide) (by decide) hc

theorem split_join (ts : List Str) (hne : ts ≠ []) (h : ∀ t ∈ ts, ',' ∉ t) : split ',' (join ',' ts) = ts := by
  induction ts with
  | nil => exact absurd rfl hne
  | cons t ts ih =>
    cases ts with
    | nil => exact split_of_notMem (h t (by simp))
    | cons u us =>
      show split ',' (t ++ ',' :: join ',' (u :: us)) = _
      rw [split_append _ (h t (by simp)), ih (by simp) (fun x hx => h x (List.mem_cons_of_mem _ hx))]

theorem ints_map_str (r : List Nat) : ints (r.map str) = .ok r := by
  induction r with
  | nil => rfl
  | cons i r ih => simp [ints, int_str, ih]

theorem ints_error {ts : List Str} {e : PyError} (h : ints ts = .error e) : e = .valueError := by
  induction ts with
  | nil => simp [ints] at h
  | cons t ts ih =>
    simp only [ints] at h
    split at h
    · rename_i e' he
      cases h
      unfold int at he
      split at he
      · cases he; rfl
      · split at he
        · cases he
        · cases he; rfl
    · split at h
      · rename_i e' he
        cases h
        exact ih he
      · cases h

/-- The string that represents a label vector. -/
def encode (r : List Nat) : Str := join ',' (r.map str)

theorem ints_split_encode {r : List Nat} (h : r ≠ []) : ints (split ',' (encode r)) = .ok r := by
  rw [encode, split_join _ (by simpa using h) (by
    intro t ht
    obtain ⟨n, _, rfl⟩ := List.mem_map.1 ht
    exact comma_notMem_str n), ints_map_str]

theorem ints_split_nil : ints (split ',' (encode [])) = .error .valueError := by
  simp [encode, join, split, ints, int]

theorem encode_injective : Function.Injective encode := by
  intro a b h
  by_cases ha : a = [] <;> by_cases hb : b = []
  · rw [ha, hb]
  · have := ints_split_encode hb
    rw [← h, ha, ints_split_nil] at this
    cases this
  · have := ints_split_encode ha
    rw [h, hb, ints_split_nil] at this
    cases this
  · have h1 := ints_split_encode ha
    rw [h, ints_split_encode hb] at h1
    cases h1
    rfl

/-! ## Frequencies -/

/-- The distinct elements of a list, together with the number of their occurrences. -/
def frequencies {α : Type} [DecidableEq α] (l : List α) : List (α × Nat) := l.eraseDups.map fun k => (k, l.count k)

theorem mem_eraseDups' {α : Type} [DecidableEq α] (l : List α) (a : α) : a ∈ l.eraseDups ↔ a ∈ l := by
  induction l using List.reverseRecOn with
  | nil => simp
  | append_singleton l x ih =>
    rw [List.eraseDups_append, List.mem_append, List.mem_append, ih]
    by_cases hx : x ∈ l
    · have : [x].removeAll l = [] := by simp [List.removeAll, hx]
      rw [this]
      simp
      rintro rfl; exact hx
    · have : [x].removeAll l = [x] := by simp [List.removeAll, hx]
      rw [this]; simp [List.eraseDups_cons]

theorem eraseDups_snoc {α : Type} [DecidableEq α] (l : List α) (x : α) :
    (l ++ [x]).eraseDups = if x ∈ l then l.eraseDups else l.eraseDups ++ [x] := by
  rw [List.eraseDups_append]
  split
  · have : [x].removeAll l = [] := by simp [List.removeAll, *]
    rw [this]; simp
  · have : [x].removeAll l = [x] := by simp [List.removeAll, *]
    rw [this]; simp [List.eraseDups_cons]

theorem nodup_eraseDups' {α : Type} [DecidableEq α] (l : List α) : l.eraseDups.Nodup := by
  induction l using List.reverseRecOn with
  | nil => simp
  | append_singleton l x ih =>
    rw [eraseDups_snoc]
    split
    · exact ih
    · rename_i hx
      rw [List.nodup_append]
      refine ⟨ih, by simp, ?_⟩
      intro a ha b hb
      rw [List.mem_singleton] at hb
      subst hb
      rintro rfl
      exact hx ((mem_eraseDups' l _).1 ha)

theorem eraseDups_map {α β : Type} [DecidableEq α] [DecidableEq β] (f : α → β) (hf : Function.Injective f) (l : List α) :
    (l.map f).eraseDups = l.eraseDups.map f := by
  induction l using List.reverseRecOn with
  | nil => simp
  | append_singleton l x ih =>
    rw [List.map_append, List.map_singleton, eraseDups_snoc, eraseDups_snoc, ih]
    have : f x ∈ l.map f ↔ x ∈ l := by simp [hf.eq_iff]
    by_cases hx : x ∈ l
    · rw [if_pos (this.2 hx), if_pos hx]
    · rw [if_neg (mt this.1 hx), if_neg hx, List.map_append, List.map_singleton]

theorem increment_map (ks : List Str) (hks : ks.Nodup) (f : Str → Nat) (k : Str) :
    increment (ks.map fun x => (x, f x)) k
      = if k ∈ ks then ks.map fun x => (x, if x = k then f x + 1 else f x)
        else (ks.map fun x => (x, f x)) ++ [(k, 1)] := by
  induction ks with
  | nil => simp [increment]
  | cons a ks ih =>
    rw [List.nodup_cons] at hks
    simp only [List.map_cons, increment]
    by_cases ha : a = k
    · subst ha
      rw [if_pos rfl, if_pos (by simp), if_pos rfl]
      congr 1
      apply List.map_congr_left
      intro x hx
      rw [if_neg]
      rintro rfl
      exact hks.1 hx
    · rw [if_neg ha, ih hks.2]
      by_cases hk : k ∈ ks
      · rw [if_pos hk, if_pos (by simp [hk]), if_neg ha]
      · rw [if_neg hk, if_neg (by simp [hk]; exact fun h => ha h.symm)]
        rfl

theorem frequencies_snoc {α : Type} [DecidableEq α] (l : List α) (k : α) :
    frequencies (l ++ [k])
      = if k ∈ l.eraseDups then l.eraseDups.map fun x => (x, if x = k then l.count x + 1 else l.count x)
        else (frequencies l) ++ [(k, 1)] := by
  unfold frequencies
  rw [eraseDups_snoc]
  simp only [mem_eraseDups']
  by_cases hk : k ∈ l
  · rw [if_pos hk, if_pos hk]
    apply List.map_congr_left
    intro x _
    rw [List.count_append]
    by_cases hx : x = k
    · subst hx; simp
    · rw [if_neg hx]
      simp [List.count_singleton, Ne.symm hx]
  · rw [if_neg hk, if_neg hk, List.map_append, List.map_singleton, List.count_append]
    have h0 : l.count k = 0 := List.count_eq_zero.2 hk
    rw [h0, List.count_singleton_self]
    congr 1
    apply List.map_congr_left
    intro x hx
    rw [List.count_append]
    have hne : x ≠ k := by rintro rfl; exact hk ((mem_eraseDups' l _).1 hx)
    simp [List.count_singleton, Ne.symm hne]

theorem increment_frequencies (l : List Str) (k : Str) : increment (frequencies l) k = frequencies (l ++ [k]) := by
  rw [frequencies_snoc]
  have h := increment_map _ (nodup_eraseDups' l) (fun x => @List.count _ instBEqOfDecidableEq x l) k
  split
  · rename_i hk
    rw [if_pos hk] at h
    exact h
  · rename_i hk
    rw [if_neg hk] at h
    exact h

theorem countStrings_eq (l rows : List (List Nat)) :
    countStrings (frequencies (l.map encode)) rows = frequencies ((l ++ rows).map encode) := by
  induction rows generalizing l with
  | nil => simp [countStrings]
  | cons r rows ih =>
    have : frequencies (l.map encode ++ [join ',' (r.map str)]) = frequencies ((l ++ [r]).map encode) := by
      simp [encode]
    rw [countStrings, increment_frequencies, this, ih]
    simp

theorem frequencies_map {α β : Type} [DecidableEq α] [DecidableEq β] (f : α → β) (hf : Function.Injective f)
    (l : List α) : frequencies (l.map f) = (frequencies l).map fun p => (f p.1, p.2) := by
  unfold frequencies
  rw [eraseDups_map f hf, List.map_map, List.map_map]
  apply List.map_congr_left
  intro x _
  simp only [Function.comp_apply, List.count_map_of_injective l f hf]

theorem parseStrings_ok (vs : List (List Nat × Nat)) (h : ∀ v ∈ vs, v.1 ≠ []) :
    parseStrings (vs.map fun p => (encode p.1, p.2)) = .ok vs := by
  induction vs with
  | nil => rfl
  | cons v vs ih =>
    simp only [List.map_cons, parseStrings]
    rw [ints_split_encode (h v (by simp)), ih (fun x hx => h x (List.mem_cons_of_mem _ hx))]

theorem parseStrings_error (vs : List (List Nat × Nat)) (h : ∃ v ∈ vs, v.1 = []) :
    parseStrings (vs.map fun p => (encode p.1, p.2)) = .error .valueError := by
  induction vs with
  | nil => simp at h
  | cons v vs ih =>
    simp only [List.map_cons, parseStrings]
    by_cases hv : v.1 = []
    · rw [hv, ints_split_nil]
    · have : ∃ w ∈ vs, w.1 = [] := by
        obtain ⟨w, hw, hw'⟩ := h
        rcases List.mem_cons.1 hw with rfl | hw
        · exact absurd hw' hv
        · exact ⟨w, hw, hw'⟩
      rw [ints_split_encode hv, ih this]

/-! ## Dense label vectors -/

theorem setRelevant_length (is v : List Nat) : (setRelevant v is).length = v.length := by
  induction is generalizing v with
  | nil => rfl
  | cons i is ih => rw [setRelevant, ih, List.length_set]

theorem setRelevant_get (is v : List Nat) (j : Nat) (hj : j < v.length) :
    (setRelevant v is)[j]? = some (if j ∈ is then 1 else v[j]) := by
  induction is generalizing v with
  | nil => simp [setRelevant, hj]
  | cons i is ih =>
    rw [setRelevant, ih _ (by rwa [List.length_set])]
    congr 1
    rw [List.getElem_set]
    by_cases h1 : j ∈ is
    · simp [h1]
    · by_cases h2 : i = j
      · subst h2; simp [h1]
      · simp [h1, h2, Ne.symm h2]

/-! ## Sorting -/

theorem countChanges_eq {α : Type} [DecidableEq α] (l : List α) (r : α → α → Prop) (hr : ∀ a b, r a b → r b a → a = b)
    (ht : ∀ a, r a a) (hl : l.Pairwise r) : countChanges l = l.eraseDups.length := by
  induction l with
  | nil => simp [countChanges]
  | cons a l ih =>
    rw [List.pairwise_cons] at hl
    cases l with
    | nil => simp [countChanges, List.eraseDups_cons]
    | cons b l =>
      simp only [countChanges]
      rw [ih hl.2]
      by_cases hab : a = b
      · subst hab
        rw [List.eraseDups_cons, List.eraseDups_cons]
        simp
      · rw [if_pos hab]
        have hna : a ∉ b :: l := by
          intro hm
          rcases List.mem_cons.1 hm with h | h
          · exact hab h
          · exact hab (hr _ _ (hl.1 b (by simp)) ((List.pairwise_cons.1 hl.2).1 a h))
        rw [List.eraseDups_cons (a := a)]
        have : (b :: l).filter (fun x => !x == a) = b :: l := by
          rw [List.filter_eq_self]
          intro x hx
          simp
          rintro rfl
          exact hna hx
        rw [this, List.length_cons]
        omega

theorem eraseDups_length_perm {α : Type} [DecidableEq α] {l m : List α} (h : l.Perm m) :
    l.eraseDups.length = m.eraseDups.length := by
  apply List.Perm.length_eq
  rw [List.perm_ext_iff_of_nodup (nodup_eraseDups' l) (nodup_eraseDups' m)]
  intro a
  rw [mem_eraseDups', mem_eraseDups', h.mem_iff]

end MLRL.LabelCharacteristics
