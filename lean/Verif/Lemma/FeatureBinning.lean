import Verif.Spec.FeatureBinning

/-!
# Lemmas about equal-frequency binning
-/

set_option linter.unusedSectionVars false

namespace MLRL.FeatureBinning

open Spec

/-! ### Ghost state -/

/-- An element that has been processed, the bin it has been assigned to and whether its index is stored. Sparse values are represented by an element that is
not real. -/
structure Ghost where
  entry : Entry
  bin : Nat
  stored : Bool
  real : Bool

def storedOf (G : List Ghost) : List Nat := (G.filter (·.stored)).map (·.entry.index)

def realOf (G : List Ghost) : List Entry := (G.filter (·.real)).map (·.entry)

def before (G : List Ghost) (k : Nat) : Nat := (G.filter (fun g => g.stored && decide (g.bin < k))).length

structure FInv (vals : ℚ → Prop) (numBins p n extra sp : Nat) (G : List Ghost) (s : FreqState) : Prop where
  lenT : s.thresholds.length = numBins - 1
  lenI : s.indices.length = n
  lenP : s.indptr.length = numBins + 1
  idx : s.indices.take s.numIndices = (storedOf G).map some
  num : s.numIndices = (storedOf G).length
  ptr : ∀ (k : Nat), k ≤ s.binIndex → s.indptr[k]? = some (some (before G k))
  mono : G.Pairwise (fun a b => a.bin ≤ b.bin)
  le : ∀ g ∈ G, g.bin ≤ s.binIndex
  sep : ∀ (k : Nat), k < s.binIndex → ∃ t, s.thresholds[k]? = some (some t) ∧ (∀ g ∈ G, g.entry.value ≤ t ↔ g.bin ≤ k) ∧ t < s.previousValue
  upper : ∀ g ∈ G, g.entry.value ≤ s.previousValue
  fresh : G = [] → s.binIndex = 0 ∧ s.numElementsInCurrentBin = 0
  count : s.binIndex * p + min s.numElementsInCurrentBin p ≤ (realOf G).length + extra
  special : ∀ g ∈ G, g.stored = true ∧ g.real = true ∨ g.stored = false ∧ g.bin = sp
  prevIn : vals s.previousValue

variable {vals : ℚ → Prop} {numBins p n extra sp : Nat} {G : List Ghost} {s : FreqState} {isEqual : ℚ → ℚ → Bool}

theorem storedOf_length_le (h : ∀ g ∈ G, g.stored = true ∧ g.real = true ∨ g.stored = false ∧ g.bin = sp) : (storedOf G).length ≤ (realOf G).length := by
  unfold storedOf realOf
  rw [List.length_map, List.length_map]
  induction G with
  | nil => simp
  | cons g G ih =>
    have := ih (fun x hx => h x (by simp [hx]))
    rcases h g (by simp) with ⟨h1, h2⟩ | ⟨h1, _⟩
    · simp [h1, h2]; exact this
    · cases h2 : g.real <;> simp [h1, h2] <;> omega

theorem before_all {k : Nat} (h : ∀ g ∈ G, g.bin < k) : before G k = (storedOf G).length := by
  unfold before storedOf
  rw [List.length_map]
  congr 1
  apply List.filter_congr
  intro g hg
  simp [h g hg]

/-- The current bin ends (before a value that is greater than all of the previous ones). -/
theorem closeBin_spec (h : FInv vals numBins p n extra sp G s) {x : ℚ} (hlt : s.previousValue < x) (hp : p ≤ s.numElementsInCurrentBin)
    (hb : s.binIndex + 1 < numBins) (m : Nat) (hx : vals x) (extra' : Nat) (hcount : (s.binIndex + 1) * p + min m p ≤ (realOf G).length + extra') (hne : G ≠ []) :
    ∃ s', closeBin s x = .ok s' ∧ s'.binIndex = s.binIndex + 1 ∧ s'.numElementsInCurrentBin = 0 ∧ s'.numIndices = s.numIndices ∧
      FInv vals numBins p n extra' sp G { s' with numElementsInCurrentBin := m, previousValue := x } := by
  unfold closeBin
  rw [writeAt_of_lt (by rw [h.lenT]; omega), ok_bind, writeAt_of_lt (by rw [h.lenP]; omega), ok_bind]
  refine ⟨_, rfl, rfl, rfl, rfl, ?_⟩
  have hmean : s.previousValue < arithmeticMean s.previousValue x ∧ arithmeticMean s.previousValue x < x := by
    unfold arithmeticMean
    constructor <;> linarith
  constructor
  · show (s.thresholds.set _ _).length = _
    rw [List.length_set]; exact h.lenT
  · exact h.lenI
  · show (s.indptr.set _ _).length = _
    rw [List.length_set]; exact h.lenP
  · exact h.idx
  · exact h.num
  · intro k hk
    show (s.indptr.set _ _)[k]? = _
    have hk' : k ≤ s.binIndex + 1 := hk
    rw [List.getElem?_set]
    by_cases hke : s.binIndex + 1 = k
    · subst hke
      rw [if_pos rfl, if_pos (by rw [h.lenP]; omega), before_all (fun g hg => Nat.lt_succ_of_le (h.le g hg)), h.num]
    · rw [if_neg hke]
      exact h.ptr k (by omega)
  · exact h.mono
  · intro g hg
    show g.bin ≤ s.binIndex + 1
    exact Nat.le_succ_of_le (h.le g hg)
  · intro k hk
    have hk' : k < s.binIndex + 1 := hk
    show ∃ t, (s.thresholds.set _ _)[k]? = _ ∧ _ ∧ t < x
    rw [List.getElem?_set]
    by_cases hke : s.binIndex = k
    · subst hke
      rw [if_pos rfl, if_pos (by rw [h.lenT]; omega)]
      refine ⟨_, rfl, ?_, hmean.2⟩
      intro g hg
      exact ⟨fun _ => h.le g hg, fun _ => le_of_lt (lt_of_le_of_lt (h.upper g hg) hmean.1)⟩
    · rw [if_neg hke]
      obtain ⟨t, h1, h2, h3⟩ := h.sep k (by omega)
      exact ⟨t, h1, h2, lt_trans h3 hlt⟩
  · intro g hg
    exact le_trans (h.upper g hg) (le_of_lt hlt)
  · intro hG
    exact absurd hG hne
  · exact hcount
  · exact h.special
  · exact hx

theorem closeBin_fault (h : FInv vals numBins p n extra sp G s) {x : ℚ} (hb : numBins ≤ s.binIndex + 1) : closeBin s x = .error .outOfBounds := by
  unfold closeBin
  rw [writeAt_of_le (by rw [h.lenT]; omega), error_bind]

/-- Only the value is updated. -/
theorem FInv.setValue (h : FInv vals numBins p n extra sp G s) {x : ℚ} (hle : G ≠ [] → s.previousValue ≤ x) (hx : vals x) :
    FInv vals numBins p n extra sp G { s with previousValue := x } := by
  refine ⟨h.lenT, h.lenI, h.lenP, h.idx, h.num, h.ptr, h.mono, h.le, ?_, ?_, h.fresh, h.count, h.special, hx⟩
  · intro k hk
    obtain ⟨t, h1, h2, h3⟩ := h.sep k hk
    refine ⟨t, h1, h2, lt_of_lt_of_le h3 (hle ?_)⟩
    intro hG
    have := (h.fresh hG).1
    have hk' : k < s.binIndex := hk
    omega
  · intro g hg
    exact le_trans (h.upper g hg) (hle (List.ne_nil_of_mem hg))

theorem nextValue_spec (hexact : ∀ x y, vals x → vals y → (isEqual x y = true ↔ x = y)) (hp1 : 1 ≤ p) (h : FInv vals numBins p n extra sp G s) {x : ℚ}
    (hx : vals x) (hle : G ≠ [] → s.previousValue ≤ x) :
    (∃ s', nextValue isEqual p s x = .ok s' ∧ FInv vals numBins p n extra sp G s' ∧ s'.previousValue = x ∧ s'.numIndices = s.numIndices ∧
      (s'.binIndex = s.binIndex ∧ s'.numElementsInCurrentBin = s.numElementsInCurrentBin ∨
        s'.binIndex = s.binIndex + 1 ∧ s'.numElementsInCurrentBin = 0)) ∨
      nextValue isEqual p s x = .error .outOfBounds ∧ numBins ≤ s.binIndex + 1 ∧ p ≤ s.numElementsInCurrentBin := by
  unfold nextValue
  by_cases heq : isEqual x s.previousValue = true
  · have hxe := (hexact x _ hx h.prevIn).mp heq
    rw [heq, if_neg (by simp)]
    exact Or.inl ⟨s, rfl, h, hxe.symm, rfl, Or.inl ⟨rfl, rfl⟩⟩
  · have hne : x ≠ s.previousValue := fun hxe => heq ((hexact x _ hx h.prevIn).mpr hxe)
    rw [if_pos (by simp [heq])]
    by_cases hc : s.numElementsInCurrentBin ≥ p
    · rw [if_pos hc]
      have hG : G ≠ [] := by
        intro hG
        have := (h.fresh hG).2
        omega
      have hlt : s.previousValue < x := lt_of_le_of_ne (hle hG) (Ne.symm hne)
      by_cases hb : s.binIndex + 1 < numBins
      · have hcount := h.count
        rw [Nat.min_eq_right hc] at hcount
        obtain ⟨s', h1, h2, h3, h4, h5⟩ := closeBin_spec h hlt hc hb 0 hx extra (by
          rw [Nat.zero_min, Nat.add_mul]; omega) hG
        rw [h1]
        refine Or.inl ⟨_, rfl, ?_, rfl, h4, Or.inr ⟨h2, h3⟩⟩
        have : ({ s' with numElementsInCurrentBin := 0, previousValue := x } : FreqState) = { s' with previousValue := x } := by
          rw [← h3]
        rw [← this]
        exact h5
      · rw [closeBin_fault h (by omega)]
        exact Or.inr ⟨rfl, by omega, hc⟩
    · rw [if_neg hc]
      exact Or.inl ⟨_, rfl, h.setValue hle hx, rfl, rfl, Or.inl ⟨rfl, rfl⟩⟩

theorem storedOf_append (A B : List Ghost) : storedOf (A ++ B) = storedOf A ++ storedOf B := by simp [storedOf]

theorem realOf_append (A B : List Ghost) : realOf (A ++ B) = realOf A ++ realOf B := by simp [realOf]

theorem before_append (A B : List Ghost) (k : Nat) : before (A ++ B) k = before A k + before B k := by simp [before]

theorem pairwise_concat {A : List Ghost} {g : Ghost} (h : A.Pairwise (fun a b => a.bin ≤ b.bin)) (hg : ∀ a ∈ A, a.bin ≤ g.bin) :
    (A ++ [g]).Pairwise (fun a b => a.bin ≤ b.bin) := by
  rw [List.pairwise_append]
  refine ⟨h, by simp, ?_⟩
  intro a ha b hb
  simp only [List.mem_singleton] at hb
  subst hb
  exact hg a ha

theorem addEntry_spec (h : FInv vals numBins p n extra sp G s) {e : Entry} (he : e.value = s.previousValue) (hn : (realOf G).length < n) :
    ∃ s', addEntry s e = .ok s' ∧ FInv vals numBins p n extra sp (G ++ [⟨e, s.binIndex, true, true⟩]) s' ∧ s'.binIndex = s.binIndex ∧
      s'.numElementsInCurrentBin = s.numElementsInCurrentBin + 1 ∧ s'.previousValue = s.previousValue := by
  unfold addEntry
  have hlt : s.numIndices < n := by
    have := storedOf_length_le h.special
    rw [h.num]; omega
  rw [writeAt_of_lt (by rw [h.lenI]; exact hlt), ok_bind]
  refine ⟨_, rfl, ?_, rfl, rfl, rfl⟩
  have hst : storedOf (G ++ [⟨e, s.binIndex, true, true⟩]) = storedOf G ++ [e.index] := by rw [storedOf_append]; simp [storedOf]
  have hre : realOf (G ++ [⟨e, s.binIndex, true, true⟩]) = realOf G ++ [e] := by rw [realOf_append]; simp [realOf]
  constructor
  · exact h.lenT
  · show (s.indices.set _ _).length = _
    rw [List.length_set]; exact h.lenI
  · exact h.lenP
  · show (s.indices.set _ _).take (s.numIndices + 1) = _
    rw [hst, List.map_append, ← h.idx]
    rw [List.take_succ_eq_append_getElem (by rw [List.length_set, h.lenI]; exact hlt)]
    rw [List.take_set_of_le (Nat.le_refl _)]
    simp
  · show s.numIndices + 1 = _
    rw [hst, List.length_append, h.num]; rfl
  · intro k hk
    have hk' : k ≤ s.binIndex := hk
    show s.indptr[k]? = _
    rw [h.ptr k hk', before_append]
    have : before [(⟨e, s.binIndex, true, true⟩ : Ghost)] k = 0 := by
      unfold before
      simp; omega
    rw [this, Nat.add_zero]
  · exact pairwise_concat h.mono (fun a ha => h.le a ha)
  · intro g hg
    rcases List.mem_append.mp hg with hg | hg
    · exact h.le g hg
    · simp only [List.mem_singleton] at hg
      subst hg
      exact Nat.le_refl _
  · intro k hk
    obtain ⟨t, h1, h2, h3⟩ := h.sep k hk
    refine ⟨t, h1, ?_, h3⟩
    intro g hg
    rcases List.mem_append.mp hg with hg | hg
    · exact h2 g hg
    · simp only [List.mem_singleton] at hg
      subst hg
      have hk' : k < s.binIndex := hk
      constructor
      · intro hle
        have hle' : e.value ≤ t := hle
        rw [he] at hle'
        linarith
      · intro hle
        have hle' : s.binIndex ≤ k := hle
        omega
  · intro g hg
    rcases List.mem_append.mp hg with hg | hg
    · exact h.upper g hg
    · simp only [List.mem_singleton] at hg
      subst hg
      exact le_of_eq he
  · intro hG
    simp at hG
  · show s.binIndex * p + min (s.numElementsInCurrentBin + 1) p ≤ _
    have := h.count
    rw [hre, List.length_append, List.length_singleton]
    omega
  · intro g hg
    rcases List.mem_append.mp hg with hg | hg
    · exact h.special g hg
    · simp only [List.mem_singleton] at hg
      subst hg
      exact Or.inl ⟨rfl, rfl⟩
  · exact h.prevIn

theorem freqStep_spec (hexact : ∀ x y, vals x → vals y → (isEqual x y = true ↔ x = y)) (hp1 : 1 ≤ p) (h : FInv vals numBins p n extra sp G s) {e : Entry}
    (hx : vals e.value) (hle : G ≠ [] → s.previousValue ≤ e.value) (hn : (realOf G).length < n) :
    (∃ s' b, freqStep isEqual p s e = .ok s' ∧ FInv vals numBins p n extra sp (G ++ [⟨e, b, true, true⟩]) s' ∧ s'.previousValue = e.value ∧ s'.binIndex = b ∧
      (b = s.binIndex ∧ s'.numElementsInCurrentBin = s.numElementsInCurrentBin + 1 ∨ b = s.binIndex + 1 ∧ s'.numElementsInCurrentBin = 1)) ∨
      freqStep isEqual p s e = .error .outOfBounds ∧ numBins ≤ s.binIndex + 1 ∧ p ≤ s.numElementsInCurrentBin := by
  unfold freqStep
  rcases nextValue_spec hexact hp1 h hx hle with ⟨s', h1, h2, h3, _, h5⟩ | ⟨h1, h2, h3⟩
  · left
    obtain ⟨s'', g1, g2, g3, g4, g5⟩ := addEntry_spec h2 h3.symm hn
    rw [h1, ok_bind]
    refine ⟨s'', s'.binIndex, g1, g2, by rw [g5, h3], g3, ?_⟩
    rcases h5 with ⟨h6, h7⟩ | ⟨h6, h7⟩
    · exact Or.inl ⟨h6, by rw [g4, h7]⟩
    · exact Or.inr ⟨h6, by rw [g4, h7]⟩
  · right
    rw [h1, error_bind]
    exact ⟨rfl, h2, h3⟩

/-! ### The first loop -/

/-- Values up to the current position; all of them have been stored. -/
structure Lower (G : List Ghost) (s : FreqState) : Prop where
  all : ∀ g ∈ G, g.stored = true ∧ g.real = true
  split : ∃ A B, G = A ++ B ∧ (∀ a ∈ A, a.bin < s.binIndex) ∧ (∀ b ∈ B, b.bin = s.binIndex) ∧ B.length = s.numElementsInCurrentBin

theorem realOf_all (h : ∀ g ∈ G, g.stored = true ∧ g.real = true) : (realOf G).length = G.length := by
  unfold realOf
  rw [List.length_map, List.filter_eq_self.mpr (fun g hg => (h g hg).2)]

theorem lowerLoop_spec (hexact : ∀ x y, vals x → vals y → (isEqual x y = true ↔ x = y)) (hp1 : 1 ≤ p) (sparseValue : ℚ) (hnp : n ≤ numBins * p)
    (todo : List Entry) : ∀ (G : List Ghost) (s : FreqState), FInv vals numBins p n 0 sp G s → Lower G s →
      (∀ e ∈ todo, vals e.value) → (G ≠ [] → ∀ e ∈ todo, s.previousValue ≤ e.value) → (G ≠ [] → s.previousValue < sparseValue) → (G = [] → s.previousValue = sparseValue) →
      Sorted todo → (realOf G).length + todo.length = n →
      ∃ G' s' done rest, lowerLoop isEqual p sparseValue s todo = .ok (s', rest) ∧ todo = done ++ rest ∧ (∀ e ∈ rest, sparseValue ≤ e.value) ∧
        FInv vals numBins p n 0 sp G' s' ∧ Lower G' s' ∧ realOf G' = realOf G ++ done ∧ (G' ≠ [] → s'.previousValue < sparseValue) ∧
        (G' = [] → s'.previousValue = sparseValue) ∧ s.binIndex ≤ s'.binIndex := by
  induction todo with
  | nil =>
    intro G s h hL _ _ hlt hnil _ _
    exact ⟨G, s, [], [], rfl, rfl, by simp, h, hL, by simp, hlt, hnil, Nat.le_refl _⟩
  | cons e todo ih =>
    intro G s h hL hv hle hlt hnil hs hlen
    unfold Sorted at hs
    rw [List.pairwise_cons] at hs
    simp only [lowerLoop]
    by_cases hc : e.value < sparseValue
    · rw [if_pos hc]
      rcases freqStep_spec hexact hp1 h (hv e (by simp)) (fun hG => hle hG e (by simp)) (by simp only [List.length_cons] at hlen; omega) with
        ⟨s', b, h1, h2, h3, h4, h5⟩ | ⟨_, h2, h3⟩
      · rw [h1]
        have hre : realOf (G ++ [⟨e, b, true, true⟩]) = realOf G ++ [e] := by rw [realOf_append]; simp [realOf]
        obtain ⟨G', s'', done, rest, g1, g2, g3, g4, g5, g6, g7, g8, g9⟩ := ih (G ++ [⟨e, b, true, true⟩]) s' h2 (by
            obtain ⟨A, B, hG, hA, hB, hlB⟩ := hL.split
            constructor
            · intro g hg
              rcases List.mem_append.mp hg with hg | hg
              · exact hL.all g hg
              · simp only [List.mem_singleton] at hg
                subst hg
                exact ⟨rfl, rfl⟩
            · rcases h5 with ⟨h6, h7⟩ | ⟨h6, h7⟩
              · refine ⟨A, B ++ [⟨e, b, true, true⟩], by rw [hG, List.append_assoc], ?_, ?_, ?_⟩
                · intro a ha
                  rw [h4, h6]; exact hA a ha
                · intro g hg
                  rcases List.mem_append.mp hg with hg | hg
                  · rw [hB g hg, h4, h6]
                  · simp only [List.mem_singleton] at hg
                    subst hg
                    exact h4.symm
                · rw [List.length_append, List.length_singleton, hlB, h7]
              · refine ⟨G, [⟨e, b, true, true⟩], rfl, ?_, ?_, ?_⟩
                · intro a ha
                  rw [h4, h6]
                  exact Nat.lt_succ_of_le (h.le a ha)
                · intro g hg
                  simp only [List.mem_singleton] at hg
                  subst hg
                  exact h4.symm
                · rw [List.length_singleton, h7])
          (fun x hx => hv x (by simp [hx])) (fun _ x hx => by rw [h3]; exact hs.1 x hx) (fun _ => by rw [h3]; exact hc) (by simp) hs.2
          (by rw [hre, List.length_append, List.length_singleton]; simp only [List.length_cons] at hlen; omega)
        refine ⟨G', s'', e :: done, rest, g1, by rw [g2]; rfl, g3, g4, g5, by rw [g6, hre]; simp, g7, g8, ?_⟩
        rcases h5 with ⟨h6, _⟩ | ⟨h6, _⟩ <;> omega
      · exfalso
        have hcount := h.count
        rw [Nat.min_eq_right h3, Nat.add_zero] at hcount
        have hlt' : (realOf G).length < n := by simp only [List.length_cons] at hlen; omega
        have : numBins * p ≤ (s.binIndex + 1) * p := Nat.mul_le_mul_right p h2
        rw [Nat.add_mul] at this
        omega
    · rw [if_neg hc]
      refine ⟨G, s, [], e :: todo, rfl, rfl, ?_, h, hL, by simp, hlt, hnil, Nat.le_refl _⟩
      intro x hx
      simp only [List.mem_cons] at hx
      rcases hx with rfl | hx
      · exact le_of_not_gt hc
      · exact le_trans (le_of_not_gt hc) (hs.1 x hx)

/-! ### Sparse values -/

theorem FInv.addUnstored {extra' : Nat} (h : FInv vals numBins p n extra sp G s) {e : Entry} {r : Bool} (he : e.value = s.previousValue) {m : Nat} (hsp : s.binIndex = sp)
    (hcount : s.binIndex * p + min m p ≤ (realOf (G ++ [⟨e, s.binIndex, false, r⟩])).length + extra') :
    FInv vals numBins p n extra' sp (G ++ [⟨e, s.binIndex, false, r⟩]) { s with numElementsInCurrentBin := m } := by
  have hst : storedOf (G ++ [⟨e, s.binIndex, false, r⟩]) = storedOf G := by rw [storedOf_append]; simp [storedOf]
  refine ⟨h.lenT, h.lenI, h.lenP, by rw [hst]; exact h.idx, by rw [hst]; exact h.num, ?_, ?_, ?_, ?_, ?_, ?_, hcount, ?_, h.prevIn⟩
  · intro k hk
    rw [before_append]
    have : before [(⟨e, s.binIndex, false, r⟩ : Ghost)] k = 0 := by simp [before]
    rw [this, Nat.add_zero]
    exact h.ptr k hk
  · exact pairwise_concat h.mono (fun a ha => h.le a ha)
  · intro g hg
    rcases List.mem_append.mp hg with hg | hg
    · exact h.le g hg
    · simp only [List.mem_singleton] at hg
      subst hg
      exact Nat.le_refl _
  · intro k hk
    obtain ⟨t, h1, h2, h3⟩ := h.sep k hk
    refine ⟨t, h1, ?_, h3⟩
    intro g hg
    rcases List.mem_append.mp hg with hg | hg
    · exact h2 g hg
    · simp only [List.mem_singleton] at hg
      subst hg
      have hk' : k < s.binIndex := hk
      constructor
      · intro hle
        have hle' : e.value ≤ t := hle
        rw [he] at hle'
        linarith
      · intro hle
        have hle' : s.binIndex ≤ k := hle
        omega
  · intro g hg
    rcases List.mem_append.mp hg with hg | hg
    · exact h.upper g hg
    · simp only [List.mem_singleton] at hg
      subst hg
      exact le_of_eq he
  · intro hG
    simp at hG
  · intro g hg
    rcases List.mem_append.mp hg with hg | hg
    · exact h.special g hg
    · simp only [List.mem_singleton] at hg
      subst hg
      exact Or.inr ⟨rfl, hsp⟩

theorem FInv.changeSp (h : FInv vals numBins p n extra sp G s) (hall : ∀ g ∈ G, g.stored = true ∧ g.real = true) (sp' : Nat) :
    FInv vals numBins p n extra sp' G s :=
  ⟨h.lenT, h.lenI, h.lenP, h.idx, h.num, h.ptr, h.mono, h.le, h.sep, h.upper, h.fresh, h.count, fun g hg => Or.inl (hall g hg), h.prevIn⟩

def unstore (g : Ghost) : Ghost := ⟨g.entry, g.bin, false, g.real⟩

theorem realOf_unstore (B : List Ghost) : realOf (B.map unstore) = realOf B := by
  unfold realOf
  induction B with
  | nil => rfl
  | cons g B ih =>
    simp only [List.map_cons]
    cases hr : g.real <;> simp [unstore, hr] at ih ⊢ <;> exact ih

theorem storedOf_unstore (B : List Ghost) : storedOf (B.map unstore) = [] := by
  simp [storedOf, List.filter_map, unstore, Function.comp_def]

theorem before_unstore (B : List Ghost) (k : Nat) : before (B.map unstore) k = 0 := by
  simp [before, List.filter_map, unstore, Function.comp_def]

/-- Elements in the current bin are not stored anymore. -/
theorem FInv.drop (h : FInv vals numBins p n extra sp G s) (hL : Lower G s) : ∃ G', FInv vals numBins p n extra s.binIndex G' { s with numIndices := s.numIndices - s.numElementsInCurrentBin } ∧ realOf G' = realOf G := by
  obtain ⟨A, B, rfl, hA, hB, hl⟩ := hL.split
  refine ⟨A ++ B.map unstore, ?_, by rw [realOf_append, realOf_unstore, realOf_append]⟩
  have hst : storedOf (A ++ B.map unstore) = storedOf A := by rw [storedOf_append, storedOf_unstore, List.append_nil]
  have hstB : (storedOf B).length = B.length := by
    unfold storedOf
    rw [List.length_map, List.filter_eq_self.mpr (fun g hg => (hL.all g (by simp [hg])).1)]
  have hnum := h.num
  rw [storedOf_append, List.length_append, hstB, hl] at hnum
  have hmem : ∀ g ∈ A ++ B.map unstore, ∃ g' ∈ A ++ B, g.entry = g'.entry ∧ g.bin = g'.bin ∧ g.real = g'.real := by
    intro g hg
    rcases List.mem_append.mp hg with hg | hg
    · exact ⟨g, by simp [hg], rfl, rfl, rfl⟩
    · obtain ⟨g', hg', rfl⟩ := List.mem_map.mp hg
      exact ⟨g', by simp [hg'], rfl, rfl, rfl⟩
  refine ⟨h.lenT, h.lenI, h.lenP, ?_, ?_, ?_, ?_, ?_, ?_, ?_, ?_, ?_, ?_, h.prevIn⟩
  · show s.indices.take (s.numIndices - s.numElementsInCurrentBin) = _
    have hidx := h.idx
    rw [storedOf_append, List.map_append] at hidx
    rw [hst, hnum, Nat.add_sub_cancel]
    have hlen : ((storedOf A).map some).length = (storedOf A).length := List.length_map ..
    have htake := congrArg (List.take (storedOf A).length) hidx
    rw [List.take_take, Nat.min_eq_left (by omega), List.take_append_of_le_length (Nat.le_of_eq hlen.symm), List.take_of_length_le (l := (storedOf A).map some) (Nat.le_of_eq hlen)] at htake
    exact htake
  · show s.numIndices - s.numElementsInCurrentBin = _
    rw [hst]; omega
  · intro k hk
    have hk' : k ≤ s.binIndex := hk
    have := h.ptr k hk
    rw [before_append] at this
    have hb0 : before B k = 0 := by
      unfold before
      rw [List.length_eq_zero_iff, List.filter_eq_nil_iff]
      intro g hg
      have := hB g hg
      simp; omega
    rw [before_append, before_unstore, Nat.add_zero]
    rw [hb0, Nat.add_zero] at this
    exact this
  · have hm := h.mono
    rw [List.pairwise_append] at hm ⊢
    refine ⟨hm.1, ?_, ?_⟩
    · rw [List.pairwise_map]
      exact hm.2.1
    · intro a ha b hb
      obtain ⟨g', hg', rfl⟩ := List.mem_map.mp hb
      exact hm.2.2 a ha g' hg'
  · intro g hg
    obtain ⟨g', hg', _, h2, _⟩ := hmem g hg
    rw [h2]
    exact h.le g' hg'
  · intro k hk
    obtain ⟨t, h1, h2, h3⟩ := h.sep k hk
    refine ⟨t, h1, ?_, h3⟩
    intro g hg
    obtain ⟨g', hg', h4, h5, _⟩ := hmem g hg
    rw [h4, h5]
    exact h2 g' hg'
  · intro g hg
    obtain ⟨g', hg', h4, _, _⟩ := hmem g hg
    rw [h4]
    exact h.upper g' hg'
  · intro hG
    rw [List.append_eq_nil_iff, List.map_eq_nil_iff] at hG
    exact h.fresh (by rw [hG.1, hG.2]; rfl)
  · have hc := h.count
    rw [realOf_append, realOf_unstore, ← realOf_append]
    exact hc
  · intro g hg
    rcases List.mem_append.mp hg with hg | hg
    · exact Or.inl (hL.all g (by simp [hg]))
    · obtain ⟨g', hg', rfl⟩ := List.mem_map.mp hg
      exact Or.inr ⟨rfl, hB g' hg'⟩

theorem sparseBin_spec (hp1 : 1 ≤ p) (h : FInv vals numBins p n 0 sp G s) (hL : Lower G s) {sparseValue : ℚ} (hlt : G ≠ [] → s.previousValue < sparseValue)
    (hnil : G = [] → s.previousValue = sparseValue) (hv : vals sparseValue) (numSparseValues : Nat) :
    (∃ G' s', sparseBin p numSparseValues sparseValue s = .ok s' ∧ FInv vals numBins p n p s'.binIndex G' s' ∧ realOf G' = realOf G ∧
      s'.previousValue = sparseValue ∧ (⟨⟨0, sparseValue⟩, s'.binIndex, false, false⟩ : Ghost) ∈ G') ∨
      sparseBin p numSparseValues sparseValue s = .error .outOfBounds ∧ numBins ≤ s.binIndex + 1 ∧ p ≤ s.numElementsInCurrentBin := by
  unfold sparseBin
  have hre : ∀ (G' : List Ghost) (b : Nat), realOf (G' ++ [⟨⟨0, sparseValue⟩, b, false, false⟩]) = realOf G' := by
    intro G' b
    rw [realOf_append]
    simp [realOf]
  have hle : G ≠ [] → s.previousValue ≤ sparseValue := fun hG => le_of_lt (hlt hG)
  by_cases hc : s.numElementsInCurrentBin ≥ p
  · rw [if_pos hc]
    have hG : G ≠ [] := by
      intro hG
      have := (h.fresh hG).2
      omega
    by_cases hb : s.binIndex + 1 < numBins
    · have hcount := h.count
      rw [Nat.min_eq_right hc] at hcount
      obtain ⟨s', h1, h2, h3, h4, h5⟩ := closeBin_spec h (hlt hG) hc hb numSparseValues hv p (by
        rw [Nat.add_mul]; omega) hG
      rw [h1]
      refine Or.inl ⟨G ++ [⟨⟨0, sparseValue⟩, s'.binIndex, false, false⟩], _, rfl, ?_, hre _ _, rfl, by simp⟩
      have h6 := (h5.changeSp hL.all s'.binIndex).addUnstored (e := ⟨0, sparseValue⟩) (r := false) (m := numSparseValues) (extra' := p) rfl rfl (by
        rw [hre]
        exact h5.count)
      exact h6
    · rw [closeBin_fault h (by omega)]
      exact Or.inr ⟨rfl, by omega, hc⟩
  · rw [if_neg hc]
    left
    obtain ⟨G', h1, h2⟩ := h.drop hL
    have hne : G' ≠ [] → s.previousValue ≤ sparseValue := by
      intro _
      by_cases hG : G = []
      · exact le_of_eq (hnil hG)
      · exact hle hG
    have h3 := h1.setValue (x := sparseValue) hne hv
    have h4 := h3.addUnstored (e := ⟨0, sparseValue⟩) (r := false) (m := s.numElementsInCurrentBin + numSparseValues) (extra' := p) rfl rfl (by
      rw [hre, h2]
      have := h.count
      show s.binIndex * p + min (s.numElementsInCurrentBin + numSparseValues) p ≤ _
      omega)
    exact ⟨_, _, rfl, h4, by rw [hre, h2], rfl, by simp⟩

theorem skipLoop_spec (hexact : ∀ x y, vals x → vals y → (isEqual x y = true ↔ x = y)) (todo : List Entry) : ∀ (G : List Ghost) (s : FreqState),
    FInv vals numBins p n extra s.binIndex G s → (∀ e ∈ todo, vals e.value) →
      ∃ G' s' done rest, skipLoop isEqual s todo = (s', rest) ∧ todo = done ++ rest ∧ FInv vals numBins p n extra s'.binIndex G' s' ∧
        realOf G' = realOf G ++ done ∧ s'.previousValue = s.previousValue ∧ s'.binIndex = s.binIndex ∧ (∀ g ∈ G, g ∈ G') := by
  induction todo with
  | nil =>
    intro G s h _
    exact ⟨G, s, [], [], rfl, rfl, h, by simp, rfl, rfl, fun g hg => hg⟩
  | cons e todo ih =>
    intro G s h hv
    simp only [skipLoop]
    by_cases heq : isEqual e.value s.previousValue = true
    · rw [if_neg (by simp [heq])]
      have hxe := (hexact _ _ (hv e (by simp)) h.prevIn).mp heq
      have hre : realOf (G ++ [⟨e, s.binIndex, false, true⟩]) = realOf G ++ [e] := by rw [realOf_append]; simp [realOf]
      have h1 := h.addUnstored (r := true) (m := s.numElementsInCurrentBin + 1) (extra' := extra) hxe rfl (by
        rw [hre, List.length_append, List.length_singleton]
        have := h.count
        omega)
      obtain ⟨G', s', done, rest, g1, g2, g3, g4, g5, g6, g7⟩ := ih _ { s with numElementsInCurrentBin := s.numElementsInCurrentBin + 1 } h1 (fun x hx => hv x (by simp [hx]))
      exact ⟨G', s', e :: done, rest, g1, by rw [g2]; rfl, g3, by rw [g4, hre]; simp, g5, g6, fun g hg => g7 g (by simp [hg])⟩
    · rw [if_pos (by simp [heq])]
      exact ⟨G, s, [], e :: todo, rfl, rfl, h, by simp, rfl, rfl, fun g hg => hg⟩

/-! ### The last loop -/

theorem upperLoop_spec (hexact : ∀ x y, vals x → vals y → (isEqual x y = true ↔ x = y)) (hp1 : 1 ≤ p) (todo : List Entry) : ∀ (G : List Ghost) (s : FreqState),
    FInv vals numBins p n extra sp G s → (∀ e ∈ todo, vals e.value) → (G ≠ [] → ∀ e ∈ todo, s.previousValue ≤ e.value) → Sorted todo →
      (realOf G).length + todo.length = n →
      (∃ G' s', upperLoop isEqual p s todo = .ok s' ∧ FInv vals numBins p n extra sp G' s' ∧ realOf G' = realOf G ++ todo ∧ (∀ g ∈ G, g ∈ G') ∧
        s.binIndex ≤ s'.binIndex) ∨ upperLoop isEqual p s todo = .error .outOfBounds ∧ numBins * p < n + extra := by
  induction todo with
  | nil =>
    intro G s h _ _ _ _
    exact Or.inl ⟨G, s, rfl, h, by simp, fun g hg => hg, Nat.le_refl _⟩
  | cons e todo ih =>
    intro G s h hv hle hs hlen
    unfold Sorted at hs
    rw [List.pairwise_cons] at hs
    simp only [upperLoop]
    rcases freqStep_spec hexact hp1 h (hv e (by simp)) (fun hG => hle hG e (by simp)) (by simp only [List.length_cons] at hlen; omega) with
      ⟨s', b, h1, h2, h3, h4, h5⟩ | ⟨h1, h2, h3⟩
    · rw [h1]
      have hre : realOf (G ++ [⟨e, b, true, true⟩]) = realOf G ++ [e] := by rw [realOf_append]; simp [realOf]
      rcases ih (G ++ [⟨e, b, true, true⟩]) s' h2 (fun x hx => hv x (by simp [hx])) (fun _ x hx => by rw [h3]; exact hs.1 x hx) hs.2
          (by rw [hre, List.length_append, List.length_singleton]; simp only [List.length_cons] at hlen; omega) with
        ⟨G', s'', g1, g2, g3, g4, g5⟩ | ⟨g1, g2⟩
      · refine Or.inl ⟨G', s'', g1, g2, by rw [g3, hre]; simp, fun g hg => g4 g (by simp [hg]), ?_⟩
        rcases h5 with ⟨h6, _⟩ | ⟨h6, _⟩ <;> omega
      · exact Or.inr ⟨g1, g2⟩
    · rw [h1]
      refine Or.inr ⟨rfl, ?_⟩
      have hcount := h.count
      rw [Nat.min_eq_right h3] at hcount
      have hlt' : (realOf G).length < n := by simp only [List.length_cons] at hlen; omega
      have : numBins * p ≤ (s.binIndex + 1) * p := Nat.mul_le_mul_right p h2
      rw [Nat.add_mul] at this
      omega

/-! ### The result -/

theorem sorted_split (h : G.Pairwise (fun a b => a.bin ≤ b.bin)) (b : Nat) :
    G = G.filter (fun g => decide (g.bin < b)) ++ G.filter (fun g => decide (g.bin = b)) ++ G.filter (fun g => decide (b < g.bin)) := by
  induction G with
  | nil => rfl
  | cons g G ih =>
    rw [List.pairwise_cons] at h
    have hi := ih h.2
    rcases Nat.lt_trichotomy g.bin b with hb | hb | hb
    · have h1 : decide (g.bin < b) = true := by simp [hb]
      have h2 : decide (g.bin = b) = false := by simp; omega
      have h3 : decide (b < g.bin) = false := by simp; omega
      simp only [List.filter_cons, h1, h2, h3, if_true, Bool.false_eq_true, if_false, List.cons_append]
      exact congrArg _ hi
    · have h1 : decide (g.bin < b) = false := by simp; omega
      have h2 : decide (g.bin = b) = true := by simp [hb]
      have h3 : decide (b < g.bin) = false := by simp; omega
      have h4 : G.filter (fun g => decide (g.bin < b)) = [] := by
        rw [List.filter_eq_nil_iff]
        intro x hx
        have := h.1 x hx
        simp; omega
      rw [h4] at hi
      simp only [List.filter_cons, h1, h2, h3, if_true, Bool.false_eq_true, if_false, h4, List.nil_append, List.cons_append] at hi ⊢
      exact congrArg _ hi
    · have h1 : decide (g.bin < b) = false := by simp; omega
      have h2 : decide (g.bin = b) = false := by simp; omega
      have h3 : decide (b < g.bin) = true := by simp [hb]
      have h4 : G.filter (fun g => decide (g.bin < b)) = [] := by
        rw [List.filter_eq_nil_iff]
        intro x hx
        have := h.1 x hx
        simp; omega
      have h5 : G.filter (fun g => decide (g.bin = b)) = [] := by
        rw [List.filter_eq_nil_iff]
        intro x hx
        have := h.1 x hx
        simp; omega
      rw [h4, h5] at hi
      simp only [List.filter_cons, h1, h2, h3, if_true, Bool.false_eq_true, if_false, h4, h5, List.nil_append] at hi ⊢
      exact congrArg _ hi

theorem before_eq (G : List Ghost) (k : Nat) : before G k = (storedOf (G.filter (fun g => decide (g.bin < k)))).length := by
  unfold before storedOf
  rw [List.length_map, List.filter_filter]

theorem storedOf_split (h : G.Pairwise (fun a b => a.bin ≤ b.bin)) (b : Nat) :
    before G (b + 1) = before G b + (storedOf (G.filter (fun g => decide (g.bin = b)))).length ∧
      ((storedOf G).drop (before G b)).take (before G (b + 1) - before G b) = storedOf (G.filter (fun g => decide (g.bin = b))) := by
  have hs := congrArg storedOf (sorted_split h b)
  rw [storedOf_append, storedOf_append] at hs
  have hb1 : before G (b + 1) = before G b + (storedOf (G.filter (fun g => decide (g.bin = b)))).length := by
    rw [before_eq, before_eq]
    have hs' := sorted_split (List.Pairwise.filter (fun g => decide (g.bin < b + 1)) h) b
    have h1 : (G.filter (fun g => decide (g.bin < b + 1))).filter (fun g => decide (g.bin < b)) = G.filter (fun g => decide (g.bin < b)) := by
      rw [List.filter_filter]
      apply List.filter_congr
      intro g _
      rw [Bool.eq_iff_iff]
      simp; omega
    have h2 : (G.filter (fun g => decide (g.bin < b + 1))).filter (fun g => decide (g.bin = b)) = G.filter (fun g => decide (g.bin = b)) := by
      rw [List.filter_filter]
      apply List.filter_congr
      intro g _
      rw [Bool.eq_iff_iff]
      simp; omega
    have h3 : (G.filter (fun g => decide (g.bin < b + 1))).filter (fun g => decide (b < g.bin)) = [] := by
      rw [List.filter_eq_nil_iff]
      intro g hg
      have := (List.mem_filter.mp hg).2
      simp at this ⊢; omega
    rw [h1, h2, h3, List.append_nil] at hs'
    rw [hs', storedOf_append, List.length_append]
  refine ⟨hb1, ?_⟩
  rw [hb1, Nat.add_sub_cancel_left, before_eq]
  rw [hs, List.append_assoc, List.drop_left, List.take_left]

/-- The vector that results from the final state. -/
theorem finish_spec (h : FInv vals numBins p n extra sp G s) (hsp : sp ≤ s.binIndex) (hpos : 0 < s.binIndex) (entries : List Entry) (hreal : realOf G = entries)
    (sparse : Bool) (sparseValue : ℚ) (hsparse : sparse = true → (⟨⟨0, sparseValue⟩, sp, false, false⟩ : Ghost) ∈ G) :
    ∃ v, BinnedVector.resize ⟨s.thresholds, s.indices, s.indptr, numBins, sp⟩ (s.binIndex + 1) s.numIndices = .ok v ∧
      Separates entries sparse sparseValue v ∧ v.sparseBinIndex = sp ∧ v.numBins = s.binIndex + 1 := by
  have hbt : s.binIndex ≤ numBins - 1 := by
    obtain ⟨t, ht, _⟩ := h.sep (s.binIndex - 1) (by omega)
    have := (List.getElem?_eq_some_iff.mp ht).1
    rw [h.lenT] at this
    omega
  have hIlen : s.numIndices ≤ s.indices.length := by
    have h1 := congrArg List.length h.idx
    rw [List.length_take, List.length_map, ← h.num] at h1
    omega
  unfold BinnedVector.resize
  have hrp : (realloc s.indptr (s.binIndex + 1 + 1)).length = s.binIndex + 2 := by
    unfold realloc
    rw [List.length_append, List.length_take, List.length_replicate, h.lenP]
    omega
  simp only
  rw [writeAt_of_lt (by rw [hrp]; omega), ok_bind, if_neg (by omega)]
  refine ⟨_, rfl, ?_, rfl, rfl⟩
  generalize hv : (⟨realloc s.thresholds (s.binIndex + 1 - 1), realloc s.indices s.numIndices,
    (realloc s.indptr (s.binIndex + 1 + 1)).set (s.binIndex + 1) (some s.numIndices), s.binIndex + 1, sp⟩ : BinnedVector) = v
  have hnb : v.numBins = s.binIndex + 1 := by rw [← hv]
  have hsb : v.sparseBinIndex = sp := by rw [← hv]
  have hth : v.thresholds = s.thresholds.take s.binIndex := by
    rw [← hv]
    show realloc _ _ = _
    unfold realloc
    rw [h.lenT, show s.binIndex + 1 - 1 - (numBins - 1) = 0 by omega]
    simp
  have hin : v.indices = (storedOf G).map some := by
    rw [← hv, ← h.idx]
    show realloc _ _ = _
    unfold realloc
    rw [show s.numIndices - s.indices.length = 0 by omega]
    simp
  have hip : ∀ (k : Nat), k ≤ s.binIndex + 1 → v.indptr[k]? = some (some (before G k)) := by
    intro k hk
    rw [← hv]
    show ((realloc s.indptr (s.binIndex + 1 + 1)).set (s.binIndex + 1) (some s.numIndices))[k]? = _
    rw [List.getElem?_set]
    by_cases hke : s.binIndex + 1 = k
    · subst hke
      rw [if_pos rfl, if_pos (by rw [hrp]; omega), before_all (fun g hg => Nat.lt_succ_of_le (h.le g hg)), h.num]
    · rw [if_neg hke]
      unfold realloc
      rw [List.getElem?_append_left (by rw [List.length_take, h.lenP]; omega), List.getElem?_take_of_lt (by omega)]
      exact h.ptr k (by omega)
  have hbin : ∀ g ∈ G, ∀ b, InBin v g.entry.value b ↔ b = g.bin := by
    have hself : ∀ g ∈ G, InBin v g.entry.value g.bin := by
      intro g hg
      refine ⟨by rw [hnb]; exact Nat.lt_succ_of_le (h.le g hg), ?_⟩
      intro k t hk
      rw [hth] at hk
      have hkl := (List.getElem?_eq_some_iff.mp hk).1
      rw [List.length_take] at hkl
      obtain ⟨t', h1, h2, _⟩ := h.sep k (by omega)
      rw [List.getElem?_take_of_lt (by omega), h1] at hk
      cases hk
      exact h2 g hg
    intro g hg b
    constructor
    · intro hb
      refine inBin_unique ?_ hb (hself g hg)
      intro k hk
      rw [hnb] at hk
      obtain ⟨t', h1, _, _⟩ := h.sep k (by omega)
      exact ⟨t', by rw [hth, List.getElem?_take_of_lt (by omega)]; exact h1⟩
    · rintro rfl
      exact hself g hg
  have hstored : ∀ b, b < v.numBins → Stored v b (storedOf (G.filter (fun g => decide (g.bin = b)))) := by
    intro b hb
    obtain ⟨h1, h2⟩ := storedOf_split h.mono b
    refine ⟨before G b, before G (b + 1), hip b (by omega), hip (b + 1) (by omega), h1, ?_⟩
    rw [hin, ← List.map_drop, ← List.map_take, h2]
  constructor
  · omega
  · omega
  · rw [hth, List.length_take, h.lenT]; omega
  · intro k hk
    obtain ⟨t', h1, _, _⟩ := h.sep k (by omega)
    exact ⟨t', by rw [hth, List.getElem?_take_of_lt (by omega)]; exact h1⟩
  · intro e he
    rw [← hreal] at he
    obtain ⟨g, hg, rfl⟩ := List.mem_map.mp he
    exact ⟨g.bin, (hbin g (List.mem_filter.mp hg).1 g.bin).mpr rfl⟩
  · intro b hb hne
    refine ⟨_, hstored b hb, ?_⟩
    intro P hP
    have : storedOf (G.filter (fun g => decide (g.bin = b))) = (entries.filter P).map (·.index) := by
      rw [← hreal]
      unfold storedOf realOf
      rw [List.filter_map, List.map_map, List.filter_filter, List.filter_filter]
      have : G.filter (fun g => g.stored && decide (g.bin = b)) = G.filter (fun g => (P ∘ fun g => g.entry) g && g.real) := by
        apply List.filter_congr
        intro g hg
        rw [Bool.eq_iff_iff]
        simp only [Bool.and_eq_true, decide_eq_true_eq, Function.comp]
        rcases h.special g hg with ⟨h1, h2⟩ | ⟨h1, h2⟩
        · have hmem : g.entry ∈ entries := by
            rw [← hreal]
            exact List.mem_map.mpr ⟨g, List.mem_filter.mpr ⟨hg, h2⟩, rfl⟩
          rw [hP _ hmem, hbin g hg]
          simp [h1, h2]
          exact eq_comm
        · constructor
          · intro h3
            rw [h1] at h3
            cases h3.1
          · rintro ⟨h3, h4⟩
            have hmem : g.entry ∈ entries := by
              rw [← hreal]
              exact List.mem_map.mpr ⟨g, List.mem_filter.mpr ⟨hg, h4⟩, rfl⟩
            rw [hP _ hmem, hbin g hg] at h3
            rw [hsb] at hne
            omega
      rw [this]
      rfl
    rw [this]
  · refine ⟨_, hstored _ (by omega), ?_⟩
    intro i hi
    unfold storedOf at hi
    obtain ⟨g, hg, rfl⟩ := List.mem_map.mp hi
    have hg1 := List.mem_filter.mp hg
    have hg2 := List.mem_filter.mp hg1.1
    have hreal' : g.real = true := by
      rcases h.special g hg2.1 with ⟨_, h2⟩ | ⟨h1, _⟩
      · exact h2
      · rw [h1] at hg1; cases hg1.2
    refine ⟨g.entry, ?_, rfl, ?_⟩
    · rw [← hreal]
      exact List.mem_map.mpr ⟨g, List.mem_filter.mpr ⟨hg2.1, hreal'⟩, rfl⟩
    · rw [hbin g hg2.1]
      have h9 := hg2.2
      simp only [decide_eq_true_eq] at h9
      exact h9.symm
  · intro hs
    have := hsparse hs
    rw [hsb]
    exact (hbin _ this sp).mpr rfl

end MLRL.FeatureBinning
