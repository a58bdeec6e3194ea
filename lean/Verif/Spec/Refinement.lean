import Verif.Model.Refinement

/-! # Specification of the selection of refinements -/

namespace MLRL.Refinement

/-- The relation "better" is a strict weak order. -/
structure StrictWeak {Q : Type} (better : Q → Q → Bool) : Prop where
  irrefl : ∀ a, better a a = false
  trans : ∀ a b c, better a b = true → better b c = true → better a c = true
  /-- a quality that is better than another one can be compared to any third one -/
  comparable : ∀ a b c, better a c = true → better a b = true ∨ better b c = true

/-- The candidate is the first one among those of best quality. -/
def FirstBest {A Q : Type} (better : Q → Q → Bool) (candidates : List (Scored A Q)) (x : Scored A Q) : Prop :=
  ∃ before after, candidates = before ++ x :: after ∧ (∀ y ∈ before, better x.quality y.quality = true) ∧
    ∀ y ∈ after, better y.quality x.quality = false

/-- An interleaving of the steps that are executed for different features. -/
def Interleaving {X : Type} (candidates : List (List X)) (trace : List (Nat × X)) : Prop :=
  (∀ p ∈ trace, p.1 < candidates.length) ∧
    ∀ i l, candidates[i]? = some l → (trace.filter (fun p => p.1 == i)).map Prod.snd = l

/-- Sorted from best to worst. -/
def Sorted {A Q : Type} (better : Q → Q → Bool) (l : List (Scored A Q)) : Prop :=
  l.Pairwise (fun x y => better y.quality x.quality = false)

/-- The behaviour of `std::sort`. -/
structure SortSpec {A Q : Type} (better : Q → Q → Bool) (sort : List (Scored A Q) → List (Scored A Q)) : Prop where
  perm : ∀ l, (sort l).Perm l
  sorted : ∀ l, Sorted better (sort l)

/-- The refinements `kept` are the best ones among `all`: the others are not better than any of them. -/
def Best {A Q : Type} (better : Q → Q → Bool) (all kept : List (Scored A Q)) : Prop :=
  ∃ dropped, (kept ++ dropped).Perm all ∧ ∀ x ∈ kept, ∀ y ∈ dropped, better y.quality x.quality = false

end MLRL.Refinement
