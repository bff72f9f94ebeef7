/-!
The function `qsort` of the C library, by what the C standard says about it.
-/
namespace Stats

/-- What C requires of the comparison: it is a total order on the elements. -/
structure Consistent {α : Type} (cmp : α → α → Int) (l : List α) : Prop where
  trans : ∀ a ∈ l, ∀ b ∈ l, ∀ c ∈ l, cmp a b ≤ 0 → cmp b c ≤ 0 → cmp a c ≤ 0
  anti : ∀ a ∈ l, ∀ b ∈ l, cmp a b < 0 ↔ 0 < cmp b a

/-- What `qsort` of the C library promises: a permutation, and the order if the comparison is consistent. -/
structure QSort {α : Type} (cmp : α → α → Int) (l out : List α) : Prop where
  perm : out.Perm l
  sorted : Consistent cmp l → out.Pairwise fun a b => cmp a b ≤ 0

end Stats
