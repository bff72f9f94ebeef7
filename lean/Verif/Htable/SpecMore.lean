import Verif.Htable.More
/-!
What the calls on a hash table mean for the bag of its elements (C103).

`Agrees may S calls answers S'`: from the bag `S`, the calls may give these answers and leave the bag `S'`.  With `may`
false no addition is refused.
-/
namespace Htable

inductive Step (may : Bool) : List Word → Call → Ans → List Word → Prop where
  /-- The element is put in. -/
  | added (S p mem) : Step may S (.add p mem) (.bool true) (p :: S)
  /-- Only without memory an addition is refused, and then nothing changes. -/
  | refused (S p) : may = true → Step may S (.add p false) (.bool false) S
  | deleted (S p) : p ∈ S → Step may S (.del p) (.bool true) (S.erase p)
  | missing (S p) : p ∉ S → Step may S (.del p) (.bool false) S
  /-- One element with the key goes away. -/
  | keyDeleted (S x eq p) : p ∈ S → eq p = true → Step may S (.delkey x eq) (.bool true) (S.erase p)
  | keyMissing (S x eq) : (∀ p ∈ S, eq p = false) → Step may S (.delkey x eq) (.bool false) S
  | cleared (S) : Step may S .clear .nothing []
  /-- The copy has the same elements, and is made exactly if there is memory. -/
  | copied (S mem) : Step may S (.copy mem) (.bool mem) S
  /-- Deleting while walking: every element is given exactly as often as it is present, and those asked for go away. -/
  | swept (S q l) : l.Perm S → Step may S (.sweep q) (.list l) (S.filter fun p => !q p)

inductive Agrees (may : Bool) : List Word → List Call → List Ans → List Word → Prop where
  | nil (S) : Agrees may S [] [] S
  | cons {S c a S' l as S''} : Step may S c a S' → Agrees may S' l as S'' → Agrees may S (c :: l) (a :: as) S''

/-- The table answers questions as the bag `S` does: walking gives its elements, the matches of a hash are all there, and
a key is found exactly if an element has it. -/
structure Faithful (hash : Word → Word) (ht : Ht) (S : List Word) : Prop where
  iterate : ∃ l, ht.sweep (fun _ => false) = some (l, ht.size, ht) ∧ (l.map (·.2)).Perm S
  matching : ∀ x, ∃ l, ht.matches x = some l ∧
    (l.filter fun p => hash p == x).Perm (S.filter fun p => hash p == x) ∧ ∃ rest, S.Perm (l ++ rest)
  get : ∀ (x : Word) (eq : Word → Bool), (∀ p ∈ S, eq p = true → hash p = x) →
    ∃ o, ht.get x eq = some o ∧ (∀ p, o = some p → p ∈ S ∧ eq p = true) ∧ (o = none → ∀ p ∈ S, eq p = false)

/-- The caller's side: the pointers added are in `U`, and keys belong to their hash. -/
def Call.Ok (hash : Word → Word) (U : Word → Prop) : Call → Prop
  | .add p _ => U p
  | .delkey x eq => ∀ p, eq p = true → hash p = x
  | _ => True

/-- Number of additions. -/
def additions : List Call → Nat
  | [] => 0
  | .add _ _ :: l => additions l + 1
  | _ :: l => additions l

end Htable
