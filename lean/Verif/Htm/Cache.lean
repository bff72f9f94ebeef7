import Verif.Htable.Map
/-!
Caches as maps.  The caches of htm/erat.c and htm/pwc.c are hash tables used as `Htable.Map.refines` describes: here a cache
is the function from keys to values.
-/
namespace Htm

abbrev Cache (K V : Type) := K → Option V

namespace Cache
variable {K V : Type} [DecidableEq K]

def empty : Cache K V := fun _ => none

/-- Search, then change the value found or add a new one: `Htable.Map.put`. -/
def put (c : Cache K V) (k : K) (upd : Option V → V) : Cache K V := fun x => if x = k then some (upd (c x)) else c x

theorem put_self (c : Cache K V) (k : K) (upd : Option V → V) : c.put k upd k = some (upd (c k)) := by simp [put]

theorem put_ne (c : Cache K V) {k x : K} (upd : Option V → V) (h : x ≠ k) : c.put k upd x = c x := by simp [put, h]

/-- A history of changes is a history of the hash table (`Htable.Map.spec` is what `Htable.Map.refines` shows the hash
table to be). -/
theorem foldl_put_eq_spec (l : List (Htable.Map.Put K V)) (c : Cache K V) :
    l.foldl (fun c o => put c o.k o.upd) c = Htable.Map.spec c l := by
  induction l generalizing c with
  | nil => rfl
  | cons o l ih => rw [List.foldl_cons, ih, Htable.Map.spec]; rfl

/-- The value of a key depends on the changes of that key only. -/
theorem foldl_put_at {α : Type} (key : α → K) (upd : α → Option V → V) (k : K) : ∀ (l : List α) (c : Cache K V),
    l.foldl (fun c o => put c (key o) (upd o)) c k =
      (l.filter fun o => key o = k).foldl (fun v o => some (upd o v)) (c k) := by
  intro l
  induction l with
  | nil => intro c; rfl
  | cons o l ih =>
    intro c
    rw [List.foldl_cons, ih]
    by_cases h : key o = k
    · rw [List.filter_cons_of_pos (by simpa using h), List.foldl_cons, ← h, put_self]
    · rw [List.filter_cons_of_neg (by simpa using h), put_ne _ _ (Ne.symm h)]

theorem foldl_some_append {α β : Type} (g : α → Option β → β) (l : List α) (a : α) (v : Option β) :
    (l ++ [a]).foldl (fun v o => some (g o v)) v = some (g a (l.foldl (fun v o => some (g o v)) v)) := by
  simp

end Cache
end Htm
