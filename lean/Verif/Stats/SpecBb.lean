import Verif.Stats.Bb
/-!
What the printed blocks mean.
-/
namespace Bb.Spec

/-- The different addresses of a trace, in the order of their first occurrence. -/
def firsts (l : List (BitVec 64)) : List (BitVec 64) := l.foldl (fun acc x => if x ∈ acc then acc else acc ++ [x]) []

/-- Two counters are close. -/
def Close (a b : BitVec 64) : Prop := a.toNat < b.toNat + 4 ∧ b.toNat < a.toNat + 4

/-- A run: consecutive instruction addresses, all counters close to the first one. -/
def Run (g : List Bbe) : Prop :=
  ∃ h, g[0]? = some h ∧ ∀ k t, g[k]? = some t → t.ea.toNat = h.ea.toNat + 4 * k ∧ Close t.hit h.hit

/-- No run can be extended by the first entry of the next one. -/
def Maximal : List (List Bbe) → Prop
  | [] => True
  | [_] => True
  | g :: g' :: l => ¬ Run (g ++ g'.take 1) ∧ Maximal (g' :: l)

/-- The block that stands for a run. -/
def block (g : List Bbe) : Bbe := { ea := (g.headD {}).ea, size := BitVec.ofNat 64 g.length, hit := (g.headD {}).hit, valid := true }

/-- A division of entries, sorted by address, into runs. -/
structure Division (entries : List Bbe) (groups : List (List Bbe)) : Prop where
  perm : groups.flatten.Perm entries
  sorted : groups.flatten.Pairwise fun a b => a.ea.toNat < b.ea.toNat
  runs : ∀ g ∈ groups, Run g
  maximal : Maximal groups

end Bb.Spec
