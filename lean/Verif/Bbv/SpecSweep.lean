import Verif.Bbv.SpecPam
import Verif.Bbv.SpecVectors
import Verif.Bbv.Sweep
/-!
What the summary of a trace says.
-/
namespace Bbv

/-- The number of different points. -/
def different : List (List (BitVec 64)) → Nat
  | [] => 0
  | p :: l => if p ∈ l then different l else different l + 1

/-- The number of the medoid a point belongs to: the first of those that are nearest to it. -/
def assigned (medoids : List (List (BitVec 64))) (point : List (BitVec 64)) : Nat := (medoids.map (apart point)).idxOf (nearest medoids point)

/-- How many points belong to a medoid. -/
def members (points medoids : List (List (BitVec 64))) (j : Nat) : Nat := (points.filter fun p => assigned medoids p == j).length

/-- A position at which a point occurs first. -/
def FirstAt (points : List (List (BitVec 64))) (m : List (BitVec 64)) (o : Nat) : Prop := points[o]? = some m ∧ ∀ i < o, points[i]? ≠ some m

/-- No replacement of one medoid by a point lowers the cost. -/
def Optimal (points medoids : List (List (BitVec 64))) : Prop :=
  ∀ j, j < medoids.length → ∀ p ∈ points, spread points medoids ≤ spread points (medoids.set j p)

/-- A printed table describes the medoids `ms` of intervals of `P` instructions with the given points: the medoids are different points, no replacement of
one of them by a point lowers the sum of the distances, the printed cost is that sum, and the line of a medoid has the first and the last instruction of
the first interval with that point and the number of the intervals that belong to it; these numbers add up to that of the intervals. -/
structure Report.Describes (P : Nat) (points ms : List (List (BitVec 64))) (r : Report) : Prop where
  k : ms.length = r.k
  nodup : ms.Nodup
  input : ∀ m ∈ ms, m ∈ points
  optimal : Optimal points ms
  cost : r.cost.toNat = spread points ms
  length : r.lines.length = ms.length
  total : (r.lines.map (·.count)).sum = points.length
  lines : ∀ (j : Nat) (l : Line) (m : List (BitVec 64)), r.lines[j]? = some l → ms[j]? = some m → ∃ o, FirstAt points m o ∧
    l.first.toNat = o * P ∧ l.last.toNat = o * P + (P - 1) ∧ l.count = members points ms j

/-- The sum of the instructions in the blocks of an interval, with a sign for every block. -/
def signed (sign : Nat → Bool) (v : Nat → Nat) (K : Nat) : Int := ((List.range K).map fun j => if sign j then -(v j : Int) else v j).sum

/-- The points that are clustered: one for every complete interval; its coordinates are the instructions executed in the blocks (`dims = 0`) or `dims` sums of them with signs
that are the same for all intervals. -/
structure IsPoints (P : Nat) (recs : List Rec) (sign : Nat → Nat → Bool) (dims : Nat) (points : List (List (BitVec 64))) : Prop where
  length : points.length = recs.length / P
  plain : dims = 0 → ∀ (i : Nat) (row : List (BitVec 64)), points[i]? = some row → row.length = (Spec.starts (Spec.cut recs recs.length).blocks).length + 1 ∧
    ∀ (j : Nat) (x : BitVec 64), row[j]? = some x → x.toNat = Spec.vector P (Spec.cut recs recs.length).blocks i j
  projected : dims ≠ 0 → ∀ (i : Nat) (row : List (BitVec 64)), points[i]? = some row → row.length = dims ∧
    ∀ (d : Nat) (x : BitVec 64), row[d]? = some x → x.toInt = signed (sign d) (Spec.vector P (Spec.cut recs recs.length).blocks i) (Spec.starts (Spec.cut recs recs.length).blocks).length

end Bbv
