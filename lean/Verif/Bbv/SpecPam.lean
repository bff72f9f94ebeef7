/-!
What clustering around medoids means.
-/
namespace Bbv

/-- The difference of two numbers. -/
def gap (x y : BitVec 64) : Nat := (x.toInt - y.toInt).natAbs

/-- The distance of two points. -/
def apart (a b : List (BitVec 64)) : Nat := ((a.zip b).map fun p => gap p.1 p.2).sum

/-- The distance to the nearest of some medoids. -/
def nearest (medoids : List (List (BitVec 64))) (point : List (BitVec 64)) : Nat := (medoids.map (apart point)).min?.getD 0

/-- The sum of the distances of all points to their nearest medoid. -/
def spread (points medoids : List (List (BitVec 64))) : Nat := (points.map (nearest medoids)).sum

/-- The points have the same dimension, and their distances are so small that sums of them fit in 63 bits. -/
structure Small (points : List (List (BitVec 64))) : Prop where
  length : ∃ n, ∀ a ∈ points, a.length = n
  bound : ∃ D, (∀ a ∈ points, ∀ b ∈ points, apart a b ≤ D) ∧ D * (points.length + 1) < 2 ^ 63

end Bbv
