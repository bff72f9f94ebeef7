import Verif.Bbv.Matrix
/-!
What a matrix of `qtrace-bbv` stands for.
-/
namespace Bbv

/-- The memory of `m` holds the matrix with `R` rows, `C` columns and the entries `f r c`, one row after the other, and the whole
matrix has less than 2^64 bytes. -/
structure Holds (m : Matrix) (R C : Nat) (f : Nat → Nat → BitVec 64) : Prop where
  rows : m.rows.toNat = R
  cols : m.cols.toNat = C
  fits : R * C * 8 < 2 ^ 64
  length : m.data.length = R * C
  entry : ∀ r c, r < R → c < C → m.data[r * C + c]? = some (f r c)

/-- The entry of a product. -/
def product (K : Nat) (f g : Nat → Nat → BitVec 64) (r c : Nat) : BitVec 64 :=
  BitVec.ofNat 64 ((List.range K).map fun x => (f r x).toNat * (g x c).toNat).sum

end Bbv
