import Verif.Htm.SpecInsn
/-! # Specification of the order of instructions and stamps in a listing -/
namespace Htm.Spec

instance (v : BitVec 64) : Decidable (IsStamp v) := inferInstanceAs (Decidable (_ = _))

/-- The lines of a listing, in order: `false` is a line for a stamp, `true` one for an instruction.  The instructions are given as the number of records they
have and the number of lines; a stamp that is among the records of an instruction comes before it, one behind the last record after it. -/
def order : List (Nat × Nat) → List (BitVec 64) → List Bool
  | _, [] => []
  | items, v :: l =>
    if IsStamp v then false :: order items l
    else
      match items with
      | [] => order [] l
      | (n, m) :: items => if n ≤ 1 then List.replicate m true ++ order items l else order ((n - 1, m) :: items) l

end Htm.Spec
