import Verif.Htm.SpecInsn
/-!
Dumps that htmdecode does not stop at.  Bits are numbered from the most significant one.
-/
namespace Htm.Spec

/-- A record that announces a page-table walk. -/
def IsWalk (v : BitVec 64) : Prop := fld v 36 55 = 0xABCDF ∧ fld v 34 35 = 1

/-- A marker whose reserved bits are not zero. -/
def BadMark (v : BitVec 64) : Prop := fld v 0 23 = 0xACEFF3 ∧ fld v 53 62 ≠ 0

/-- The size that a record has if it is the real address of a POWER9 instruction: 2^12, 2^16 or 2^24 bytes. -/
def realSize (v : BitVec 64) : Option Nat :=
  if fld v 41 63 = 0 then
    if fld v 38 39 = 1 then some 12 else if fld v 38 39 = 2 then some 16 else if fld v 38 39 = 3 then some 24 else none
  else none

/-- No walks, no malformed marks. -/
structure Simple (v : BitVec 64) : Prop where
  walk : ¬ IsWalk v
  mark : ¬ BadMark v

/-- Nor real addresses of any but one page size, nor addresses in the last page of that size. -/
structure Plain (size : Nat) (v : BitVec 64) : Prop extends Simple v where
  real : ∀ n, realSize v = some n → n = size
  last : v.toNat < 2 ^ 64 - 2 ^ size

end Htm.Spec
