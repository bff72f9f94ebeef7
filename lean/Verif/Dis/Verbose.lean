import Verif.Dis.Model

/-! # The verbose listing (`/repo/qtdis/qtdis.c`, option `-v`)

A remark is what one or two calls of `fprintf` print behind the instruction. -/

namespace Dis
open Qt

/-- One round of the outer loop of `print_radix_on_radix`: `GUEST L.. HOST L1 .. HOST L2 .. GUEST HOST REAL ..`. -/
structure Row where
  guest : BitVec 64
  host : List (BitVec 64)
  real : Option (BitVec 64)
  deriving DecidableEq, Repr

/-- qtdis.c:66-79 `print_radix_on_radix`.  The counts are at most those of the arrays for every walk that the reader has
filled in. -/
def rows (x : Radix) : List Row :=
  (List.range x.nrWalks).map fun j =>
    { guest := x.guestRas j
      host := (List.range x.nrPtes).map (x.hostPtes j)
      real := if j < x.nrWalks - 1 then some (x.hostRas j) else none }

/-- The remarks of qtdis.c:395-424. -/
inductive Remark where
  | dataAddr (a : BitVec 64)
  | dataRpn (v : BitVec 32)
  | dataWalk (l : List Row)
  | dataSize (n : Nat)
  | insnRpn (v : BitVec 32)
  | insnWalk (l : List Row)
  | insnSize (n : Nat)
  | node (b : BitVec 8)
  | term (node code : BitVec 8)
  deriving DecidableEq, Repr

/-- `if (c) fprintf(...)`. -/
def noteIf (c : Bool) (x : Remark) : List Remark := if c then [x] else []

/-- qtdis.c:395-424, in the order printed. -/
def remarks (x : Shown) : List Remark :=
  noteIf x.rcd.dataAddrValid (.dataAddr x.rcd.dataAddr)
    ++ noteIf x.st.dataRpnValid (.dataRpn x.st.dataRpn)
    ++ noteIf (x.rcd.radixData.nrPtes != 0) (.dataWalk (rows x.rcd.radixData))
    ++ noteIf x.rcd.dataPageShiftValid (.dataSize x.rcd.dataPageShift)
    ++ noteIf x.st.nextInsnRpnValid (.insnRpn x.st.nextInsnRpn)
    ++ noteIf (x.st.nextInsnRpnValid && x.st.radixInsn.nrPtes != 0) (.insnWalk (rows x.st.radixInsn))
    ++ noteIf x.st.nextInsnPageShiftValid (.insnSize x.st.nextInsnPageShift)
    ++ noteIf x.rcd.nodeValid (.node x.rcd.node)
    ++ noteIf x.rcd.branch (.term x.rcd.termNode x.rcd.termCode)

/-- qtdis.c:389-393: whether the `#` that starts the remarks is printed. -/
def marked (x : Shown) : Bool :=
  x.rcd.dataAddrValid || x.st.dataRpnValid || x.st.nextInsnRpnValid || x.rcd.nodeValid || x.rcd.branch ||
    x.rcd.dataPageShiftValid || x.st.nextInsnRpnValid || x.st.nextInsnPageShiftValid

end Dis
