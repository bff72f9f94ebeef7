import Verif.Ptracer.SpecStorage
/-!
# What a thread can execute next

A small account of sequencing in the Power ISA, independent of the tracer: the addresses that can follow
an instruction word at a given address.
-/

namespace IsaSeq
open IsaMem

/-- Target of a conditional branch (`bc`): the 14-bit displacement field times four, sign extended, relative
to the address of the branch unless AA is set; modulo 2⁶⁴. -/
def bcTarget (w : BitVec 32) (addr : BitVec 64) : BitVec 64 :=
  let d := signed 14 (bits w 16 14) * 4
  BitVec.ofInt 64 (if bits w 30 1 = 1 then d else addr.toNat + d)

/-- `lbarx`, `lharx`, `lwarx`, `ldarx`, `lqarx`. -/
def LoadReserve (w : BitVec 32) : Prop := bits w 0 6 = 31 ∧ bits w 21 10 ∈ [52, 116, 20, 84, 276]

/-- `stbcx.`, `sthcx.`, `stwcx.`, `stdcx.`, `stqcx.`. -/
def StoreConditional (w : BitVec 32) : Prop :=
  bits w 0 6 = 31 ∧ bits w 21 10 ∈ [694, 726, 150, 214, 182] ∧ bits w 31 1 = 1

/-- Instructions other than `bc` that can transfer control: `sc`/`scv` (17), `b` (18), `bclr`, `bcctr`,
`bctar`, `rfid` and the like (19). -/
def OtherTransfer (w : BitVec 32) : Prop := bits w 0 6 = 17 ∨ bits w 0 6 = 18 ∨ bits w 0 6 = 19

instance (w : BitVec 32) : Decidable (OtherTransfer w) := by unfold OtherTransfer; infer_instance

/-- After the word `w` at `a`, control can be at `b`. Nothing is said about where the other transfers go. -/
def Next (w : BitVec 32) (a b : BitVec 64) : Prop :=
  if bits w 0 6 = 16 then b = a + 4#64 ∨ b = bcTarget w a
  else if OtherTransfer w then True
  else b = a + 4#64

/-- Addresses a thread started at `p` can get to before executing a word equal to `stop`. -/
inductive Reach (m : BitVec 64 → Option (BitVec 32)) (stop : BitVec 32) (p : BitVec 64) : BitVec 64 → Prop
  | start : Reach m stop p p
  | step {a b : BitVec 64} {w : BitVec 32} :
    Reach m stop p a → m a = some w → w ≠ stop → Next w a b → Reach m stop p b

/-- The thread, at `p`, executes the instructions at the listed addresses, in this order, and gets to `q`. -/
inductive Executes (m : BitVec 64 → Option (BitVec 32)) : BitVec 64 → List (BitVec 64) → BitVec 64 → Prop
  | nil {p : BitVec 64} : Executes m p [] p
  | cons {p q r : BitVec 64} {w : BitVec 32} {l : List (BitVec 64)} :
    m p = some w → Next w p q → Executes m q l r → Executes m p (p :: l) r

end IsaSeq
