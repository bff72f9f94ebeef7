import Verif.Qt.Types

/-! # Specification vocabulary for the disassembly listing

In terms of the records of the trace only. -/

namespace DisSpec
open Qt

/-- The instruction word is a prefix (primary opcode 1). -/
def IsPrefix (w : BitVec 32) : Prop := w.toNat / 2 ^ 26 = 1

instance (w : BitVec 32) : Decidable (IsPrefix w) := inferInstanceAs (Decidable (_ = _))

/-- The records of a trace grouped into instructions: a prefix together with the record of its suffix. -/
def instructions : List Record → List (Record × Option Record)
  | [] => []
  | [r] => [(r, none)]
  | r :: s :: rest =>
    if IsPrefix r.insn then (r, some s) :: instructions rest else (r, none) :: instructions (s :: rest)

/-- The trace does not end between the two words of an instruction. -/
def Complete (rs : List Record) : Prop := ∀ x ∈ instructions rs, x.2 = none → ¬ IsPrefix x.1.insn

/-- The two words of an instruction. -/
def words (x : Record × Option Record) : BitVec 32 × Option (BitVec 32) := (x.1.insn, x.2.map (·.insn))

/-- The second words of the prefixed instructions. -/
def suffixes (rs : List Record) : List (BitVec 32) := (instructions rs).filterMap fun x => x.2.map (·.insn)

/-- Every record says where the following one is. -/
def Linked : List Record → Prop
  | [] => True
  | [_] => True
  | a :: b :: l => b.insnAddr = a.nextInsnAddr ∧ Linked (b :: l)

/-- The start of the 4 KiB frame an address is in. -/
def frame (ra : BitVec 64) : BitVec 64 := ra &&& 0xfffffffffffff000

/-- The data access of a record: effective address, frame of the real address, page shift. -/
def access (r : Record) : Option (BitVec 64 × Option (BitVec 64) × Option Nat) :=
  if r.dataAddrValid then
    some (r.dataAddr, (if r.dataRaValid then some (frame r.dataRa) else none),
      (if r.dataPageShiftValid then some r.dataPageShift else none))
  else none

end DisSpec
