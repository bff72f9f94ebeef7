/-!
The format of instructions in HTM traces, as far as addresses are concerned.  Bits are numbered from the most significant one.
-/
namespace Htm.Spec

/-- The field of the bits `a` to `b` of a record. -/
def fld (v : BitVec 64) (a b : Nat) : Nat := v.toNat / 2 ^ (63 - b) % 2 ^ (b - a + 1)

/-- Stamps begin with these bits. -/
def IsStamp (v : BitVec 64) : Prop := fld v 0 19 = 0xaceff

/-- Records that are not of instructions, such as zeros. -/
def Other (v : BitVec 64) : Prop := fld v 36 55 ≠ 0xABCDE ∧ fld v 36 55 ≠ 0xABCDF

/-- What is expected of a record that is handed to the callback: the address of the instruction, the address of the data it
accesses, if any, the instruction itself where it is stored as it is, its real address, if known, and whether the instruction
word can not be zero. -/
structure Expect where
  addr : BitVec 64
  data : Option (BitVec 64)
  word : Option (BitVec 32)
  real : Option (BitVec 64) := none
  nonzero : Bool := false
deriving DecidableEq, Repr

/-- Instruction words that are stored as they are: no branches, and none with the primary opcode 19, to which the branches
to the link register belong. -/
def stored (branch : Nat) (w : Nat) : Option (BitVec 32) :=
  if branch = 0 ∧ w / 2 ^ 26 ≠ 19 then some (BitVec.ofNat 32 w) else none

/-- Words of POWER10 traces that stand for an instruction: not zero, and not a branch in the form with bits 11 and 12 set that
begins with 19 and does not end like a return from an interrupt. -/
def nonzero10 (branch : Nat) (w : Nat) : Bool :=
  decide (w ≠ 0) && !(decide (branch = 1) && decide (w / 2 ^ 19 % 4 = 3) && decide (w / 2 ^ 26 = 19) && decide (w / 2 % 32 ≠ 18))

/-! ### POWER10 -/

/-- An instruction: the records with new lines before it (tag, effective address, real address), the instruction record, the
record with the machine state, the prefix, and pairs of effective and real data addresses. -/
structure Item10 where
  lines : List (BitVec 64 × BitVec 64 × BitVec 64)
  info : BitVec 64
  msr : BitVec 64
  pre : Option (BitVec 64)
  data : List (BitVec 64 × BitVec 64)
deriving DecidableEq, Repr

def Item10.words (i : Item10) : List (BitVec 64) :=
  i.lines.flatMap (fun p => [p.1, p.2.1, p.2.2]) ++ [i.info, i.msr] ++ i.pre.toList ++ i.data.flatMap (fun p => [p.1, p.2])

/-- The line that the instruction is in, after instructions in the line of `prev`. -/
def Item10.line (i : Item10) (prev : BitVec 64) : Nat :=
  match i.lines.getLast? with
  | some p => p.2.1.toNat / 128
  | none => prev.toNat / 128

/-- The format: tags, as many further records as the instruction record says, and bit 56 of the address is the same in the
record of the line and the instruction record. -/
structure Item10.Ok (i : Item10) (prev : BitVec 64) : Prop where
  plain : ∀ v ∈ i.words, ¬ IsStamp v
  lines : ∀ p ∈ i.lines, fld p.1 36 55 = 0xABCDF ∧ fld p.1 34 35 = 3
  info : fld i.info 36 55 = 0xABCDF ∧ fld i.info 34 35 = 2
  pre : i.pre.isSome = decide (fld i.info 33 33 = 1)
  data : i.data.length = fld i.info 62 63 ∧ fld i.info 62 63 ≤ 2
  half : fld i.info 56 56 = i.line prev % 2

/-- The address: the line has 128 bytes, and the record has the bits 56 to 61. -/
def Item10.addr (i : Item10) (prev : BitVec 64) : BitVec 64 :=
  BitVec.ofNat 64 (i.line prev / 2 * 256 + fld i.info 56 61 * 4)

def Item10.expect (i : Item10) (prev : BitVec 64) : List Expect :=
  let data := i.data.head?.map (·.1)
  let word := stored (fld i.info 32 32) (fld i.info 0 31)
  let nonzero := nonzero10 (fld i.info 32 32) (fld i.info 0 31)
  match i.pre with
  | none => [{ addr := i.addr prev, data := data, word := word, nonzero := nonzero }]
  | some p =>
    [{ addr := i.addr prev, data := data, word := some (BitVec.ofNat 32 (fld p 0 31)), nonzero := decide (fld p 0 31 ≠ 0) },
     { addr := i.addr prev + 4, data := none, word := word, nonzero := nonzero }]

/-- A trace is a list of instructions in this format. -/
def Trace10 (prev : BitVec 64) : List Item10 → Prop
  | [] => True
  | i :: l => i.Ok prev ∧ Trace10 (i.addr prev) l

def expect10 (prev : BitVec 64) : List Item10 → List Expect
  | [] => []
  | i :: l => i.expect prev ++ expect10 (i.addr prev) l

/-! ### POWER9 -/

/-- An instruction: the instruction record, its address, the address of its data, and the real address of the data. -/
structure Item9 where
  info : BitVec 64
  iea : Option (BitVec 64)
  dea : Option (BitVec 64)
  dra : Option (BitVec 64)
deriving DecidableEq, Repr

def Item9.words (i : Item9) : List (BitVec 64) := [i.info] ++ i.iea.toList ++ i.dea.toList ++ i.dra.toList

/-- The format of the instructions without a real address (bit 58) and without segment information (bit 61).  Addresses must
not look like the instruction records. -/
structure Item9.Ok (i : Item9) : Prop where
  plain : ∀ v ∈ i.words, ¬ IsStamp v
  info : fld i.info 36 55 = 0xABCDE ∧ fld i.info 56 56 = 1 ∧ fld i.info 58 58 = 0 ∧ fld i.info 61 61 = 0
  word : fld i.info 0 31 ≠ 0
  iea : i.iea.isSome = decide (fld i.info 57 57 = 1)
  dea : i.dea.isSome = decide (fld i.info 59 59 = 1)
  dra : i.dra.isSome = decide (fld i.info 60 60 = 1)
  tags : ∀ v ∈ i.iea.toList ++ i.dea.toList ++ i.dra.toList, fld v 36 55 ≠ 0xABCDE
  size : ∀ v, i.dra = some v → fld v 0 1 ≠ 2

/-- Instructions without an address follow the one before. -/
def Item9.addr (i : Item9) (prev : BitVec 64) : BitVec 64 :=
  match i.iea with
  | some v => BitVec.ofNat 64 (v.toNat / 4 * 4)
  | none => prev + 4

/-- Bit 63 of the record with the address says whether it is translated.  If not, the real address is the address without
its first two bits. -/
def Item9.real (i : Item9) : Option (BitVec 64) :=
  match i.iea with
  | some v => if fld v 63 63 = 0 then some (BitVec.ofNat 64 (v.toNat / 4 * 4 % 2 ^ 62)) else none
  | none => none

def Item9.expect (i : Item9) (prev : BitVec 64) : Expect :=
  { addr := i.addr prev, data := i.dea, word := stored (fld i.info 32 32) (fld i.info 0 31), real := i.real, nonzero := true }

def expect9 (prev : BitVec 64) : List Item9 → List Expect
  | [] => []
  | i :: l => i.expect prev :: expect9 (i.addr prev) l

end Htm.Spec
