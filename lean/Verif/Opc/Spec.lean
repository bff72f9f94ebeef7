import Verif.Opc.Model

/-!
What the operand table promises to an assembler and a disassembler: the values an operand may have, the bits of the instruction that hold it, the values that
are not legal in an instruction, the value of an operand that is left out.  Written from the comments of ppc.h and ppc-opc.c and the instruction forms
of the architecture; values are integers.
-/
namespace Opc

/-- The word with ones at the given places: lowest bit (numbered from the right) and number of bits. -/
def bits (places : List (Nat × Nat)) : W := BitVec.ofNat 64 ((places.map fun p => (2 ^ p.2 - 1) * 2 ^ p.1).sum)

/-- Number of low zero bits of an operand: it is a multiple of 2, 4, 8 or 16 (ppc.h:251-252). -/
def Operand.lo (o : Operand) : Nat := (o.bitm &&& -o.bitm).toNat.log2

/-- Number of bits of an operand, with the low zero bits. -/
def Operand.hi (o : Operand) : Nat := if o.bitm = 0 then 0 else o.bitm.toNat.log2 + 1

/-- "Valid range of operand is 0..n rather than 0..n-1" (PPC_OPERAND_PLUS1, ppc.h:404). -/
def Operand.plus1 (o : Operand) : Bool := Nat.testBit o.flags 17

/-- "The normal most negative number is disallowed and one more than the normal most positive number is allowed" (PPC_OPERAND_NEGATIVE, ppc.h:401). -/
def Operand.negative (o : Operand) : Bool := Nat.testBit o.flags 16

/-- PPC_OPERAND_OPTIONAL, ppc.h:412. -/
def Operand.optional (o : Operand) : Bool := Nat.testBit o.flags 19

/-- The values of an operand. -/
def Operand.Range (o : Operand) (v : Int) : Prop :=
  (2 : Int) ^ o.lo ∣ v ∧
  if o.signed then
    if o.negative then -2 ^ (o.hi - 1) < v ∧ v ≤ 2 ^ (o.hi - 1) else -2 ^ (o.hi - 1) ≤ v ∧ v < 2 ^ (o.hi - 1)
  else 0 ≤ v ∧ (v < 2 ^ o.hi ∨ (o.plus1 = true ∧ v = 2 ^ o.hi))

/-- The places of the instruction word that hold the operand. -/
def Operand.field (o : Operand) : List (Nat × Nat) :=
  match o.ins with
  | .null => match o.shift with
    | some s => [((o.lo + s).toNat, o.hi - o.lo)]
    | none => []
  | .arx | .rx => [(0, 4)]
  | .ary | .ry => [(4, 4)]
  | .bab => [(16, 5), (11, 5)]
  | .btab => [(21, 5), (16, 5), (11, 5)]
  | .bdm | .bdp => [(2, 14), (21, 1)]
  | .bo | .boe => [(21, 5)]
  | .dcmxs => [(16, 5), (2, 1), (6, 1)]
  | .dxd | .dxdn => [(0, 1), (6, 10), (16, 5)]
  | .fxm => [(12, 8)]
  | .li20 => [(0, 11), (11, 4), (16, 5)]
  | .ls => [(21, 2)]
  | .esync => [(16, 4)]
  | .mbe => [(6, 5), (1, 5)]
  | .mb6 => [(6, 5), (5, 1)]
  | .nbi => [(11, 5)]
  | .nsi => [(0, 16)]
  | .ral | .ram | .raq | .ras => [(16, 5)]
  | .rsb => [(21, 5), (11, 5)]
  | .rbx => [(11, 5)]
  | .sci8 | .sci8n => [(0, 11)]
  | .oimm => [(4, 5)]
  | .sh6 => [(11, 5), (1, 1)]
  | .spr | .tbr => [(16, 5), (11, 5)]
  | .sprbat => [(17, 2), (11, 1)]
  | .sprg => [(16, 5)]
  | .xt6 => [(21, 5), (0, 1)]
  | .xtq6 => [(21, 5), (3, 1)]
  | .xa6 => [(16, 5), (2, 1)]
  | .xb6 => [(11, 5), (1, 1)]
  | .xab6 => [(16, 5), (2, 1), (11, 5), (1, 1)]
  | .xc6 => [(6, 5), (3, 1)]
  | .dm => [(8, 2)]
  | .vlesi | .vlensi | .vleui => [(21, 5), (0, 11)]
  | .vleil => [(16, 5), (0, 11)]
  | .evuimm1Ex0 | .evuimm2Ex0 | .evuimm4Ex0 | .evuimm8Ex0 | .evuimmLt8 | .evuimmLt16 => [(11, 5)]
  | .even => [(21, 5)]
  | .offLsp => [(0, 2)]
  | .offSpe2 => [(0, 3)]
  | .ddd => [(11, 2), (0, 1)]
  | .sxl => [(11, 1)]

/-- Further bits that an insertion may set: the branch hints of the BO field, and the bit that tells mfocrf and mtocrf from mfcr and mtcrf. -/
def Operand.hints (o : Operand) : List (Nat × Nat) :=
  match o.ins with
  | .bdm | .bdp => [(22, 1), (24, 1)]
  | .fxm => [(20, 1)]
  | _ => []

/-- Bits `lo`, …, `lo + n - 1` of an instruction as a number. -/
def part (insn : W) (lo n : Nat) : Int := (insn.toNat / 2 ^ lo % 2 ^ n : Nat)

/-- Does a dialect have one of the features of a mask? -/
def has (dialect mask : W) : Prop := dialect &&& mask ≠ 0#64

/-- The dialects of version 2 of the architecture: Power4, e500mc, Titan. -/
def version2 : W := 0x82000800#64

/-- The number of an instruction's bits `BO` read as five binary digits, in the notation of ppc-opc.c:314-325 and 339-350: `z` must be zero, any other letter may
be anything. -/
def digits (pattern : String) (v : Int) : Prop :=
  0 ≤ v ∧ v < 32 ∧ ∀ k : Nat, k < 5 →
    (pattern.toList[k]? = some '1' → v / 2 ^ (4 - k) % 2 = 1) ∧
    (pattern.toList[k]? = some '0' ∨ pattern.toList[k]? = some 'z' → v / 2 ^ (4 - k) % 2 = 0)

/-- The encodings of BO before version 2, ppc-opc.c:316-324. -/
def boOld : List String := ["0000y", "0001y", "001zy", "0100y", "0101y", "011zy", "1z00y", "1z01y", "1z1zz"]

/-- The encodings of BO from version 2 on, ppc-opc.c:341-349. -/
def boNew : List String := ["0000z", "0001z", "001at", "0100z", "0101z", "011at", "1a00t", "1a01t", "1z1zz"]

/-- BO is one of the encodings of the dialect. -/
def boOk (dialect : W) (v : Int) : Prop :=
  (has dialect version2 ∧ ∃ p ∈ boNew, digits p v) ∨ (¬has dialect version2 ∧ ∃ p ∈ boOld, digits p v)

/-- A branch to the count register (major opcode 19, with the bit 0x400 of bcctr) may not decrement it: BO must have the bit 4. -/
def boCounter (insn : W) (v : Int) : Prop := part insn 26 6 = 19 → part insn 10 1 = 1 → v / 4 % 2 = 1

/-- The value is a power of two. -/
def single (v : Int) : Prop := ∃ k : Nat, v = 2 ^ k

/-- A value of 32 bits made of one byte at a place that is a multiple of 8, the other bytes being all zeros or all ones. -/
def oneByte (v : Int) : Prop :=
  ∃ (b k : Nat), b < 256 ∧ k < 4 ∧ (v % 2 ^ 32 = b * 2 ^ (8 * k) ∨ v % 2 ^ 32 = 2 ^ 32 - 1 - (255 - b) * 2 ^ (8 * k))

/-- The 32 bits of a mask, numbered from the left, have `n` ones in a row from bit `a` on, going round at the end, and no other ones. -/
def run (a n : Nat) (v : Int) : Prop := ∀ k : Nat, k < 32 → (v / 2 ^ (31 - k) % 2 = 1 ↔ (k + 32 - a) % 32 < n)

/-- The values that are legal in an instruction, of those in the range of the operand. -/
def Operand.Legal (o : Operand) (insn dialect : W) (v : Int) : Prop :=
  match o.ins with
  | .arx | .ary => 8 ≤ v ∧ v < 24
  | .rx | .ry => v < 8 ∨ 24 ≤ v
  | .bo => boOk dialect v ∧ boCounter insn v
  | .boe => boOk dialect v ∧ boCounter insn v
  | .fxm =>
    -- one register of mfocrf and mtocrf; mfcr takes a mask only when it can be turned into mfocrf
    (part insn 20 1 = 1 → single v) ∧
    (part insn 20 1 = 0 → part insn 1 10 = 19 → single v ∧ (has dialect 0x800#64 ∨ has dialect 0x40#64))
  | .ls => part insn 1 10 = 598 → v ≤ 1 ∨ (v = 2 ∧ has dialect 0x800#64)
  | .esync => v = 0 ∨ part insn 21 2 = 1 - v / 2 % 2
  | .mbe => ∃ a n : Nat, a < 32 ∧ 0 < n ∧ n ≤ 32 ∧ run a n v
  | .nbi =>
    -- registers rt, rt + 1, … (after r31 comes r0) take 4 bytes each; ra is not among them
    ∀ k : Nat, 4 * (k : Int) < (if v = 0 then 32 else v) → (part insn 21 5 + k) % 32 ≠ part insn 16 5
  | .ral => v ≠ 0 ∧ v ≠ part insn 21 5
  | .ram => v < part insn 21 5
  | .raq | .rbx => v ≠ part insn 21 5
  | .ras => v ≠ 0
  | .sci8 => oneByte v
  | .sci8n => oneByte (-v)
  | .sprbat => v < 4 ∨ has dialect 0x2000000000#64
  | .sprg => v < 4 ∨ (v < 8 ∧ has dialect 0x4000400#64)
  | .tbr => v = 268 ∨ v = 269
  | .dm => v = 0 ∨ v = 1
  | .evuimm1Ex0 | .evuimm2Ex0 | .evuimm4Ex0 | .evuimm8Ex0 | .offLsp | .offSpe2 => v ≠ 0
  | .evuimmLt8 => v < 8
  | .evuimmLt16 => v < 16
  | .even => v % 2 = 0
  | _ => True

/-- The value is inserted without error message and extracted again, and the word is recognised as one with this operand. -/
def Operand.RoundTrip (o : Operand) : Prop :=
  ∀ (insn dialect : W) (v : Int), o.Range v → insn &&& bits o.field = 0#64 →
    ∀ w, o.insert insn (BitVec.ofInt 64 v) dialect = some (w, false) →
      ∀ invalid : Int, 0 ≤ invalid → o.extract w dialect invalid = (BitVec.ofInt 64 v, invalid)

/-- The instruction with the bits of the operand cleared. -/
def Operand.without (o : Operand) (insn : W) : W := insn &&& ~~~bits o.field

/-- A word recognised as one with this operand is what the insertion of the extracted value gives. -/
def Operand.Back (o : Operand) : Prop :=
  ∀ (insn dialect : W), (o.extract insn dialect 0).2 = 0 →
    o.insert (o.without insn) (o.extract insn dialect 0).1 dialect = some (insn, false)

end Opc
