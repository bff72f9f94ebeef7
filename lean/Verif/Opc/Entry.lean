import Verif.Opc.Model
import Verif.Opc.Tables

/-! Instructions built from an entry of the opcode tables and the values of its operands. -/
namespace Opc

/-- The three opcode tables, ppc-opc.c:3533-9399. -/
def entries : List Opcode := mainTable.flatten ++ vleTable.flatten ++ spe2Table.flatten

/-- The operand with a given code: "each code is an index into the operand table", ppc.h:60-61. -/
def operandAt (code : Nat) : Operand := operands.getD code ⟨"UNUSED", 0#64, some 0, .null, .null, 0⟩

/-- The operands of an entry in the order of assembly code, ppc.h:60-63. -/
def Opcode.args (e : Opcode) : List Operand := e.operands.map operandAt

/-- Operands are put one after the other into the instruction (ppc.h:262-280): the new word, and whether one of the insertion functions has set the error
message.  The word after an error is kept because "the operand will be inserted in any case".  The assembler that does this is not part of the project. -/
def fill (dialect insn : W) : List (Operand × Int) → Inserted
  | [] => some (insn, false)
  | (o, v) :: rest => do
    let (w, error) ← o.insert insn (BitVec.ofInt 64 v) dialect
    let (w', error') ← fill dialect w rest
    return (w', error || error')

/-- An instruction belongs to an entry: `(insn & opcode->mask) == opcode->opcode`, ppc.h:41-49 and ppcstats. -/
def Opcode.matches (e : Opcode) (insn : W) : Prop := insn &&& BitVec.ofNat 64 e.mask = BitVec.ofNat 64 e.opcode

end Opc
