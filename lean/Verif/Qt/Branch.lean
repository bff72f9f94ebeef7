/-
Branch predicates and encoders.  Models qtlib/branch.h (line numbers below are of that file).
-/
namespace Qt

/-- branch.h:15 and qtreader.c:413 `OPCODE(insn)`. -/
def opcode (insn : BitVec 32) : BitVec 32 := insn >>> 26
/-- branch.h:16 and qtreader.c:414 `SUB_OPCODE(insn)`. -/
def subOpcode (insn : BitVec 32) : BitVec 32 := (insn >>> 1) &&& 0x3ff
/-- branch.h:17 and qtreader.c:419 `BO(insn)`. -/
def fieldBO (insn : BitVec 32) : BitVec 32 := (insn >>> 21) &&& 0x1f

/-- branch.h:24-27 `branch_conditional_is_conditional`. -/
def branchConditionalIsConditional (insn : BitVec 32) : Bool :=
  (fieldBO insn &&& 0x14) != 0x14

/-- branch.h:29-50 `is_conditional_branch`. -/
def isConditionalBranch (insn : BitVec 32) : Bool :=
  if opcode insn == 16 && branchConditionalIsConditional insn then true
  else if opcode insn == 19 then
    if subOpcode insn == 16 || subOpcode insn == 528 || subOpcode insn == 560 then
      branchConditionalIsConditional insn
    else false
  else false

/-- branch.h:52-84 `is_unconditional_branch`. -/
def isUnconditionalBranch (insn : BitVec 32) : Bool :=
  if opcode insn == 16 && !branchConditionalIsConditional insn then true
  else if opcode insn == 17 || opcode insn == 18 then true
  else if opcode insn == 19 then
    if subOpcode insn == 16 || subOpcode insn == 528 || subOpcode insn == 560 then
      !branchConditionalIsConditional insn
    else if subOpcode insn == 50 || subOpcode insn == 18 || subOpcode insn == 274
        || subOpcode insn == 82 then true
    else false
  else false

/-- branch.h:86-92 `is_branch`. -/
def isBranch (insn : BitVec 32) : Bool := isConditionalBranch insn || isUnconditionalBranch insn

/-- branch.h:94-114 `is_offset_in_branch_range`; `long` comparison is signed. -/
def isOffsetInBranchRange (offset : BitVec 64) : Bool :=
  decide (-0x2000000 ≤ offset.toInt) && decide (offset.toInt ≤ 0x1fffffc) && (offset &&& 3 == 0)

/-- branch.h:116-134 `create_branch`.  `flags` is an `int` of which only the low bits are used; the caller
passes the instruction word. -/
def createBranch (addr target : BitVec 64) (flags : BitVec 32) : BitVec 32 :=
  let offset := if flags &&& 2 == 0 then target - addr else target
  if isOffsetInBranchRange offset then
    0x48000000 ||| (flags &&& 3) ||| (offset.setWidth 32 &&& 0x03FFFFFC)
  else 0

/-- branch.h:136-154 `create_cond_branch`. -/
def createCondBranch (addr target : BitVec 64) (flags : BitVec 32) : BitVec 32 :=
  let offset := if flags &&& 2 == 0 then target - addr else target
  if decide (offset.toInt < -0x8000) || decide (offset.toInt > 0x7FFF) || (offset &&& 3 != 0) then 0
  else 0x40000000 ||| (flags &&& 0x3FF0003) ||| (offset.setWidth 32 &&& 0xFFFC)

/-- branch.h:156-169 `branch_opcode`, `instr_is_branch_iform`, `instr_is_branch_bform`. -/
def branchOpcode (instr : BitVec 32) : BitVec 32 := (instr >>> 26) &&& 0x3F
def isIform (instr : BitVec 32) : Bool := branchOpcode instr == 18
def isBform (instr : BitVec 32) : Bool := branchOpcode instr == 16

/-- branch.h:171-182 `branch_iform_target`. -/
def branchIformTarget (instr : BitVec 32) : BitVec 64 :=
  let imm : BitVec 64 := (instr &&& 0x3FFFFFC).setWidth 64
  if imm &&& 0x2000000 != 0 then imm - 0x4000000 else imm

/-- branch.h:184-195 `branch_bform_target`. -/
def branchBformTarget (instr : BitVec 32) : BitVec 64 :=
  let imm : BitVec 64 := (instr &&& 0xFFFC).setWidth 64
  if imm &&& 0x8000 != 0 then imm - 0x10000 else imm

/-- branch.h:197-205 `has_branch_target`. -/
def hasBranchTarget (instr : BitVec 32) : Bool := isIform instr || isBform instr

/-- branch.h:207-212 `is_branch_absolute`. -/
def isBranchAbsolute (instr : BitVec 32) : Bool := instr &&& 2 != 0

/-- branch.h:214-228 `branch_target`.  Line 222 passes `pc` (truncated to `unsigned int`), not `instr`, to
`is_branch_absolute`; the model keeps that. -/
def branchTarget (instr : BitVec 32) (pc : BitVec 64) : BitVec 64 :=
  if hasBranchTarget instr then
    let addr := if isIform instr then branchIformTarget instr else branchBformTarget instr
    if isBranchAbsolute (pc.setWidth 32) then addr else addr + pc
  else 0

/-- branch.h:230-238 `set_branch_target`. -/
def setBranchTarget (insn : BitVec 32) (iaddr btarget : BitVec 64) : BitVec 32 :=
  if isIform insn then createBranch iaddr btarget insn
  else if isBform insn then createCondBranch iaddr btarget insn
  else insn

end Qt
