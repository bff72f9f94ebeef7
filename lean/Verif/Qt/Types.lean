/-
Shared data types of qtlib.  Models qtlib/qtrace_record.h and qtlib/qtrace.h.

Conventions.  `uintN_t` is `BitVec N`.  `unsigned int` counters (`nr_ptes`, `nr_pte_walks`) and the
`uint32_t` page shifts are `Nat`: the code only compares them with small constants or truncates them to a
byte, so every `uint32_t` value is covered.  A C array is a function from indices; the bounds of the C
object are checked explicitly in the model wherever the code stores through a data-dependent index.
-/
namespace Qt

abbrev Byte := BitVec 8
abbrev Bytes := List Byte

/-- qtlib/qtrace.h:77 `NR_RADIX_PTES`. -/
def NR_RADIX_PTES : Nat := 4
/-- qtlib/qtrace.h:78 `MAX_RADIX_WALKS`. -/
def MAX_RADIX_WALKS : Nat := 5

/-- qtlib/qtrace_record.h:8-16 `enum branch_type`. -/
inductive BranchType where
  | branch | call | ret | addressing | systemCallException | asyncException | exceptionReturn
  deriving DecidableEq, Repr

/-- qtlib/qtrace_record.h:48-52 `enum xlate_type`. -/
inductive XlateType where
  | unspecified | guestReal | hostRadix
  deriving DecidableEq, Repr

/-- qtlib/qtrace_record.h:18-21 `struct qtrace_register_info`. -/
structure RegInfo where
  index : BitVec 16
  value : BitVec 64
  deriving DecidableEq, Repr

/-- qtlib/qtrace_record.h:29-46 `struct qtrace_reg_state`.  Each register array is the list of the entries
that were stored, in order (the remaining C elements are zero).  The 10 counters are kept as `Nat`. -/
structure Regs where
  nrGprsIn : Nat := 0
  nrFprsIn : Nat := 0
  nrVmxsIn : Nat := 0
  nrVsxsIn : Nat := 0
  nrSprsIn : Nat := 0
  nrGprsOut : Nat := 0
  nrFprsOut : Nat := 0
  nrVmxsOut : Nat := 0
  nrVsxsOut : Nat := 0
  nrSprsOut : Nat := 0
  gprsIn : List RegInfo := []
  fprsIn : List RegInfo := []
  sprsIn : List RegInfo := []
  gprsOut : List RegInfo := []
  fprsOut : List RegInfo := []
  sprsOut : List RegInfo := []
  deriving DecidableEq, Repr

/-- qtlib/qtrace_record.h:23-25: capacities of the register arrays. -/
def MAX_GPRS : Nat := 32
def MAX_FPRS : Nat := 3
def MAX_SPRS : Nat := 4

/-- qtlib/qtrace_record.h:54-61 `struct qtrace_radix`
(`host_ptes[5][4]`, `host_real_addrs[4]`, `guest_real_addrs[5]`). -/
structure Radix where
  type : XlateType := .unspecified
  nrPtes : Nat := 0
  nrWalks : Nat := 0
  hostPtes : Nat → Nat → BitVec 64 := fun _ _ => 0
  hostRas : Nat → BitVec 64 := fun _ => 0
  guestRas : Nat → BitVec 64 := fun _ => 0

/-- qtlib/qtrace_record.h:63-121 `struct qtrace_record`.  All defaults are zero, as after `memset`. -/
structure Record where
  insn : BitVec 32 := 0
  insnAddr : BitVec 64 := 0
  insnRaValid : Bool := false
  insnRa : BitVec 64 := 0
  insnPageShiftValid : Bool := false
  insnPageShift : Nat := 0
  dataAddrValid : Bool := false
  dataAddr : BitVec 64 := 0
  dataRaValid : Bool := false
  dataRa : BitVec 64 := 0
  dataPageShiftValid : Bool := false
  dataPageShift : Nat := 0
  branch : Bool := false
  conditionalBranch : Bool := false
  guestInsnPageShiftValid : Bool := false
  guestInsnPageShift : Nat := 0
  guestDataPageShiftValid : Bool := false
  guestDataPageShift : Nat := 0
  radixInsn : Radix := {}
  radixData : Radix := {}
  -- fields below are only populated by the reader
  branchTaken : Bool := false
  branchDirect : Bool := false
  branchType : BranchType := .branch
  regs : Regs := {}
  tlbie : Bool := false
  tlbieLocal : Bool := false
  tlbieRic : BitVec 8 := 0
  tlbiePrs : Bool := false
  tlbieR : Bool := false
  tlbieIs : BitVec 8 := 0
  tlbieSet : BitVec 16 := 0
  tlbiePageShift : Nat := 0
  tlbieAddr : BitVec 64 := 0
  tlbieLpid : BitVec 32 := 0
  tlbiePid : BitVec 32 := 0
  nodeValid : Bool := false
  node : BitVec 8 := 0
  termCode : BitVec 8 := 0
  termNode : BitVec 8 := 0
  nextInsnAddr : BitVec 64 := 0

/-- The record produced by `memset(record, 0, sizeof(*record))`. -/
def Record.zero : Record := {}

/-! ### Big-endian byte order (qtlib/endian-helpers.h): `cpu_to_be*` followed by a store, and a load
followed by `be*_to_cpup`.  Both host byte orders give the same bytes in the file. -/

def be16 (v : BitVec 16) : Bytes := [v.extractLsb' 8 8, v.extractLsb' 0 8]

def be32 (v : BitVec 32) : Bytes :=
  [v.extractLsb' 24 8, v.extractLsb' 16 8, v.extractLsb' 8 8, v.extractLsb' 0 8]

def be64 (v : BitVec 64) : Bytes :=
  [v.extractLsb' 56 8, v.extractLsb' 48 8, v.extractLsb' 40 8, v.extractLsb' 32 8,
   v.extractLsb' 24 8, v.extractLsb' 16 8, v.extractLsb' 8 8, v.extractLsb' 0 8]

def of16 (a b : Byte) : BitVec 16 := a ++ b
def of32 (a b c d : Byte) : BitVec 32 := a ++ b ++ c ++ d
def of64 (a b c d e f g h : Byte) : BitVec 64 := a ++ b ++ c ++ d ++ e ++ f ++ g ++ h

/-- Bit test `flags & mask` used as a C condition. -/
def has (flags mask : BitVec 16) : Bool := flags &&& mask != 0

/-- `if (c) flags |= mask`. -/
def bitIf (c : Bool) (mask : BitVec 16) : BitVec 16 := if c then mask else 0

end Qt
