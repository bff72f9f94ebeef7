/-!
Model of the statistics of qtlib/ppcstats.c.  Counters are 64 bits wide, as in the code.
-/
namespace Stats

/-- What the tables of qtlib/ppcstats_private.c contain besides names and counters. -/
structure Tables where
  exceptions : List (BitVec 64)
  syscalls : Nat
  opalcalls : Nat
  hcalls : List (BitVec 64)

/-- ppcstats_private.c:18-47 `exceptions`. -/
def exceptionAddrs : List (BitVec 64) :=
  [0xc00, 0x300, 0x900, 0x400, 0xf20, 0xf40, 0xf60, 0x500, 0x100, 0x200, 0x380, 0x480, 0x600, 0x700, 0x800, 0x980, 0xa00, 0xb00, 0xd00, 0xe00, 0xe20,
   0xe40, 0xe60, 0xe80, 0xea0, 0xf00, 0xf80]

/-- ppcstats_private.c:632-780 `hcalls`. -/
def hcallTokens : List (BitVec 64) :=
  [0, 0x04, 0x08, 0x0c, 0x10, 0x14, 0x18, 0x1c, 0x20, 0x24, 0x28, 0x2c, 0x30, 0x34, 0x38, 0x3c, 0x40, 0x44, 0x48, 0x4c, 0x50, 0x54, 0x58, 0x5c, 0x60, 
0x64, 0x68, 0x6c, 0x70, 0x74, 0x7c, 0x78, 0xDC, 0xE0, 0xE4, 0xE8, 0xEC, 0xF0, 0xF4, 0xF8, 0xFC, 0x100, 0x104, 0x108, 0x110, 0x114, 0x118, 0x11C, 
0x120, 0x124, 0x130, 0x134, 0x138, 0x13C, 0x14C, 0x150, 0x154, 0x158, 0x15C, 0x160, 0x164, 0x168, 0x16C, 0x170, 0x174, 0x178, 0x17C, 0x180, 0x184, 
0x188, 0x18C, 0x190, 0x194, 0x198, 0x19C, 0x1A0, 0x1A4, 0x1A8, 0x1AC, 0x1B0, 0x1B4, 0x1B8, 0x1BC, 0x1C0, 0x1C8, 0x1D4, 0x1E4, 0x1D8, 0x244, 0x250, 
0x254, 0x258, 0x25C, 0x260, 0x264, 0x268, 0x26C, 0x270, 0x274, 0x278, 0x284, 0x288, 0x298, 0x2A4, 0x2A8, 0x2B0, 0x2B8, 0x2D0, 0x2D4, 0x2DC, 0x2EC, 
0x2E0, 0x2E4, 0x2E8, 0x2F4, 0x2FC, 0x300, 0x304, 0x314, 0x31C, 0x328, 0x358, 0x360, 0x36C, 0x370, 0x37C, 0x380, 0x3A8, 0x3AC, 0x3B0, 0x3B4, 0x3B8, 
0x3BC, 0x3C0, 0x3C4, 0x3C8, 0x3CC, 0x3D0, 0x3E4, 0x3E8, 0x3EC, 0x3F0, 0x3F4, 0x3F8, 0x3FC, 0x400, 0x401]

/-- The tables: `syscalls` (lines 56-447) has 390 entries and `opalcalls` (lines 450-622) has 171. -/
def tables : Tables := { exceptions := exceptionAddrs, syscalls := 390, opalcalls := 171, hcalls := hcallTokens }

/-- ppcstats.c:60-85, the fields for the statistics.  The counters in the tables are lists here. -/
structure Stats where
  total : BitVec 64 := 0
  system : BitVec 64 := 0
  opal : BitVec 64 := 0
  user : BitVec 64 := 0
  userlib : BitVec 64 := 0
  userbin : BitVec 64 := 0
  r3 : BitVec 64 := 0
  r0 : BitVec 64 := 0
  idle : BitVec 64 := 0
  mftbLast : BitVec 64 := 0
  mr3131Last : BitVec 64 := 0
  ctxswitch : BitVec 64 := 0
  ctxswitchEa : BitVec 64 := 0
  ctxswitchEaMultiple : BitVec 64 := 0
  exceptions : List (BitVec 64)
  syscalls : List (BitVec 64)
  opalcalls : List (BitVec 64)
  hcalls : List (BitVec 64)
  exceptionnum : BitVec 64 := 0
  syscallnum : BitVec 64 := 0
  opalcallnum : BitVec 64 := 0
  hcallnum : BitVec 64 := 0
  opallast : Bool := false
deriving Repr, DecidableEq

/-- ppcstats.c:95-100: all counters are 0. -/
def init (t : Tables) : Stats :=
  { exceptions := List.replicate t.exceptions.length 0, syscalls := List.replicate t.syscalls 0, opalcalls := List.replicate t.opalcalls 0,
    hcalls := List.replicate t.hcalls.length 0 }

/-- `p[i]++` for an array of counters; `none` is an access outside. -/
def incr (l : List (BitVec 64)) (i : Nat) : Option (List (BitVec 64)) :=
  match l[i]? with
  | some v => some (l.set i (v + 1))
  | none => none

/-- ppcstats.c:184-195: in which part of the address space the instruction is. -/
def space (ea : BitVec 64) (s : Stats) : Stats :=
  if ea ≥ 0xc000000000000000 then { s with system := s.system + 1 }
  else if ea &&& 0xFFFFFFFFFF000000 = 0x0000000030000000 then { s with opal := s.opal + 1 }
  else if ea ≥ 0x700000000000 then { s with user := s.user + 1, userlib := s.userlib + 1 }
  else { s with user := s.user + 1, userbin := s.userbin + 1 }

/-- ppcstats.c:184, 188: the local variable `system`. -/
def isSystem (ea : BitVec 64) : Bool := ea ≥ 0xc000000000000000

/-- ppcstats.c:187, 188: the local variable `opal`. -/
def isOpal (ea : BitVec 64) : Bool := !isSystem ea && ea &&& 0xFFFFFFFFFF000000 == 0x0000000030000000

/-- ppcstats.c:112-118: the position of the first entry with this value. -/
def findFrom (v : BitVec 64) : Nat → List (BitVec 64) → Option Nat
  | _, [] => none
  | i, x :: l => if v = x then some i else findFrom v (i + 1) l

/-- ppcstats.c:102-121 `is_exception_entry`. -/
def exceptionEntry (t : Tables) (ea : BitVec 64) (s : Stats) : Option Stats :=
  if ea &&& 0xfffffffffffff01f ≠ 0xc000000000004000 ∧ ea &&& 0xfffffffffffff01f ≠ 0 then some s
  else
    match findFrom (ea &&& 0xfff) 0 t.exceptions with
    | none => some s
    | some i =>
      match incr s.exceptions i with
      | none => none
      | some l => some { s with exceptionnum := s.exceptionnum + 1, exceptions := l }

/-- ppcstats.c:202-209: what is known of the registers r0 and r3. -/
def registers (insn : BitVec 32) (s : Stats) : Stats :=
  let s := if insn &&& 0xffff0000 = 0x38600000 then { s with r3 := (insn &&& 0x0000ffff).setWidth 64 } else s
  let s := if insn = 0x7c601b78 then { s with r0 := s.r3 } else s
  if insn &&& 0xffff0000 = 0x38000000 then { s with r0 := (insn &&& 0x0000ffff).setWidth 64 } else s

/-- ppcstats.c:212-214, 231-233: a number that is too large stands for the last entry. -/
def clamp (c : BitVec 64) (n : Nat) : Nat := if c.toNat ≥ n then n - 1 else c.toNat

/-- ppcstats.c:210-216. -/
def syscall (t : Tables) (insn : BitVec 32) (s : Stats) : Option Stats :=
  if insn = 0x44000002 then
    match incr s.syscalls (clamp s.r0 t.syscalls) with
    | none => none
    | some l => some { s with syscallnum := s.syscallnum + 1, syscalls := l }
  else some s

/-- ppcstats.c:123-132 `hcall_find`.  The token is a 32 bit number. -/
def hcallFind (t : Tables) (token : BitVec 32) : Nat := (findFrom (token.setWidth 64) 0 t.hcalls).getD (t.hcalls.length - 1)

/-- ppcstats.c:219-223, 134-139. -/
def hcall (t : Tables) (insn : BitVec 32) (s : Stats) : Option Stats :=
  if insn = 0x44000022 then
    match incr s.hcalls (hcallFind t (s.r3.setWidth 32)) with
    | none => none
    | some l => some { s with hcallnum := s.hcallnum + 1, hcalls := l }
  else some s

/-- ppcstats.c:229-235. -/
def opalcall (t : Tables) (ea : BitVec 64) (s : Stats) : Option Stats :=
  if isOpal ea = true ∧ s.opallast = false then
    match incr s.opalcalls (clamp s.r0 t.opalcalls) with
    | none => none
    | some l => some { s with opalcallnum := s.opalcallnum + 1, opalcalls := l }
  else some s

/-- ppcstats.c:239-246. -/
def context (ea : BitVec 64) (insn : BitVec 32) (s : Stats) : Stats :=
  if isSystem ea = true ∧ insn &&& 0xfe1fffff = 0x7c0042a6 then
    let s := { s with ctxswitch := s.ctxswitch + 1 }
    let s := if s.ctxswitchEa = 0 then { s with ctxswitchEa := ea } else s
    if ea ≠ s.ctxswitchEa then { s with ctxswitchEaMultiple := s.ctxswitchEaMultiple + 1 } else s
  else s

/-- ppcstats.c:250-256 and 258-264: `i` has 32 bits. -/
def idleFor (since : BitVec 64) (s : Stats) : Stats :=
  let i : BitVec 32 := (s.total - since).setWidth 32
  if i < 10 then { s with idle := s.idle + i.setWidth 64 } else s

/-- ppcstats.c:250-256. -/
def mftb (ea : BitVec 64) (insn : BitVec 32) (s : Stats) : Stats :=
  if isSystem ea = true ∧ insn &&& 0xfc1fffff = 0x7c0c42a6 then { idleFor s.mftbLast s with mftbLast := s.total } else s

/-- ppcstats.c:258-264. -/
def mr3131 (ea : BitVec 64) (insn : BitVec 32) (s : Stats) : Stats :=
  if isSystem ea = true ∧ insn = 0x7ffffb78 then { idleFor s.mr3131Last s with mr3131Last := s.total } else s

/-- ppcstats.c:177-268 `ppcstats_log_inst_stats`. -/
def logStats (t : Tables) (ea : BitVec 64) (insn : BitVec 32) (s : Stats) : Option Stats :=
  match exceptionEntry t ea (space ea s) with
  | none => none
  | some s =>
    match syscall t insn (registers insn s) with
    | none => none
    | some s =>
      match hcall t insn s with
      | none => none
      | some s =>
        match opalcall t ea s with
        | none => none
        | some s => some { mr3131 ea insn (mftb ea insn (context ea insn s)) with opallast := isOpal ea }

/-- An instruction that was executed. -/
structure Insn where
  ea : BitVec 64
  insn : BitVec 32
deriving Repr, DecidableEq

/-- ppcstats.c:318-326 `ppcstats_log_inst` with statistics. -/
def log (t : Tables) (s : Stats) (x : Insn) : Option Stats := logStats t x.ea x.insn { s with total := s.total + 1 }

/-- A trace. -/
def run (t : Tables) (s : Stats) : List Insn → Option Stats
  | [] => some s
  | x :: l =>
    match log t s x with
    | none => none
    | some s => run t s l

end Stats
