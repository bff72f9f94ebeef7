import Verif.Stats.Stats
import Verif.Stats.Opcodes
/-!
Model of the instruction mix of qtlib/ppcstats.c.
-/
namespace Stats

/-- ppc.h:35-66 `struct powerpc_opcode_qt`, the fields used by ppcstats.c.  `opcode` and `mask` are 64 bits wide in the code and cast to 32 bits where
they are compared (ppcstats.c:299); all values of the table are below 2^32. -/
structure Entry where
  opcode : BitVec 32
  mask : BitVec 32
  flags : BitVec 64
deriving Repr, DecidableEq

/-- ppcstats.c:54-57 `DIALECT` with the values of ppc.h. -/
def dialect : BitVec 64 := 0x11018502909

/-- ppcstats.c:299-300. -/
def Entry.fits (insn : BitVec 32) (e : Entry) : Bool := insn &&& e.mask == e.opcode && e.flags &&& dialect != 0

/-- ppcstats.c:48-51 `struct opcode_major`.  `none` is the start -1: converted to unsigned it is larger than any end, so nothing is searched. -/
structure Major where
  start : Option Nat
  stop : Nat
deriving Repr, DecidableEq

/-- ppcstats.c:166, 291: the major opcode. -/
def majorOf (x : BitVec 32) : Nat := (x >>> 26).toNat

/-- ppcstats.c:162-173, for entry `i`. -/
def enter (m : Nat → Major) (i : Nat) (e : Entry) : Nat → Major := fun p =>
  if p = majorOf e.opcode then { start := some ((m p).start.getD i), stop := i } else m p

/-- ppcstats.c:162-174: the loop. -/
def enterAll : List Entry → Nat → (Nat → Major) → Nat → Major
  | [], _, m => m
  | e :: l, i, m => enterAll l (i + 1) (enter m i e)

/-- ppcstats.c:160-174: the loop leaves out the last entry of the table. -/
def majors (tbl : List Entry) : Nat → Major := enterAll tbl.dropLast 0 fun _ => { start := none, stop := 0 }

/-- ppcstats.c:296-315: search `n` entries from entry `i`; the outer `none` is an access outside the table. -/
def search (tbl : List Entry) (insn : BitVec 32) : (n : Nat) → (i : Nat) → Option (Option Nat)
  | 0, _ => some none
  | n + 1, i =>
    match tbl[i]? with
    | none => none
    | some e => if e.fits insn then some (some i) else search tbl insn n (i + 1)

/-- ppcstats.c:296: how many entries are searched. -/
def Major.count (m : Major) : Nat :=
  match m.start with
  | none => 0
  | some st => m.stop + 1 - st

/-- ppcstats.c:291-296. -/
def classify (tbl : List Entry) (m : Nat → Major) (insn : BitVec 32) : Option (Option Nat) :=
  search tbl insn (m (majorOf insn)).count ((m (majorOf insn)).start.getD 0)

/-- ppcstats.c:87-92.  The hash table `cache` is a function from keys to values: it is only searched and added to, which Htable/Map.lean shows to behave
like this. -/
structure Imix where
  counts : List (BitVec 64)
  unknown : BitVec 64 := 0
  cache : BitVec 32 → Option Nat := fun _ => none
  hits : BitVec 64 := 0
  misses : BitVec 64 := 0

/-- ppcstats.c:95-100, 157: no instruction is counted. -/
def Imix.init (tbl : List Entry) : Imix := { counts := List.replicate tbl.length 0 }

/-- ppcstats.c:285-289: the opcode is in the cache. -/
def Imix.hit (s : Imix) (i : Nat) : Option Imix :=
  match incr s.counts i with
  | none => none
  | some c => some { s with counts := c, hits := s.hits + 1 }

/-- ppcstats.c:291-318: the opcode is not in the cache. -/
def Imix.miss (tbl : List Entry) (m : Nat → Major) (s : Imix) (insn : BitVec 32) : Option Imix :=
  match classify tbl m insn with
  | none => none
  | some none => some { s with misses := s.misses + 1, unknown := s.unknown + 1 }
  | some (some i) =>
    match incr s.counts i with
    | none => none
    | some c => some { s with misses := s.misses + 1, counts := c, cache := fun w => if w = insn then some i else s.cache w }

/-- ppcstats.c:270-319 `ppcstats_log_inst_imix`. -/
def Imix.log (tbl : List Entry) (m : Nat → Major) (s : Imix) (insn : BitVec 32) : Option Imix :=
  match s.cache insn with
  | some i => s.hit i
  | none => s.miss tbl m insn

/-- A trace. -/
def Imix.run (tbl : List Entry) (m : Nat → Major) (s : Imix) : List (BitVec 32) → Option Imix
  | [] => some s
  | w :: l =>
    match s.log tbl m w with
    | none => none
    | some s => s.run tbl m l

/-- One entry of the table of the code. -/
def entry (e : Nat × Nat × Nat) : Entry := { opcode := BitVec.ofNat 32 e.1, mask := BitVec.ofNat 32 e.2.1, flags := BitVec.ofNat 64 e.2.2 }

/-- ppc-opc.c:3532-7580: the table of the code. -/
def opcodeTable : List Entry := opcodes.map entry

end Stats
