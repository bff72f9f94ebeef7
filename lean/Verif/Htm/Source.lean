import Verif.Htm.Tlb
import Verif.Htm.Bits
import Verif.Qt.Types
/-!
htm/htm.c: reading the records of a trace (line numbers are of that file).

The file is what `archive_read_data` delivers: its bytes, and whether reading ends with an error instead of the end of the
file; it fills the buffer unless the data ends.  The buffer of line 174 is not initialised: `fill` is what it contains when the last
bytes of the file do not fill it, `phantom` what it contains at the end of the file.  `prev` (105, 180) is kept in the byte
order of the values.  The record number `nr` does not overflow.
-/
namespace Htm

/-- How a decoder may end the program: the assertions of lines 155 and 1938, another assertion, undefined behaviour.
`fuel` is not an outcome of the program (`C26_terminates`). -/
inductive Halt where
  | sameLocation
  | tooManyErrors
  | assert
  | undefined
  | fuel
deriving DecidableEq, Repr

/-- htm.h:31-61: the records of the trace itself. -/
inductive Stamp where
  | record (counter : BitVec 32)
  | complete (elapsed : BitVec 32)
  | pause (elapsed : BitVec 32)
  | mark (group chip unit info : BitVec 32) (dropped : Bool)
  | sync
  | time (indicator : BitVec 32) (elapsed counter : BitVec 32)
deriving DecidableEq, Repr

/-- htm.h:76-122: the counters of `struct htm_decode_stat` that count events one by one. -/
inductive Counter where
  | recordsProcessed | instructionsScanned | instructionsProcessed | timestampsScanned | timestampsProcessed
  | interrupts | branchesAfterNonbranches | withIra | withoutIra | withIVsid | withoutIVsid | withDVsid | withoutDVsid
  | segment (n : BitVec 32) | withIXlate | withoutIXlateErat | withoutIXlatePwc | withoutIXlateIeara
  | withDXlate | withoutDXlateErat | withoutDXlatePwc | dataPages (shift : Nat) | insnPages (shift : Nat)
deriving DecidableEq, Repr

/-- What the decoder does for others to see, in order: calls of the callback with a stamp or an instruction, calls of
`bb_ea_log` and `ppcstats_log_inst`, increments of the statistics, and calls of the translation cache (htm/tlb.c), which keeps its own. -/
inductive Ev where
  | stamp (s : Stamp)
  | insn (r : Qt.Record)
  | ea (a : BitVec 64)
  | inst (a : BitVec 64) (w : BitVec 32)
  | count (c : Counter)
  | cycles (n : BitVec 32)
  | tlb (o : Tlb.Op)

/-- The calls of the functions of htm/tlb.c, in order. -/
def lookups (l : List Ev) : List Tlb.Op := l.filterMap fun
  | .tlb o => some o
  | _ => none

/-- The caller: whether there is a callback and a pointer for it, and the contents of the uninitialised `rec` (1137, 1627). -/
structure Conf where
  fn : Bool
  private_ : Bool
  junk : Qt.Record

/-- `state->fn && state->private_data`. -/
def Conf.full (c : Conf) : Bool := c.fn && c.private_

/-- 98-107, 120: the part of `struct htm_decode_state` that concerns reading, the variable `eof`, and the file. -/
structure Rd where
  bytes : List (BitVec 8)
  failing : Bool
  fill : BitVec 64
  phantom : BitVec 64
  eof : Bool := false
  prev : BitVec 64 := 0
  rewind : Bool := false
  nr : Int := 0
  nrRewind : Int := 0
  offset : BitVec 64 := 0
  checksum : BitVec 64 := 0
  scanned : BitVec 32 := 0
  out : List Ev := []

/-- 184: eight bytes in the order of the file. -/
def word : List (BitVec 8) → BitVec 64
  | [a, b, c, d, e, f, g, h] => Qt.of64 a b c d e f g h
  | _ => 0

/-- 121-145 `htm_read`: `none` is the return value 0 or less. -/
def read (r : Rd) : Option (BitVec 64) × Rd :=
  if r.rewind then (some r.prev, { r with rewind := false, offset := r.offset + 8 })
  else if 8 ≤ r.bytes.length then
    (some (word (r.bytes.take 8)), { r with bytes := r.bytes.drop 8, offset := r.offset + 8 })
  else if r.failing then (none, r)
  else if r.bytes ≠ [] then
    (some (word (r.bytes ++ (Qt.be64 r.fill).drop r.bytes.length)), { r with bytes := [], offset := r.offset + 8 })
  else if r.eof then (none, r)
  else (some r.phantom, { r with eof := true, offset := r.offset + 8 })

/-- 164-166, 192-193: the two halves are added in 32 bits. -/
def sumOf (v : BitVec 64) : BitVec 64 := ((bits v 0 31).setWidth 32 + (bits v 32 63).setWidth 32 : BitVec 32).setWidth 64

/-- 171-200 `htm_decode_fetch_internal`. -/
def fetchInternal (r : Rd) : Option (BitVec 64) × Rd :=
  match read r with
  | (none, r) => (none, r)
  | (some v, r) => (some v, { r with prev := v, nr := r.nr + 1, scanned := r.scanned + 1, checksum := r.checksum + sumOf v })

/-- 147-169 `htm_rewind`. -/
def rewind (r : Rd) (v : BitVec 64) : Except Halt Rd :=
  if r.nrRewind = r.nr then .error .sameLocation
  else .ok { r with offset := r.offset - 8, rewind := true, nrRewind := r.nr, nr := r.nr - 1, scanned := r.scanned - 1, checksum := r.checksum - sumOf v }

def Rd.tell (r : Rd) (e : Ev) : Rd := { r with out := r.out ++ [e] }

/-- `htm_uint32(htm_bits(v, a, b))`, where the field has at most 32 bits. -/
def u32 (v : BitVec 64) (a b : Nat) : BitVec 32 := (bits v a b).setWidth 32

/-- 228-325 and 331-354: the record for a stamp; `none` is -1. -/
def stampOf (v : BitVec 64) : Except Halt (Option Stamp) :=
  let type := u32 v 0 23
  if type = 0xACEFF0 then .ok (some (.record (u32 v 24 31)))
  else if type = 0xACEFF1 then .ok (some (.complete (u32 v 36 63)))
  else if type = 0xACEFF2 then .ok (some (.pause (u32 v 36 63)))
  else if type = 0xACEFF3 then
    if bits v 53 62 ≠ 0 then .error .assert
    else .ok (some (.mark (u32 v 24 27) (u32 v 28 30) (u32 v 31 40) (u32 v 41 52) (bit v 63)))
  else if type = 0xACEFF4 then .ok (some .sync)
  else if type &&& 0xACEFF8 = 0xACEFF8 then
    .ok (some (.time (u32 v 20 27) (if u32 v 20 27 = 0x80 then u32 v 36 63 else 0) (if u32 v 20 27 = 0xA0 then u32 v 28 35 else 0)))
  else .ok none

/-- 299-303, 320-321: what a time stamp adds to the statistics. -/
def timeEvents : Stamp → List Ev
  | .time i e _ => (if i = 0x80 then [Ev.cycles e] else []) ++ [.count .timestampsScanned, .count .timestampsProcessed]
  | _ => []

/-- 327-360 `htm_decode_stamp`: `false` is -1. -/
def stamp (c : Conf) (r : Rd) (v : BitVec 64) : Except Halt (Bool × Rd) :=
  match stampOf v with
  | .error e => .error e
  | .ok none => .ok (false, r.tell (.count .recordsProcessed))
  | .ok (some s) =>
    .ok (true, { r with out := r.out ++ ([Ev.count .recordsProcessed] ++ timeEvents s ++ (if c.fn then [.stamp s] else [])) })

/-- The condition of lines 217 and 1911. -/
def isStamp (v : BitVec 64) : Bool := u32 v 0 19 == 0xaceff

/-- 209-226 `htm_decode_fetch`: `none` is a negative return value.  The recursion reads a record each time; `fuel` bounds it. -/
def fetchLoop (c : Conf) : Nat → Rd → Except Halt (Option (BitVec 64) × Rd)
  | 0, _ => .error .fuel
  | n + 1, r =>
    match fetchInternal r with
    | (none, r) => .ok (none, r)
    | (some v, r) =>
      if isStamp v then
        match stamp c r v with
        | .error e => .error e
        | .ok (false, r) => .ok (none, r)
        | .ok (true, r) => fetchLoop c n r
      else .ok (some v, r)

/-- A bound for the number of records that can still be read. -/
def Rd.left (r : Rd) : Nat := r.bytes.length + (if r.rewind then 1 else 0) + (if r.eof then 0 else 1)

/-- 209-226. -/
def fetch (c : Conf) (r : Rd) : Except Halt (Option (BitVec 64) × Rd) := fetchLoop c (r.left + 1) r

/-- A function that decodes records: what it does next may depend on the records it fetches. -/
inductive Prog (α : Type) where
  | done (a : α)
  | stop (h : Halt)
  /-- `htm_decode_fetch`. -/
  | fetch (k : Option (BitVec 64) → Prog α)
  /-- `htm_rewind`. -/
  | back (v : BitVec 64) (k : Prog α)
  | tell (e : Ev) (k : Prog α)

def Prog.bind {α β : Type} : Prog α → (α → Prog β) → Prog β
  | .done a, f => f a
  | .stop h, _ => .stop h
  | .fetch k, f => .fetch fun v => (k v).bind f
  | .back v k, f => .back v (k.bind f)
  | .tell e k, f => .tell e (k.bind f)

instance : Monad Prog where
  pure := .done
  bind := .bind

/-- Run a function on a trace. -/
def Prog.run {α : Type} (c : Conf) : Prog α → Rd → Except Halt (α × Rd)
  | .done a, r => .ok (a, r)
  | .stop h, _ => .error h
  | .fetch k, r =>
    match Htm.fetch c r with
    | .error h => .error h
    | .ok (v, r) => (k v).run c r
  | .back v k, r =>
    match Htm.rewind r v with
    | .error h => .error h
    | .ok r => k.run c r
  | .tell e k, r => k.run c (r.tell e)

end Htm
