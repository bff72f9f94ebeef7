import Verif.Qt.Types
/-
The trace writer.  Models qtlib/qtwriter.c (line numbers below are of that file).

The mapped output file is the list of bytes stored so far (`out`, i.e. `ptr - mem` bytes); the rest of the
mapping is zero.  `fallocate`/`ftruncate`/`mremap` may fail: each call takes the outcome as a parameter.
-/
namespace Qt

/-- Outcome of writer code: normal, failed `assert`, or undefined behaviour (shift by ≥ 64). -/
inductive WRes (α : Type) where
  | ok (a : α)
  | abort
  | ub
  deriving Repr, DecidableEq

def WRes.bind {α β} : WRes α → (α → WRes β) → WRes β
  | .ok a, f => f a
  | .abort, _ => .abort
  | .ub, _ => .ub

instance : Monad WRes where
  pure := .ok
  bind := WRes.bind

/-- qtwriter.c:44. -/
def QTWRITER_VERSION : BitVec 32 := 0x7010000
/-- qtwriter.c:51. -/
def BUFFER : Nat := 128 * 1024

/-- What the writer decides to store for one radix walk. -/
inductive Walk where
  | none
  | single (guestReal : Bool)
  | nested
  deriving DecidableEq, Repr

/-- The three copies of the walk test: qtwriter.c:142-160 (header), 301-322 (data), 334-356 (instruction):
a single walk must have a type, a nested one must fit the arrays, otherwise an assertion fails. -/
def radixWalk (x : Radix) : WRes Walk :=
  if x.nrPtes ≠ 0 ∧ x.nrWalks = 1 then
    match x.type with
    | .guestReal => .ok (.single true)
    | .hostRadix => .ok (.single false)
    | .unspecified => .abort
  else if x.nrPtes ≠ 0 ∧ x.nrWalks > 1 then
    if x.nrPtes ≤ NR_RADIX_PTES ∧ x.nrWalks ≤ MAX_RADIX_WALKS then .ok .nested else .abort
  else .ok .none

/-- `put8(state, val)` of an `unsigned int`, truncated to a byte (qtwriter.c:90-95). -/
def put8n (n : Nat) : Bytes := [BitVec.ofNat 8 n]

/-- `for (i = 0; i < n; i++) put64(f[i])`. -/
def putArr (n : Nat) (f : Nat → BitVec 64) : Bytes := (List.range n).flatMap fun i => be64 (f i)

/-- The page-walk payload, qtwriter.c:193-215, 412-434, 446-468 (three identical copies). -/
def walkBytes (w : Walk) (x : Radix) : Bytes :=
  match w with
  | .none => []
  | .single _ => putArr NR_RADIX_PTES (x.hostPtes 0)
  | .nested =>
    put8n x.nrPtes ++ put8n x.nrWalks
      ++ (List.range x.nrWalks).flatMap (fun i => putArr x.nrPtes (x.hostPtes i))
      ++ putArr (x.nrWalks - 1) x.hostRas
      ++ putArr x.nrWalks x.guestRas

/-- `uint8_t pshift = 16; if (valid) pshift = page_shift; put32(ra >> pshift)`:
qtwriter.c:217-224, 410 and 437-440, 470-477.  A shift count of 64 or more is undefined. -/
def rpnBytes (ra : BitVec 64) (shiftValid : Bool) (shift : Nat) : WRes Bytes :=
  let p := if shiftValid then shift % 256 else 16
  if p < 64 then .ok (be32 ((ra >>> p).setWidth 32)) else .ub

/-- Header mode bits, qtwriter.c:141-160. -/
def hdrFlags3 (w : Walk) : BitVec 16 :=
  match w with
  | .none => 0
  | .single true => (0 <<< 10) ||| (1 <<< 8)
  | .single false => (0 <<< 10) ||| (3 <<< 8)
  | .nested => (0 <<< 10) ||| (0 <<< 8)

/-- qtwriter.c:165-180. -/
def hdrFlags (magic version : BitVec 32) (r : Record) : BitVec 16 :=
  0x2000 ||| bitIf r.insnRaValid 0x0800 ||| bitIf r.insnPageShiftValid 0x0040
    ||| bitIf r.guestInsnPageShiftValid 0x0010 ||| bitIf (version != 0) 0x4000 ||| bitIf (magic != 0) 0x8000

/-- `if (c) put...`. -/
def putIf (c : Bool) (b : Bytes) : Bytes := if c then b else []

/-- `put32(ra >> pshift)` guarded by a validity flag. -/
def putRpnIf (c : Bool) (ra : BitVec 64) (shiftValid : Bool) (shift : Nat) : WRes Bytes :=
  if c then rpnBytes ra shiftValid shift else .ok []

/-- The walk test guarded by a validity flag (qtwriter.c:301, 334). -/
def walkIf (c : Bool) (x : Radix) : WRes Walk := if c then radixWalk x else .ok .none

/-- qtwriter.c:122-233 `qtwriter_write_header`. -/
def headerBytes (magic version : BitVec 32) (r : Record) : WRes Bytes := do
  let w ← radixWalk r.radixInsn
  let rpn ← putRpnIf r.insnRaValid r.insnRa r.insnPageShiftValid r.insnPageShift
  return be32 0 ++ be16 0x0001
    ++ be16 (0x0002 ||| bitIf (r.radixInsn.nrPtes != 0) 0x0001)
    ++ putIf (w != .none) (be16 (hdrFlags3 w))
    ++ be16 (hdrFlags magic version r)
    ++ putIf (magic != 0) (be32 magic)
    ++ putIf (version != 0) (be32 version)
    ++ be64 r.insnAddr
    ++ walkBytes w r.radixInsn
    ++ rpn
    ++ putIf r.insnPageShiftValid (put8n r.insnPageShift)
    ++ putIf r.guestInsnPageShiftValid (put8n r.guestInsnPageShift)

/-- qtwriter.c:292-293 `iar_change`. -/
def iarChange (prev cur : Record) : Bool := cur.insnAddr != prev.insnAddr + 4
/-- qtwriter.c:288-290 `is_branch`. -/
def writeIsBranch (prev cur : Record) : Bool := prev.branch || iarChange prev cur

/-- `flags`, qtwriter.c:282-370. -/
def recFlags (prev cur : Record) : BitVec 16 :=
  0x0001 ||| bitIf prev.dataAddrValid 0x0800 ||| bitIf prev.dataRaValid 0x0200
    ||| bitIf (cur.insnRaValid && iarChange prev cur) 0x0010
    ||| bitIf (writeIsBranch prev cur) (0x4000 ||| 0x2000)
    ||| bitIf (iarChange prev cur) (0x8000 ||| 0x0040)

/-- `flags2`, qtwriter.c:284-363. -/
def recFlags2 (prev cur : Record) (dw iw : Walk) : BitVec 16 :=
  bitIf (dw != .none) 0x0001 ||| bitIf (iw != .none) 0x0001
    ||| bitIf prev.dataPageShiftValid 0x0100 ||| bitIf prev.guestDataPageShiftValid 0x0004
    ||| bitIf (cur.insnPageShiftValid && iarChange prev cur) 0x0200
    ||| bitIf (cur.guestInsnPageShiftValid && iarChange prev cur) 0x0008

/-- `flags3`, qtwriter.c:285-357.  Lines 342 and 344 put the guest mode of the *instruction* walk into the
*data* field (shift 12), line 340 always stores `NOT_DEFINED` for the instruction. -/
def recFlags3 (dw iw : Walk) : BitVec 16 :=
  (match dw with
    | .none => 0
    | .single true => (0 <<< 14) ||| (1 <<< 12)
    | .single false => (0 <<< 14) ||| (3 <<< 12)
    | .nested => (0 <<< 14) ||| (0 <<< 12)) |||
  (match iw with
    | .none => 0
    | .single true => (0 <<< 10) ||| (3 <<< 8) ||| (1 <<< 12)
    | .single false => (0 <<< 10) ||| (3 <<< 8) ||| (3 <<< 12)
    | .nested => (0 <<< 10) ||| (0 <<< 8))

/-- qtwriter.c:391-400. -/
def termCodeOf (prev : Record) : BitVec 8 :=
  if prev.branch then (if prev.conditionalBranch then 0x80 else 0x08) else 0x10

/-- qtwriter.c:282-492: the bytes stored for `prev` once its successor `cur` is known. -/
def recordBytes (prev cur : Record) : WRes Bytes := do
  let chg := iarChange prev cur
  let dw ← walkIf prev.dataRaValid prev.radixData
  let iw ← walkIf (cur.insnRaValid && chg) cur.radixInsn
  let drpn ← putRpnIf prev.dataRaValid prev.dataRa prev.dataPageShiftValid prev.dataPageShift
  let irpn ← putRpnIf (cur.insnRaValid && chg) cur.insnRa cur.insnPageShiftValid cur.insnPageShift
  return be32 prev.insn ++ be16 (recFlags prev cur) ++ be16 (recFlags2 prev cur dw iw)
    ++ putIf (dw != .none || iw != .none) (be16 (recFlags3 dw iw))
    ++ putIf (writeIsBranch prev cur) [0, 0, termCodeOf prev]
    ++ putIf prev.dataAddrValid (be64 prev.dataAddr)
    ++ walkBytes dw prev.radixData
    ++ drpn
    ++ putIf chg (be64 cur.insnAddr)
    ++ walkBytes iw cur.radixInsn
    ++ irpn
    ++ putIf (cur.insnPageShiftValid && chg) (put8n cur.insnPageShift)
    ++ putIf (cur.guestInsnPageShiftValid && chg) (put8n cur.guestInsnPageShift)
    ++ putIf prev.dataPageShiftValid (put8n prev.dataPageShift)
    ++ putIf prev.guestDataPageShiftValid (put8n prev.guestDataPageShift)

/-- qtlib/qtwriter.h:13-22 `struct qtwriter_state`; `out.length` is `ptr - mem`, `mapped` is `size`. -/
structure WState where
  version : BitVec 32
  magic : BitVec 32
  prev : Record
  headerWritten : Bool
  mapped : Nat
  out : Bytes

/-- qtwriter.c:53-88 `qtwriter_open` (when the system calls succeed). -/
def writerOpen (magic : BitVec 32) : WState :=
  { version := QTWRITER_VERSION, magic := magic, prev := .zero, headerWritten := false,
    mapped := BUFFER, out := [] }

/-- qtwriter.c:235-497 `qtwriter_write_record`.  `growOk` is the outcome of growing the file and the mapping
if that is attempted (lines 252-262); on failure the call returns false and changes nothing. -/
def writeRecord (s : WState) (r : Record) (growOk : Bool) : WRes (Bool × WState) :=
  if s.out.length + BUFFER > s.mapped && !growOk then .ok (false, s)
  else
    let mapped := if s.out.length + BUFFER > s.mapped then s.mapped + BUFFER else s.mapped
    if s.headerWritten = false then do
      let b ← headerBytes s.magic s.version r
      return (true, { s with mapped := mapped, out := s.out ++ b, headerWritten := true, prev := r })
    else do
      let b ← recordBytes s.prev r
      return (true, { s with mapped := mapped, out := s.out ++ b, prev := r })

/-- qtwriter.c:536-553 `qtwriter_close`: flush with a zero record at the next address, whose result is
ignored, then truncate the file to the bytes stored.  Returns the final file contents. -/
def writerClose (s : WState) (growOk : Bool) : WRes Bytes := do
  let (_, s') ← writeRecord s { Record.zero with insnAddr := s.prev.insnAddr + 4 } growOk
  return s'.out

/-- A sequence of write calls, all of which succeed in growing the file. -/
def writeAll (s : WState) : List Record → WRes WState
  | [] => .ok s
  | r :: rs => do
    let (_, s') ← writeRecord s r true
    writeAll s' rs

/-- Open, write every record, close: the resulting file. -/
def writeTrace (magic : BitVec 32) (rs : List Record) : WRes Bytes := do
  let s ← writeAll (writerOpen magic) rs
  writerClose s true

/-- Any history of write calls, each with the outcome of growing the file should it be attempted; also
returns what each call returned. -/
def runWrites (s : WState) : List (Record × Bool) → WRes (List Bool × WState)
  | [] => .ok ([], s)
  | (r, g) :: h => do
    let (b, s') ← writeRecord s r g
    let (bs, s'') ← runWrites s' h
    return (b :: bs, s'')

/-- The file left behind if the process dies between two calls: the mapped file is at least as large as the
mapping (`mremap` may have failed after the file was grown), and bytes never stored are zero. -/
def crashFile (s : WState) (extra : Nat) : Bytes :=
  s.out ++ List.replicate (s.mapped - s.out.length + extra) 0

end Qt
