import Verif.Qt.Types
import Verif.Qt.Branch
/-
The trace reader.  Models qtlib/qtreader.c (line numbers below are of that file).

The trace is the byte list `mem.bytes`; what lies in memory after its last byte is `mem.beyond`, an
arbitrary function, because line 656 fetches a word without a bounds check.  The ghost field `overread`
records that such a fetch touched a byte outside the trace.  All other fetches go through the GET macros.

Outcomes: normal return, `return false` (`fail`), failed `assert` (`abort`), undefined behaviour (`ub`:
store outside a fixed-size array, or shift by 64 or more).  After `fail` the contents of partially filled
arrays are not modelled (callers stop using the record).
-/
namespace Qt

structure Mem where
  bytes : Bytes
  beyond : Nat → Byte

/-- qtlib/qtreader.h:16-57 `struct qtreader_state`: `pos` is `ptr - mem`.  The unused fields
`data_page_shift*`, `radix_data`, `next_radix_data`, `fd`, `verbose` are omitted. `wantBranch`/`wantTlbie`
are the two bits of `flags` (qtreader.h:13-14). -/
structure RState where
  pos : Nat := 0
  version : BitVec 32 := 0
  magic : BitVec 32 := 0
  nextInsnAddr : BitVec 64 := 0
  nextInsnRpn : BitVec 32 := 0
  nextInsnRpnValid : Bool := false
  nextInsnPageShift : Nat := 0
  nextInsnPageShiftValid : Bool := false
  wantBranch : Bool := false
  wantTlbie : Bool := false
  prefixed : Bool := false
  suffix : BitVec 32 := 0
  insnRpnValid : Bool := false
  insnRpn : BitVec 32 := 0
  insnPageShiftValid : Bool := false
  insnPageShift : Nat := 0
  dataRpnValid : Bool := false
  dataRpn : BitVec 32 := 0
  guestInsnPageShiftValid : Bool := false
  guestInsnPageShift : Nat := 0
  nextGuestInsnPageShift : Nat := 0
  nextGuestInsnPageShiftValid : Bool := false
  lpidPresent : Bool := false
  lpid : BitVec 32 := 0
  pidPresent : Bool := false
  pid : BitVec 32 := 0
  radixInsn : Radix := {}
  nextRadixInsn : Radix := {}
  overread : Bool := false

/-- Reader state together with the record being filled. -/
structure Ctx where
  st : RState
  rcd : Record

/-- How a reader call can fail to return a record: a reported failure, a call of `abort`, a shift by the width of
the operand or more, a store outside an array. -/
inductive Err where
  | fail | abort | ub | oob
  deriving DecidableEq, Repr

inductive Out (α : Type) where
  | ok (a : α) (c : Ctx)
  | err (e : Err) (c : Ctx)

/-- Reader computations. -/
def Rd (α : Type) := Mem → Ctx → Out α

def Rd.bind {α β} (x : Rd α) (f : α → Rd β) : Rd β := fun m c =>
  match x m c with
  | .ok a c' => f a m c'
  | .err e c' => .err e c'

instance : Monad Rd where
  pure a := fun _ c => .ok a c
  bind := Rd.bind

def throwErr {α} (e : Err) : Rd α := fun _ c => .err e c
def modSt (f : RState → RState) : Rd Unit := fun _ c => .ok () { c with st := f c.st }
def modRec (f : Record → Record) : Rd Unit := fun _ c => .ok () { c with rcd := f c.rcd }
def getCtx : Rd Ctx := fun _ c => .ok c c
/-- `if (c) { x }`. -/
def whenR (c : Bool) (x : Rd Unit) : Rd Unit := if c then x else pure ()

def advance (c : Ctx) (n : Nat) : Ctx := { c with st := { c.st with pos := c.st.pos + n } }

/-- qtreader.c:29-38 `GET8`. -/
def get8 : Rd Byte := fun m c =>
  match m.bytes.drop c.st.pos with
  | a :: _ => .ok a (advance c 1)
  | _ => .err .fail c

/-- qtreader.c:40-49 `GET16`. -/
def get16 : Rd (BitVec 16) := fun m c =>
  match m.bytes.drop c.st.pos with
  | a :: b :: _ => .ok (of16 a b) (advance c 2)
  | _ => .err .fail c

/-- qtreader.c:51-60 `GET32`. -/
def get32 : Rd (BitVec 32) := fun m c =>
  match m.bytes.drop c.st.pos with
  | a :: b :: d :: e :: _ => .ok (of32 a b d e) (advance c 4)
  | _ => .err .fail c

/-- qtreader.c:62-71 `GET64`. -/
def get64 : Rd (BitVec 64) := fun m c =>
  match m.bytes.drop c.st.pos with
  | a :: b :: d :: e :: f :: g :: h :: i :: _ => .ok (of64 a b d e f g h i) (advance c 8)
  | _ => .err .fail c

/-- qtreader.c:73-80 `SKIP`. -/
def skipN (n : Nat) : Rd Unit := fun m c =>
  if c.st.pos + n > m.bytes.length then .err .fail c else .ok () (advance c n)

/-- A GET8 whose result is kept as an unsigned integer. -/
def get8n : Rd Nat := do let b ← get8; return b.toNat

/-- Mode field of `flags3` (qtreader.c:87-91 and the five copies of it). -/
def modeField (flags3 : BitVec 16) (shift : Nat) : BitVec 16 := (flags3 >>> shift) &&& 3

/-- qtreader.c:82-102, 126-168, 192-212 `get_radix_{insn,data}_{walks,ptes}`: a byte from the trace for
radix on radix (0 if the trace ends there), `dflt` for host radix with another guest mode, else 0. -/
def getRadixCount (hostShift guestShift dflt : Nat) (flags3 : BitVec 16) : Rd Nat := fun m c =>
  if modeField flags3 hostShift = 0 ∧ modeField flags3 guestShift = 0 then
    match get8 m c with
    | .ok b c' => .ok b.toNat c'
    | .err _ c' => .ok 0 c'
  else if modeField flags3 hostShift = 0 then .ok dflt c
  else .ok 0 c

/-- qtreader.c:104-124, 170-190 `get_radix_{insn,data}_type`. -/
def getRadixType (hostShift guestShift : Nat) (flags3 : BitVec 16) : XlateType :=
  if modeField flags3 hostShift = 0 ∧ modeField flags3 guestShift = 1 then .guestReal
  else if modeField flags3 hostShift = 0 ∧ modeField flags3 guestShift = 3 then .hostRadix
  else .unspecified

/-- `for (; n; n--, k++) { p = GET64(state); a[k] = p; }` into an array with `cap` elements. -/
def readInto (cap : Nat) : (n k : Nat) → (Nat → BitVec 64) → Rd (Nat → BitVec 64)
  | 0, _, f => pure f
  | n + 1, k, f => do
    let p ← get64
    if k < cap then readInto cap n (k + 1) (fun j => if j = k then p else f j)
    else throwErr .oob

/-- The outer loop of qtreader.c:237-244 over the rows of `host_ptes[5][4]`. -/
def readRows (nr : Nat) : (n k : Nat) → (Nat → Nat → BitVec 64) → Rd (Nat → Nat → BitVec 64)
  | 0, _, f => pure f
  | n + 1, k, f => do
    let row ← readInto (if k < MAX_RADIX_WALKS then NR_RADIX_PTES else 0) nr 0 (f k)
    readRows nr n (k + 1) (fun i => if i = k then row else f i)

/-- qtreader.c:214-229 `parse_radix` (the array argument is never NULL in this file). -/
def parseRadix (nr : Nat) (x : Radix) : Rd Radix := do
  let row ← readInto NR_RADIX_PTES nr 0 (x.hostPtes 0)
  return { x with hostPtes := fun i => if i = 0 then row else x.hostPtes i }

/-- qtreader.c:231-264 `parse_radix_on_radix`; only called with `walks > 1`. -/
def parseRadixOnRadix (walks nr : Nat) (x : Radix) : Rd Radix := do
  let rows ← readRows nr walks 0 x.hostPtes
  let hras ← readInto (MAX_RADIX_WALKS - 1) (walks - 1) 0 x.hostRas
  let gras ← readInto MAX_RADIX_WALKS walks 0 x.guestRas
  return { x with hostPtes := rows, hostRas := hras, guestRas := gras }

/-- qtreader.c:334-345, 796-807, 849-859: the walk section.  `setType` is the statement setting `type` for
a single walk, which the third copy (record path, instruction side) lacks.  Simplified: the C code stores the counts before it
reads the entries, here they are stored with them; the difference is seen only by a caller that goes on with a record whose read
failed, which qtdis does behind a prefix. -/
def walkSection (hostShift guestShift : Nat) (setType : Bool) (flags3 : BitVec 16) (x : Radix) :
    Rd Radix := do
  let nr ← getRadixCount hostShift guestShift NR_RADIX_PTES flags3
  let walks ← getRadixCount hostShift guestShift 1 flags3
  let x := { x with nrPtes := nr, nrWalks := walks }
  if walks = 1 then
    parseRadix nr (if setType then { x with type := getRadixType hostShift guestShift flags3 } else x)
  else if walks > 1 then parseRadixOnRadix walks nr x
  else return x

/-- qtreader.c:270-319: instruction word, flag words and their checks. -/
def headerFlags : Rd (BitVec 16 × BitVec 16 × BitVec 16) := do
  let insn ← get32
  if insn ≠ 0 then throwErr .fail else
  let flags ← get16
  if flags ≠ 0x0001 then throwErr .fail else
  let flags2 ← get16
  if has flags2 0x0002 = false then throwErr .fail else
  if has flags2 (~~~ 0x0003) then throwErr .fail else
  let flags3 ← if has flags2 0x0001 then get16 else pure 0
  let hdr ← get16
  if has hdr (~~~ 0xF852) then throwErr .fail else
  return (flags2, flags3, hdr)

/-- qtreader.c:333-346. -/
def headerWalk (flags2 flags3 hdr : BitVec 16) : Rd Unit :=
  whenR (has hdr 0x0800 && has flags2 0x0001) do
    let c ← getCtx
    let x ← walkSection 10 8 true flags3 c.st.nextRadixInsn
    modSt fun s => { s with nextRadixInsn := x }

/-- qtreader.c:348-364. -/
def headerPages (hdr : BitVec 16) : Rd Unit := do
  whenR (has hdr 0x0800) do
    let v ← get32
    modSt fun s => { s with insnRpnValid := true, nextInsnRpnValid := true, nextInsnRpn := v }
  whenR (has hdr 0x0040) do
    let v ← get8n
    modSt fun s => { s with insnPageShiftValid := true, nextInsnPageShiftValid := true, nextInsnPageShift := v }
  whenR (has hdr 0x0010) do
    let v ← get8n
    modSt fun s => { s with guestInsnPageShiftValid := true, nextGuestInsnPageShiftValid := true,
                            nextGuestInsnPageShift := v }

/-- qtreader.c:366-386. -/
def headerTail (flags3 hdr : BitVec 16) : Rd Unit := do
  whenR (has flags3 0x0080) do let _ ← get64
  whenR (has flags3 0x0040) do
    let v ← get64
    modSt fun s => { s with lpidPresent := true, lpid := v.setWidth 32 }
  whenR (has flags3 0x0020) do
    let v ← get32
    modSt fun s => { s with pidPresent := true, pid := v }
  whenR (has hdr 0x0002) do
    let len ← get16
    skipN len.toNat

/-- qtreader.c:321-331. -/
def headerIds (hdr : BitVec 16) : Rd Unit := do
  whenR (has hdr 0x8000) do
    let v ← get32
    modSt fun s => { s with magic := v }
  whenR (has hdr 0x4000) do
    let v ← get32
    modSt fun s => { s with version := v }
  whenR (has hdr 0x2000) do
    let v ← get64
    modSt fun s => { s with nextInsnAddr := v }
  whenR (has hdr 0x1000) (skipN 7)

/-- qtreader.c:270-392 `qtreader_parse_header`. -/
def parseHeader : Rd Unit := do
  let (flags2, flags3, hdr) ← headerFlags
  headerIds hdr
  headerWalk flags2 flags3 hdr
  headerPages hdr
  headerTail flags3 hdr

/-- State before the header is parsed, qtreader.c:396-402. -/
def RState.initial : RState := { nextInsnAddr := BitVec.allOnes 64 }

/-- qtreader.c:394-411 `qtreader_initialize`. -/
def readerInit (m : Mem) : Out Unit := parseHeader m { st := .initial, rcd := .zero }

/-- qtreader.c:656 `be32_to_cpup(state->ptr)`: four bytes, whatever they are. -/
def peek32 (m : Mem) (p : Nat) : BitVec 32 :=
  let at' (i : Nat) : Byte := match m.bytes[i]? with | some b => b | none => m.beyond i
  of32 (at' p) (at' (p + 1)) (at' (p + 2)) (at' (p + 3))

/-- Fetch of line 656, with the ghost over-read flag. -/
def peekInsn : Rd (BitVec 32) := fun m c =>
  .ok (peek32 m c.st.pos)
    { c with st := { c.st with overread := c.st.overread || decide (c.st.pos + 4 > m.bytes.length) } }

/-- qtreader.c:656-659: skip header records.  `fuel` bounds the number of headers; a header takes at least
ten bytes, and `nextRecord` supplies more fuel than the trace has bytes (`skipHeaders_fuel` in the lemmas
shows it is never exhausted). -/
def skipHeaders : (fuel : Nat) → Rd Unit
  | 0 => throwErr .fail
  | fuel + 1 => do
    let w ← peekInsn
    let c ← getCtx
    if w = 0 ∧ c.st.prefixed = false then do
      parseHeader
      skipHeaders fuel
    else return ()

/-- `(uint64_t)rpn << pshift | (ea & ((1UL << pshift) - 1))`, undefined for a shift of 64 or more. -/
def combineRa (rpn : BitVec 32) (pshift : Nat) (ea : BitVec 64) : Rd (BitVec 64) :=
  if pshift < 64 then
    return ((rpn.setWidth 64) <<< pshift) ||| (ea &&& ((1#64 <<< pshift) - 1))
  else throwErr .ub

/-- qtreader.c:661-704: carry the translation of the next instruction over into the current one. -/
def applyNext (c : Ctx) : Ctx :=
  let s := c.st
  let s := if s.nextInsnRpnValid then { s with insnRpnValid := true, insnRpn := s.nextInsnRpn } else s
  let s := if s.nextInsnPageShiftValid then
    { s with insnPageShiftValid := true, insnPageShift := s.nextInsnPageShift } else s
  let s := if s.nextRadixInsn.nrPtes ≠ 0 then { s with radixInsn := s.nextRadixInsn } else s
  let s := if s.nextGuestInsnPageShiftValid then
    { s with guestInsnPageShiftValid := true, guestInsnPageShift := s.nextGuestInsnPageShift } else s
  let r := { c.rcd with insnAddr := s.nextInsnAddr }
  let r := if s.insnPageShiftValid then
    { r with insnPageShiftValid := true, insnPageShift := s.insnPageShift } else r
  let r := if s.radixInsn.nrPtes ≠ 0 then { r with radixInsn := s.radixInsn } else r
  let r := if s.guestInsnPageShiftValid then
    { r with guestInsnPageShiftValid := true, guestInsnPageShift := s.guestInsnPageShift } else r
  { st := s, rcd := r }

/-- qtreader.c:706-718. -/
def insnRaSection : Rd Unit := do
  let c ← getCtx
  whenR c.st.insnRpnValid do
    let p := if c.st.insnPageShiftValid then c.st.insnPageShift % 256 else 16
    let ra ← combineRa c.st.insnRpn p c.rcd.insnAddr
    modRec fun r => { r with insnRaValid := true, insnRa := ra }

/-- qtreader.c:720-725. -/
def insnSection : Rd Unit := do
  let insn ← get32
  modRec fun r => { r with insn := insn }
  modSt fun s => { s with suffix := if s.prefixed then insn else s.suffix,
                          prefixed := insn >>> 26 == 1 }

/-- qtreader.c:727-749.  `UNHANDLED_FLAGS` (qtrace.h:32) is the complement of 0xFFF9, `UNHANDLED_FLAGS2`
(qtrace.h:45) of 0x532F, `UNHANDLED_FLAGS3` is 0. -/
def flagsSection : Rd (BitVec 16 × BitVec 16 × BitVec 16) := do
  let flags ← get16
  let flags2 ← if has flags 0x0001 then get16 else pure 0
  let flags3 ← if has flags 0x0001 && has flags2 0x0001 then get16 else pure 0
  if has flags (~~~ 0xFFF9) then throwErr .fail else
  if has flags2 (~~~ 0x532F) then throwErr .fail else
  return (flags, flags2, flags3)

/-- qtreader.c:760-763. -/
def nodeSection (flags : BitVec 16) : Rd Unit :=
  whenR (has flags 0x4000) do
    let b ← get8
    modRec fun r => { r with nodeValid := true, node := b }

/-- qtreader.c:771-781. -/
def termCheck (t : Byte) : Rd Unit :=
  if t = 0x40 ∨ t = 0x80 then modRec fun r => { r with conditionalBranch := true }
  else if t = 0x08 ∨ t = 0x10 then modRec fun r => { r with conditionalBranch := false }
  else throwErr .fail

/-- qtreader.c:765-782. -/
def termSection (flags : BitVec 16) : Rd Unit :=
  whenR (has flags 0x2000) do
    let n ← get8
    let t ← get8
    modRec fun r => { r with branch := true, termNode := n, termCode := t }
    termCheck t

/-- qtreader.c:784-793. -/
def dataAddrSection (flags : BitVec 16) : Rd Unit := do
  whenR (has flags 0x1000) do let _ ← get8
  whenR (has flags 0x0800) do
    let v ← get64
    modRec fun r => { r with dataAddrValid := true, dataAddr := v }
  whenR (has flags 0x0400) (skipN 7)

/-- qtreader.c:795-808. -/
def dataWalkSection (flags flags2 flags3 : BitVec 16) : Rd Unit :=
  whenR (has flags 0x0200 && has flags2 0x0001) do
    let c ← getCtx
    let x ← walkSection 14 12 true flags3 c.rcd.radixData
    modRec fun r => { r with radixData := x }

/-- qtreader.c:810-815. -/
def dataRpnSection (flags : BitVec 16) : Rd Unit :=
  if has flags 0x0200 then do
    let v ← get32
    modSt fun s => { s with dataRpnValid := true, dataRpn := v }
  else modSt fun s => { s with dataRpnValid := false }

/-- qtreader.c:817-821. -/
def iarFetch (flags : BitVec 16) : Rd Unit :=
  if has flags 0x0040 then do
    let v ← get64
    modSt fun s => { s with nextInsnAddr := v }
  else modSt fun s => { s with nextInsnAddr := s.nextInsnAddr + 4 }

/-- qtreader.c:817-823. -/
def iarSection (flags : BitVec 16) : Rd Unit := do
  iarFetch flags
  let c ← getCtx
  modRec fun r => { r with nextInsnAddr := c.st.nextInsnAddr }

/-- qtreader.c:825-843. -/
def branchSection (flags : BitVec 16) : Rd Unit := do
  let c ← getCtx
  if has flags 0x2000 then
    modRec fun r => { r with
      branchTaken := c.st.nextInsnAddr != r.insnAddr + 4
      conditionalBranch := if isUnconditionalBranch r.insn then false else r.conditionalBranch }
  else if isConditionalBranch c.rcd.insn then
    modRec fun r => { r with branch := true, conditionalBranch := true }
  else pure ()

/-- qtreader.c:845-860. -/
def insnWalkSection (flags flags2 flags3 : BitVec 16) : Rd Unit := do
  whenR (has flags 0x0020) (skipN 7)
  whenR (has flags 0x0010 && has flags2 0x0001) do
    let c ← getCtx
    let x ← walkSection 10 8 false flags3 c.st.nextRadixInsn
    modSt fun s => { s with nextRadixInsn := x }

/-- qtreader.c:862-867. -/
def insnRpnSection (flags : BitVec 16) : Rd Unit :=
  if has flags 0x0010 then do
    let v ← get32
    modSt fun s => { s with nextInsnRpnValid := true, nextInsnRpn := v }
  else modSt fun s => { s with nextInsnRpnValid := false }

/-- `for (i = 0; i < n; i++) { a[i].index = GET8; a[i].value = GET64; }` into `cap` elements
(qtreader.c:605-612, 620-627).  The store of the index precedes the fetch of the value. -/
def readRegs8 (cap : Nat) : (n k : Nat) → Rd (List RegInfo)
  | 0, _ => return []
  | n + 1, k => do
    let i ← get8
    if k < cap then do
      let v ← get64
      let l ← readRegs8 cap n (k + 1)
      return { index := i.setWidth 16, value := v } :: l
    else throwErr .oob

/-- The same loop with a 16-bit index (qtreader.c:615-618, 630-633). -/
def readRegs16 (cap : Nat) : (n k : Nat) → Rd (List RegInfo)
  | 0, _ => return []
  | n + 1, k => do
    let i ← get16
    if k < cap then do
      let v ← get64
      let l ← readRegs16 cap n (k + 1)
      return { index := i, value := v } :: l
    else throwErr .oob

/-- `state->ptr += n` without a check (qtreader.c:613-614, 628-629). -/
def bump (n : Nat) : Rd Unit := fun _ c => .ok () (advance c n)

/-- The vsx count is only present from version 0x7000000 on (qtreader.c:590-593, 599-602). -/
def vsxCount : Rd Nat := do
  let c ← getCtx
  if 0x7000000 ≤ c.st.version.toNat then get8n else return 0

/-- qtreader.c:583-642 `do_parse_regs`. -/
def parseRegs : Rd Regs := do
  let gi ← get8n
  let fi ← get8n
  let vi ← get8n
  let xi ← vsxCount
  let si ← get8n
  let go ← get8n
  let fo ← get8n
  let vo ← get8n
  let xo ← vsxCount
  let so ← get8n
  let gprsIn ← readRegs8 MAX_GPRS gi 0
  let fprsIn ← readRegs8 MAX_FPRS fi 0
  bump (vi * 18)
  bump (xi * 18)
  let sprsIn ← readRegs16 MAX_SPRS si 0
  let gprsOut ← readRegs8 MAX_GPRS go 0
  let fprsOut ← readRegs8 MAX_FPRS fo 0
  bump (vo * 18)
  bump (xo * 18)
  let sprsOut ← readRegs16 MAX_SPRS so 0
  skipN 0
  return { nrGprsIn := gi, nrFprsIn := fi, nrVmxsIn := vi, nrVsxsIn := xi, nrSprsIn := si,
           nrGprsOut := go, nrFprsOut := fo, nrVmxsOut := vo, nrVsxsOut := xo, nrSprsOut := so,
           gprsIn, fprsIn, sprsIn, gprsOut, fprsOut, sprsOut }

/-- qtreader.c:870-873. -/
def regsSection (flags : BitVec 16) : Rd Unit :=
  whenR (has flags 0x0008) do
    let regs ← parseRegs
    modRec fun r => { r with regs := regs }

/-- qtreader.c:875-891. -/
def seqSection (flags2 : BitVec 16) : Rd Unit := do
  whenR (has flags2 0x4000) do
    let v ← get32
    modSt fun s => if s.nextInsnRpnValid then s else { s with nextInsnRpnValid := true, nextInsnRpn := v }
  whenR (has flags2 0x1000) do let _ ← get8
  whenR (has flags2 0x0020) do
    let v ← get8n
    modSt fun s => { s with nextInsnPageShiftValid := true, nextInsnPageShift := v }

/-- qtreader.c:893-898. -/
def insnPageSection (flags2 : BitVec 16) : Rd Unit :=
  if has flags2 0x0200 then do
    let v ← get8n
    modSt fun s => { s with nextInsnPageShiftValid := true, nextInsnPageShift := v }
  else modSt fun s => { s with nextInsnPageShiftValid := false }

/-- qtreader.c:900-921. -/
def dataPageSection (flags2 : BitVec 16) : Rd Unit := do
  whenR (has flags2 0x0100) do
    let v ← get8n
    modRec fun r => { r with dataPageShiftValid := true, dataPageShift := v }
  let c ← getCtx
  whenR c.st.dataRpnValid do
    let p := if c.rcd.dataPageShiftValid then c.rcd.dataPageShift % 256 else 16
    let ra ← combineRa c.st.dataRpn p (if c.rcd.dataAddrValid then c.rcd.dataAddr else 0)
    modRec fun r => { r with dataRaValid := true, dataRa := ra }

/-- qtreader.c:923-928. -/
def guestInsnPage (flags2 : BitVec 16) : Rd Unit :=
  if has flags2 0x0008 then do
    let v ← get8n
    modSt fun s => { s with nextGuestInsnPageShiftValid := true, nextGuestInsnPageShift := v }
  else modSt fun s => { s with nextGuestInsnPageShiftValid := false }

/-- qtreader.c:923-933. -/
def guestPageSection (flags2 : BitVec 16) : Rd Unit := do
  guestInsnPage flags2
  whenR (has flags2 0x0004) do
    let v ← get8n
    modRec fun r => { r with guestDataPageShiftValid := true, guestDataPageShift := v }

/-- qtreader.c:416-421 field macros. -/
def fieldLink (insn : BitVec 32) : BitVec 32 := insn &&& 1
def fieldAA (insn : BitVec 32) : BitVec 32 := (insn >>> 1) &&& 1
def fieldBH (insn : BitVec 32) : BitVec 32 := (insn >>> 11) &&& 3
def fieldBI (insn : BitVec 32) : BitVec 32 := (insn >>> 16) &&& 0x1f
def fieldBD (insn : BitVec 32) : BitVec 32 := (insn >>> 2) &&& 0x3fff

/-- qtreader.c:423-505 `annotate_branch`: `none` is a failed assertion. -/
def annotateBranch (r : Record) : Option Record :=
  let insn := r.insn
  let op := opcode insn
  if op = 16 ∧ fieldAA insn = 0 ∧ fieldLink insn = 1 ∧ fieldBO insn = 20 ∧ fieldBI insn = 31
      ∧ fieldBD insn = 1 then
    if r.conditionalBranch = false then some { r with branchDirect := true, branchType := .addressing }
    else none
  else
    let t : BranchType := if fieldLink insn = 1 then .call else .branch
    let r := { r with branchDirect := true, branchType := t }
    if op = 18 then (if r.conditionalBranch = false then some r else none)
    else if op = 16 then (if r.conditionalBranch = true then some r else none)
    else if op = 17 then some { r with branchType := .systemCallException }
    else if op = 19 ∧ subOpcode insn = 16 then
      let r := if fieldBH insn = 0 then { r with branchType := .ret } else r
      if branchConditionalIsConditional insn = r.conditionalBranch then some r else none
    else if op = 19 ∧ (subOpcode insn = 528 ∨ subOpcode insn = 560) then
      if branchConditionalIsConditional insn = r.conditionalBranch then some { r with branchDirect := false }
      else none
    else if op = 19 ∧ (subOpcode insn = 50 ∨ subOpcode insn = 18 ∨ subOpcode insn = 274
        ∨ subOpcode insn = 82) then some { r with branchType := .exceptionReturn }
    else some { r with branchType := .asyncException }

/-- Value of `gprs_out[i]` (zero when not stored). -/
def gprOut (regs : Regs) (i : Nat) : BitVec 64 :=
  match regs.gprsOut[i]? with
  | some x => x.value
  | none => 0

/-- qtreader.c:551-567: page size encoding `AP`. -/
def tlbieApShift (ap : BitVec 64) : Option Nat :=
  if ap = 0 then some 12 else if ap = 5 then some 16 else if ap = 1 then some 21
  else if ap = 2 then some 30 else none

/-- qtreader.c:507-581 `annotate_tlbie`: `none` is `return false`. -/
def annotateTlbie (s : RState) (r : Record) : Option Record :=
  let insn := r.insn
  if opcode insn ≠ 31 then some r
  else if subOpcode insn ≠ 274 ∧ subOpcode insn ≠ 306 then some r
  else
    let loc := subOpcode insn == 274
    if r.regs.nrGprsOut ≠ 2 then none
    else
      let rb := gprOut r.regs 0
      let rs := gprOut r.regs 1
      let is := (rb >>> 10) &&& 3
      if (insn >>> 16) &&& 1 ≠ 1 then none
      else
        match (if is = 0 then tlbieApShift ((rb >>> 5) &&& 7) else some 0) with
        | none => none
        | some shift => some { r with
            tlbie := true
            tlbieLocal := loc
            tlbieRic := ((insn >>> 18) &&& 3).setWidth 8
            tlbiePrs := (insn >>> 17) &&& 1 == 1
            tlbieR := true
            tlbieIs := is.setWidth 8
            tlbiePageShift := if is = 0 then shift else r.tlbiePageShift
            tlbieAddr := if is = 0 then ((rb >>> 12) &&& 0x7ffffffffffff) <<< 12 else r.tlbieAddr
            tlbiePid := (rs >>> 32).setWidth 32
            tlbieLpid := if loc then s.lpid else rs.setWidth 32
            tlbieSet := if loc && is != 0 then ((rb >>> 12) &&& 0xfff).setWidth 16 else r.tlbieSet }

/-- qtreader.c:935-941. -/
def annotateSection : Rd Unit := do
  let c ← getCtx
  whenR (c.rcd.branch && c.st.wantBranch)
    (match annotateBranch c.rcd with
      | some r => modRec fun _ => r
      | none => throwErr .abort)
  let c ← getCtx
  whenR c.st.wantTlbie
    (match annotateTlbie c.st c.rcd with
      | some r => modRec fun _ => r
      | none => throwErr .fail)

/-- qtreader.c:727-943: everything after the instruction word. -/
def bodySection : Rd Unit := do
  let (flags, flags2, flags3) ← flagsSection
  nodeSection flags
  termSection flags
  dataAddrSection flags
  dataWalkSection flags flags2 flags3
  dataRpnSection flags
  iarSection flags
  branchSection flags
  insnWalkSection flags flags2 flags3
  insnRpnSection flags
  regsSection flags
  seqSection flags2
  insnPageSection flags2
  dataPageSection flags2
  guestPageSection flags2
  annotateSection

/-- qtreader.c:661-943, after header records have been skipped. -/
def readOne : Rd Unit := do
  (fun _ c => .ok () (applyNext c) : Rd Unit)
  insnRaSection
  insnSection
  bodySection

/-- qtreader.c:644-947 `qtreader_next_record`. -/
def nextRecordRd : Rd Unit := do
  modRec fun _ => Record.zero
  (fun m c => skipHeaders (m.bytes.length + 1) m c : Rd Unit)
  readOne

/-- Result of one call: the record and new state, or the error and state. -/
def nextRecord (m : Mem) (s : RState) : Out Unit := nextRecordRd m { st := s, rcd := .zero }

/-- How reading until the first failure ends. -/
structure ReadResult where
  records : List Record
  final : Err
  state : RState

/-- The caller's loop `while (qtreader_next_record(...))`, as in qtlib/tests and qtdis.  `fuel` bounds the number of
records; every record takes at least six bytes. -/
def readLoop (m : Mem) : (fuel : Nat) → RState → ReadResult
  | 0, s => { records := [], final := .fail, state := s }
  | fuel + 1, s =>
    match nextRecord m s with
    | .ok _ c =>
      let r := readLoop m fuel c.st
      { r with records := c.rcd :: r.records }
    | .err e c => { records := [], final := e, state := c.st }

/-- Open a trace (optionally asking for branch/tlbie annotation) and read it to the end. -/
def readTrace (m : Mem) (wantBranch wantTlbie : Bool) : ReadResult :=
  match readerInit m with
  | .ok _ c => readLoop m (m.bytes.length + 1) { c.st with wantBranch, wantTlbie }
  | .err e c => { records := [], final := e, state := c.st }

end Qt
