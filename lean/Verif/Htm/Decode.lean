import Verif.Htm.Source
import Verif.Htm.Recode
import Verif.Htm.Xlate
import Verif.Htm.Tlb
import Verif.Qt.Branch
/-!
htm/htm.c: decoding instructions (line numbers are of that file).  Debug output and messages are not modelled.
-/
namespace Htm
open Htm.Pwc

/-- 107-118: the part of `struct htm_decode_state` that concerns instructions, and the caches. -/
structure Dec where
  prevAddr : BitVec 64 := 0
  prevBranch : Bool := false
  insnAddr : BitVec 64 := 0
  realAddr : BitVec 64 := 0
  insn : BitVec 32 := 0
  radix : Qt.Radix := {}
  hostShift : Nat := 0
  guestShift : Nat := 0
  rpt : Bool := false
  tlb : Tlb.Cache := {}
  xl : Xl.St := {}

def badHalt : Bad → Halt
  | .assert => .assert
  | .overflow => .undefined

/-- 1327-1329, 1813-1815: clear reserved bits of `bclr`; `~0xe000`. -/
def clearHint (i : BitVec 32) : BitVec 32 := if isBlr i then i &&& 0xffff1fff else i

/-- 1318-1326, 1804-1811: the instruction word; `none` is -1. -/
def wordOf (branch : Bool) (opcode recoded : BitVec 32) : Option (BitVec 32) :=
  (if branch && !isIsel opcode then demunge recoded else some opcode).map clearHint

/-! ### POWER9 -/

/-- 579-586, 603-610, 664-671, 685-692, 745-752, 765-772: the record can not be what is expected, -2. -/
def badTag (v : BitVec 64) : Bool := isStamp v || u32 v 36 55 == 0xABCDE

/-- The part of `struct htm_insn` (htm_types.h:121-129) that is used. -/
structure I9 where
  opcode : BitVec 32
  branch : Bool
  valid : Bool
  iea : Bool
  ira : Bool
  dea : Bool
  dra : Bool
  esid : Bool
  soft : Bool := false
  msrir : Bool := false
  iraAddr : BitVec 64 := 0
  iraSize : Nat := 0
  deaAddr : BitVec 64 := 0
  draAddr : BitVec 64 := 0
  draSize : Nat := 0
deriving Repr, DecidableEq

/-- 545-571 `htm_decode_insn_info`. -/
def info9 (v : BitVec 64) : Option I9 :=
  if u32 v 36 55 ≠ 0xABCDE then none
  else if u32 v 0 31 = 0 then none
  else some { opcode := u32 v 0 31, branch := bit v 32, valid := bit v 56, iea := bit v 57, ira := bit v 58, dea := bit v 59,
              dra := bit v 60, esid := bit v 61 }

/-- 595-647 `htm_decode_insn_ira`: the address and the page size. -/
def ira9 (v addr : BitVec 64) : Option (BitVec 64 × Nat) :=
  if badTag v then none
  else if u32 v 41 63 ≠ 0 then none
  else
    let size := if u32 v 38 39 = 1 then 12 else if u32 v 38 39 = 2 then 16 else if u32 v 38 39 = 3 then 24 else 0
    if size = 0 then none
    else some ((bits v 0 37 <<< 12) ||| (addr &&& (BitVec.twoPow 64 size - 1)), size)

/-- 678-725 `htm_decode_insn_dra`. -/
def dra9 (v : BitVec 64) : Option (BitVec 64 × Nat) :=
  if badTag v then none
  else if u32 v 0 1 = 0 then some (bits v 2 39 <<< 12, 12)
  else if u32 v 0 1 = 1 then some (bits v 2 39 <<< 12, 16)
  else if u32 v 0 1 = 3 then some (bits v 2 39 <<< 12, 24)
  else none

/-- 1119-1130 `pagesize_to_shift`; `assert(1)` does nothing. -/
def shiftOf (size : BitVec 64) : Nat := if size = 4096 then 12 else if size = 65536 then 16 else if size = 16777216 then 24 else 0

/-- 1848-1882: the record for the callback; what is not assigned keeps the contents of `rec`. -/
def record9 (c : Conf) (s : Dec) (i : I9) : Qt.Record :=
  let iv := i.ira && !i.esid && decide (i.iraSize > 0)
  let dv := i.dra && !i.esid && decide (i.draSize > 0)
  { c.junk with
    insn := s.insn
    insnAddr := s.insnAddr
    insnRaValid := iv
    insnRa := if iv then i.iraAddr else c.junk.insnRa
    insnPageShiftValid := iv
    insnPageShift := if iv then i.iraSize else c.junk.insnPageShift
    dataAddrValid := i.dea
    dataAddr := if i.dea then i.deaAddr else c.junk.dataAddr
    dataRaValid := dv
    dataRa := if dv then i.draAddr ||| (if i.dea then i.deaAddr &&& (BitVec.twoPow 64 i.draSize - 1) else 0) else c.junk.dataRa
    dataPageShiftValid := dv
    dataPageShift := if dv then i.draSize else c.junk.dataPageShift }

/-- The condition of lines 1831-1833. -/
def jumped (s : Dec) : Bool := s.prevAddr != 0 && s.insnAddr != 0 && s.prevAddr + 4 != s.insnAddr

/-- 1834-1842: what a jump counts as. -/
def jumpEvents (s : Dec) : List Ev :=
  if jumped s then
    if s.prevBranch then [.count .branchesAfterNonbranches]
    else if s.insnAddr &&& 0xfffffffffffff07f = 0 then [.count .interrupts] else []
  else []

def tellAll {α : Type} : List Ev → Prog α → Prog α
  | [], p => p
  | e :: l, p => .tell e (tellAll l p)

/-- 1803-1891: from the label `done`. -/
def finish9 (c : Conf) (s : Dec) (i : I9) : Prog (Dec × Bool) :=
  match wordOf i.branch i.opcode (recodeP9 i.opcode s.insnAddr) with
  | none => .done (s, false)
  | some w =>
    .tell (.inst s.insnAddr w) <|
    if c.full then
      tellAll (jumpEvents s) <|
      .tell (.insn (record9 c { s with insn := w } i)) <|
      .done ({ s with
               insn := w
               prevAddr := s.insnAddr
               prevBranch := i.branch || isCall w || jumped s }, true)
    else .done ({ s with insn := w }, true)

/-- 1792-1798: the page sizes are compared with the codes of the trace. -/
def dataPages9 (size : Nat) : List Ev :=
  if size = 1 then [.count (.dataPages 12)] else if size = 2 then [.count (.dataPages 16)]
  else if size = 3 then [.count (.dataPages 24)] else []

/-- 1755-1802. -/
def draStep9 (c : Conf) (s : Dec) (i : I9) : Prog (Dec × Bool) :=
  if i.dra then
    .fetch fun
      | none => .done (s, false)
      | some v =>
        if !c.full then finish9 c s { i with dra := false }
        else if i.esid then
          if badTag v then .back v (finish9 c s { i with dra := false })
          else .tell (.count (.segment (u32 v 0 1))) (.tell (.count .withDVsid) (finish9 c s i))
        else
          match dra9 v with
          | none => .back v (finish9 c s { i with dra := false })
          | some (a, n) => tellAll (dataPages9 n) (.tell (.count .withoutDVsid) (finish9 c s { i with draAddr := a, draSize := n }))
  else finish9 c s i

/-- 1730-1753. -/
def deaStep9 (c : Conf) (s : Dec) (i : I9) : Prog (Dec × Bool) :=
  if i.dea then
    .fetch fun
      | none => .done (s, false)
      | some v =>
        if !c.full then draStep9 c s { i with dea := false }
        else if badTag v then .back v (finish9 c s { i with dea := false, dra := false })
        else if i.esid then draStep9 c s i
        else draStep9 c s { i with deaAddr := v }
  else draStep9 c s i

/-- 1665, 1719. -/
def reloc (msrir : Bool) : BitVec 64 := if msrir then 1 else 0

/-- 1683-1728. -/
def iraStep9 (c : Conf) (s : Dec) (i : I9) : Prog (Dec × Bool) :=
  .tell (.ea s.insnAddr) <|
  if i.ira && !i.soft then
    .fetch fun
      | none => .done (s, false)
      | some v =>
        if !c.full then deaStep9 c s { i with ira := false }
        else
          match ira9 v s.insnAddr with
          | none => .back v (finish9 c s { i with ira := false, dea := false, dra := false })
          | some (a, n) =>
            .tell (.count (.insnPages n)) <|
            .tell (.count (if i.esid then .withIVsid else .withoutIVsid)) <|
            .tell (.tlb (.set s.insnAddr (reloc i.msrir) a (BitVec.twoPow 64 n))) <|
            match Tlb.raSet s.tlb s.insnAddr (reloc i.msrir) a (BitVec.twoPow 64 n) with
            | none => .stop .assert
            | some t => .tell (.count .withIra) (deaStep9 c { s with tlb := t } { i with iraAddr := a, iraSize := n })
  else .tell (.count .withoutIra) (deaStep9 c s i)

/-- 1665-1677: a translation from the cache, unless the trace has one. -/
def cached9 (c : Conf) (s : Dec) (i : I9) : Prog (Dec × Bool) :=
  if c.full && !i.ira then
    .tell (.tlb (.get s.insnAddr (reloc i.msrir))) <|
    match Tlb.raGet s.tlb s.insnAddr (reloc i.msrir) with
    | none => .stop .assert
    | some none => iraStep9 c s i
    | some (some (a, size)) => iraStep9 c s { i with ira := true, soft := true, iraAddr := a, iraSize := shiftOf size }
  else iraStep9 c s i

/-- 1646-1681. -/
def ieaStep9 (c : Conf) (s : Dec) (i : I9) : Prog (Dec × Bool) :=
  if i.iea then
    .fetch fun
      | none => .done (s, false)
      | some v =>
        if badTag v then
          .back v (finish9 c { s with insnAddr := s.insnAddr + 4 } { i with iea := false, ira := false, dea := false, dra := false })
        else cached9 c { s with insnAddr := v &&& 0xfffffffffffffffc } { i with msrir := bit v 63 }
  else iraStep9 c { s with insnAddr := s.insnAddr + 4 } i

/-- 1623-1891 `htm_decode_insn`: the state and whether the return value is 0. -/
def insn9 (c : Conf) (s : Dec) (v : BitVec 64) : Prog (Dec × Bool) :=
  .tell (.count .recordsProcessed) <| .tell (.count .instructionsScanned) <|
  match info9 v with
  | none => .done (s, false)
  | some i => if i.valid then .tell (.count .instructionsProcessed) (ieaStep9 c s i) else .done (s, true)

/-! ### POWER10 -/

/-- 363-373 `htm_get_rec_type`. -/
def recType (v : BitVec 64) : BitVec 64 := if u32 v 36 55 = 0xABCDF then bits v 34 35 else 0

/-- The part of `struct htm_insn_p10` (htm_types.h:131-145) that is used; `dxlates` has two elements. -/
structure I10 where
  ieara : Option (BitVec 64 × BitVec 64) := none
  opcode : BitVec 32 := 0
  branch : Bool := false
  hasPrefix : Bool := false
  dea : Nat := 0
  dra : Nat := 0
  esid : Bool := false
  eabits : BitVec 32 := 0
  hv : Bool := false
  ir : Bool := false
  dr : Bool := false
  dea0 : BitVec 64 := 0
  dea1 : BitVec 64 := 0
  dra0 : BitVec 64 := 0
  dra1 : BitVec 64 := 0
  dxlates : List Xlate := [{}, {}]
  ndxlates : Nat := 0
  ixlate : Option Xlate := none
  prefixWord : BitVec 32 := 0
deriving Repr, DecidableEq

/-- 515-521: one step of a walk. -/
def walkOf (v : BitVec 64) : Walk :=
  { finalRa := bit v 0, exception := bit v 1, guestPte := bit v 2, hostRa := bit v 3, finalRecord := bit v 7,
    level := u32 v 4 6, ra := bits v 8 60 <<< 3 }

/-- 510-532: the loop over the walks, from number `i`; at most `n` more. -/
def walks10 (x : Xlate) : Nat → Nat → Prog (Option Xlate)
  | 0, _ => .done none
  | n + 1, i =>
    .fetch fun
      | none => .done none
      | some v =>
        let y := { x with walks := x.walks.set i (walkOf v) }
        if (walkOf v).finalRecord then .done (some { y with nwalks := i }) else walks10 y n (i + 1)

/-- 489-534 `htm_decode_insn_xlate`, for a record of the right type. -/
def xlate10 (x : Xlate) (v : BitVec 64) : Prog (Option Xlate) :=
  walks10 { x with dSide := bit v 0, lpid := u32 v 1 12, pid := u32 v 13 32 } 38 0

/-- 375-393 `htm_decode_insn_ieara`. -/
def ieara10 : Prog (Option (BitVec 64 × BitVec 64)) :=
  .fetch fun
    | none => .done none
    | some v =>
      .fetch fun
        | none => .done none
        | some w => .done (some (bits v 0 56 <<< 7, bits w 0 39 <<< 12))

/-- The condition of lines 466-467, 480-481: the last step of the walk has this address. -/
def endsAt (x : Xlate) (ra : BitVec 64) : Bool :=
  x.nwalks != 0 && match x.walks[x.nwalks - 1]? with
    | none => false
    | some w => w.ra == ra

/-- 475-487 `htm_select_iside_xlate`. -/
def selectI (l : List Xlate) (ra : BitVec 64) : Option Xlate := l.find? fun x => !x.dSide && endsAt x ra

/-- 461-473 `htm_select_dside_xlate`: the index. -/
def selectD (l : List Xlate) (ra : BitVec 64) : Option Nat := l.findIdx? fun x => x.dSide && endsAt x ra

/-- 1200-1202, 1576-1578: keep the walks. -/
def keepAll : List Xlate → List Xlate → Except Bad (List Xlate)
  | p, [] => .ok p
  | p, x :: l =>
    match partialInsert p x with
    | .error e => .error e
    | .ok p => keepAll p l

/-- 1187-1197: the walk for the line; one that is not for it is of an instruction that did not complete. -/
def matchI (p ix : List Xlate) (real : BitVec 64) : Except Bad (Option Xlate × List Xlate) :=
  match selectI ix real with
  | some x => .ok (some x, p)
  | none =>
    match ix with
    | [] => .ok (none, p)
    | x :: _ =>
      match partialInsert p x with
      | .error e => .error e
      | .ok p => .ok (none, p)

/-- 1178-1205, after the records were read. -/
def gotIeara (s : Dec) (ix : List Xlate) (l : I10) (a r : BitVec 64) : Except Bad (Dec × I10) :=
  match matchI s.xl.partials ix r with
  | .error e => .error e
  | .ok (x, p) =>
    match keepAll p (l.dxlates.take l.ndxlates) with
    | .error e => .error e
    | .ok p => .ok ({ s with xl := { s.xl with partials := p } }, { l with ieara := some (a, r), ixlate := x, ndxlates := 0 })

/-- 1168-1220: the records before the instruction.  The result is the state and, unless decoding failed, what was read and
the record after it.  `ix` are the first elements of `ixlates`, an array of two. -/
def head10 : Nat → Dec → List Xlate → I10 → BitVec 64 → Prog (Dec × Option (I10 × BitVec 64))
  | 0, _, _, _, _ => .stop .fuel
  | n + 1, s, ix, l, v =>
    if recType v = 3 then
      ieara10.bind fun
        | none => .done (s, none)
        | some (a, r) =>
          match gotIeara s ix l a r with
          | .error e => .stop (badHalt e)
          | .ok (s, l) =>
            .fetch fun
              | none => .done (s, none)
              | some v => head10 n s ix l v
    else if recType v = 1 then
      if bit v 0 then
        if l.ndxlates < 2 then
          (xlate10 (l.dxlates[l.ndxlates]?.getD {}) v).bind fun
            | none => .done ({ s with rpt := true }, none)
            | some x =>
              .fetch fun
                | none => .done ({ s with rpt := true }, none)
                | some v =>
                  head10 n { s with rpt := true } ix { l with dxlates := l.dxlates.set l.ndxlates x, ndxlates := l.ndxlates + 1 } v
        else .stop .undefined
      else if ix.length < 2 then
        (xlate10 {} v).bind fun
          | none => .done ({ s with rpt := true }, none)
          | some x =>
            .fetch fun
              | none => .done ({ s with rpt := true }, none)
              | some v => head10 n { s with rpt := true } (ix ++ [x]) l v
      else .stop .undefined
    else .done (s, some (l, v))

/-- 395-432 `htm_decode_insn_info_p10`. -/
def info10 (l : I10) (v : BitVec 64) : Option I10 :=
  if recType v ≠ 2 then none
  else
    let d := bits v 62 63
    some { l with
           opcode := u32 v 0 31
           branch := bit v 32
           hasPrefix := bit v 33
           eabits := u32 v 56 61 <<< 2
           dea := if d = 1 ∨ d = 3 then 1 else if d = 2 then 2 else 0
           dra := if d = 1 ∨ d = 3 then 1 else if d = 2 then 2 else 0
           esid := d == 3 }

/-- 1285-1308: the turn `i` of the loop, from the label `dea_done`: `none` is a failure, `true` is `goto done`. -/
def draStep10 (c : Conf) (i : Nat) (l : I10) : Prog (Option (Bool × I10)) :=
  if l.dra ≠ 0 then
    .fetch fun
      | none => .done none
      | some v =>
        if !c.full then .done (some (true, { l with dra := 0 }))
        else if l.esid then
          if badTag v then .back v (.done (some (true, { l with dra := 0 }))) else .done (some (false, l))
        else if i = 0 then .done (some (false, { l with dra0 := bits v 0 40 <<< 12 }))
        else .done (some (false, { l with dra1 := bits v 0 40 <<< 12 }))
  else .done (some (false, l))

/-- 1259-1308: a turn of the loop. -/
def dataStep10 (c : Conf) (i : Nat) (l : I10) : Prog (Option (Bool × I10)) :=
  if l.dea ≠ 0 then
    .fetch fun
      | none => .done none
      | some v =>
        if !c.full then draStep10 c i { l with dea := 0 }
        else if l.esid then
          if badTag v then .back v (.done (some (true, { l with dea := 0, dra := 0 }))) else draStep10 c i l
        else if i = 0 then draStep10 c i { l with dea0 := v }
        else draStep10 c i { l with dea1 := v }
  else draStep10 c i l

/-- 1258-1309: the loop has at most two turns. -/
def data10 (c : Conf) (l : I10) : Prog (Option I10) :=
  if 0 < l.dea ∨ 0 < l.dra then
    (dataStep10 c 0 l).bind fun
      | none => .done none
      | some (true, l) => .done (some l)
      | some (false, l) =>
        if 1 < l.dea ∨ 1 < l.dra then (dataStep10 c 1 l).bind fun r => .done (r.map (·.2)) else .done (some l)
  else .done (some l)

/-- 1394-1402, 1496-1504: count the page. -/
def pageEvents (f : Nat → Counter) (shift : Nat) : List Ev :=
  if shift = 12 ∨ shift = 16 ∨ shift = 21 ∨ shift = 30 then [.count (f shift)] else []

/-- 1362-1370, 1466-1473: the walk of this instruction, or else one of an interrupted instruction. -/
def orKept (x : Option Xlate) (xl : Xl.St) (address real : BitVec 64) : Option Xlate × Xl.St :=
  match x with
  | some x => (some x, xl)
  | none => ((addressLookup xl.partials address real).1, { xl with partials := (addressLookup xl.partials address real).2 })

/-- 1426-1429: replace the offset in the last guest real address. -/
def offsetLast (x : Qt.Radix) (shift : Nat) (address : BitVec 64) : Qt.Radix :=
  { x with guestRas := (fun j =>
      if j = x.nrWalks - 1 then (x.guestRas j &&& pageMask shift) ||| (address &&& ~~~ (pageMask shift)) else x.guestRas j) }

/-- 1422-1434: an instruction in the same line as the last one. -/
def sameLine (s : Dec) (l : I10) : Except Halt (Dec × List Ev) :=
  if !l.hv && l.ir then
    if s.hostShift ≠ 0 then
      if s.radix.nrWalks = 0 ∨ 5 < s.radix.nrWalks ∨ 64 ≤ s.guestShift then .error .undefined
      else
        .ok ({ s with radix := offsetLast s.radix s.guestShift s.insnAddr }, [.count .withIXlate])
    else .ok (s, [.count .withoutIXlateIeara])
  else .ok (s, [])

/-- 1358-1421: an instruction with a new line. -/
def newLine (s : Dec) (l : I10) : Except Halt (Dec × List Ev) :=
  let (x, xl) := orKept l.ixlate s.xl s.insnAddr s.realAddr
  match x with
  | some x =>
    match Xl.decode xl x l.hv l.ir s.insnAddr s.realAddr with
    | .error e => .error (badHalt e)
    | .ok (res, _, xl) =>
      .ok ({ s with xl := xl, radix := res.rcd, hostShift := res.host, guestShift := res.guest },
        .count (if res.ok then .withIXlate else .withoutIXlatePwc) :: pageEvents .insnPages res.host)
  | none =>
    match Xl.lookup xl l.hv l.ir s.insnAddr s.realAddr with
    | .error e => .error (badHalt e)
    | .ok res =>
      .ok ({ s with xl := xl, radix := res.rcd, hostShift := res.host, guestShift := res.guest },
        [.count (if res.ok then .withIXlate else .withoutIXlateErat)])

/-- 1358-1434. -/
def iside (s : Dec) (l : I10) : Except Halt (Dec × List Ev) :=
  if s.rpt then if l.ieara.isSome then newLine s l else sameLine s l
  else .ok (s, [])

/-- 1462-1525 and 1527-1573: the translation of a data address.  The walk of the trace is changed by `xlate_decode`. -/
def dside (xl : Xl.St) (l : I10) (address real : BitVec 64) : Except Halt (Xl.Res × List Ev × Xl.St × I10) :=
  let i := selectD (l.dxlates.take l.ndxlates) real
  let (x, xl) := orKept (i.bind fun i => l.dxlates[i]?) xl address real
  match x with
  | some x =>
    match Xl.decode xl x l.hv l.dr address real with
    | .error e => .error (badHalt e)
    | .ok (res, y, xl) =>
      .ok (res, .count (if res.ok then .withDXlate else .withoutDXlatePwc) :: pageEvents .dataPages res.host, xl,
        match i with
        | some i => { l with dxlates := l.dxlates.set i y }
        | none => l)
  | none =>
    match Xl.lookup xl l.hv l.dr address real with
    | .error e => .error (badHalt e)
    | .ok res => .ok (res, [.count (if res.ok then .withDXlate else .withoutDXlateErat)], xl, l)

/-- 1462-1525: the first data address. -/
def dside0 (s : Dec) (l : I10) : Except Halt (Xl.Res × List Ev × Xl.St × I10) :=
  if s.rpt && decide (l.dea ≠ 0) then dside s.xl l l.dea0 l.dra0 else .ok ({ ok := true }, [], s.xl, l)

/-- 1527-1573: the second data address is not counted and its translation is not used. -/
def dside1 (rpt : Bool) (xl : Xl.St) (l : I10) : Except Halt (Xl.St × I10) :=
  if rpt && decide (l.dea = 2) then
    match dside xl l l.dea1 l.dra1 with
    | .error e => .error e
    | .ok (_, _, xl, l) => .ok (xl, l)
  else .ok (xl, l)

/-- 1575-1579: walks of instructions that did not complete. -/
def keepData (rpt : Bool) (xl : Xl.St) (l : I10) : Except Halt Xl.St :=
  if rpt && decide (l.dea = 0) then
    match keepAll xl.partials (l.dxlates.take l.ndxlates) with
    | .error e => .error (badHalt e)
    | .ok p => .ok { xl with partials := p }
  else .ok xl

/-- 1352-1356, 1436-1460, 1581-1602: the record for the callback; `d` is the translation of the data address. -/
def record10 (c : Conf) (s : Dec) (l : I10) (d : Xl.Res) : Qt.Record :=
  let iv := !l.esid && decide (s.hostShift ≠ 0)
  let av := !l.esid && decide (l.dea ≠ 0)
  let dv := decide (l.dra ≠ 0) && !l.esid && decide (d.host ≠ 0)
  let w := if l.hasPrefix then l.prefixWord else s.insn
  { c.junk with
    insn := w
    insnAddr := s.insnAddr
    branch := l.branch || isCall s.insn
    conditionalBranch := Qt.isConditionalBranch w
    insnRaValid := iv
    insnRa := if iv then s.realAddr ||| (s.insnAddr &&& (BitVec.twoPow 64 s.hostShift - 1)) else c.junk.insnRa
    insnPageShiftValid := iv
    insnPageShift := if iv then s.hostShift else c.junk.insnPageShift
    radixInsn := if iv then s.radix else c.junk.radixInsn
    guestInsnPageShiftValid := decide (s.guestShift ≠ 0)
    guestInsnPageShift := if s.guestShift ≠ 0 then s.guestShift else c.junk.guestInsnPageShift
    dataAddrValid := av
    dataAddr := if av then l.dea0 else c.junk.dataAddr
    dataRaValid := dv
    dataRa := if dv then l.dra0 ||| (if av then l.dea0 &&& (BitVec.twoPow 64 d.host - 1) else 0) else c.junk.dataRa
    dataPageShiftValid := dv
    dataPageShift := if dv then d.host else c.junk.dataPageShift
    radixData := if dv then d.rcd else c.junk.radixData
    guestDataPageShiftValid := decide (d.guest ≠ 0)
    guestDataPageShift := if d.guest ≠ 0 then d.guest else c.junk.guestDataPageShift }

/-- 1607-1615: the second half of a prefixed instruction. -/
def suffix10 (s : Dec) (l : I10) : List Ev :=
  if l.hasPrefix then [.insn { insn := s.insn, insnAddr := s.insnAddr + 4 }] else []

/-- 1339-1617: translate the addresses and call back. -/
def emit10 (c : Conf) (s : Dec) (l : I10) : Prog (Dec × Bool) :=
  match iside { s with prevAddr := s.insnAddr, prevBranch := l.branch || isCall s.insn } l with
  | .error h => .stop h
  | .ok (s, e1) =>
    match dside0 s l with
    | .error h => .stop h
    | .ok (d, e2, xl, l) =>
      match dside1 s.rpt xl l with
      | .error h => .stop h
      | .ok (xl, l) =>
        match keepData s.rpt xl l with
        | .error h => .stop h
        | .ok xl =>
          tellAll (e1 ++ e2 ++ [.insn (record10 c s l d)] ++ suffix10 s l) (.done ({ s with xl := xl }, true))

/-- 1312-1317: `~0x7f` is extended to 64 bits. -/
def place (s : Dec) (l : I10) : Dec :=
  let s := match l.ieara with
    | some p => { s with insnAddr := p.1, realAddr := p.2 }
    | none => s
  { s with insnAddr := (s.insnAddr &&& 0xffffffffffffff80) ||| l.eabits.setWidth 64 }

/-- 1311-1617: from the label `done`. -/
def finish10 (c : Conf) (s : Dec) (l : I10) : Prog (Dec × Bool) :=
  match wordOf l.branch l.opcode (recodeP10 l.opcode (place s l).insnAddr) with
  | none => .done (place s l, false)
  | some w =>
    .tell (.ea (place s l).insnAddr) <| .tell (.inst (place s l).insnAddr w) <|
    if c.full then emit10 c { place s l with insn := w } l else .done ({ place s l with insn := w }, true)

/-- 1258-1617. -/
def body10 (c : Conf) (s : Dec) (l : I10) : Prog (Dec × Bool) :=
  (data10 c l).bind fun
    | none => .done (s, false)
    | some l => finish10 c s l

/-- 536-543, 1239-1256. -/
def prefix10 (c : Conf) (s : Dec) (l : I10) : Prog (Dec × Bool) :=
  if l.hasPrefix then
    .fetch fun
      | none => .done (s, false)
      | some v => body10 c s (if c.full then { l with prefixWord := u32 v 0 31 } else { l with hasPrefix := false })
  else body10 c s l

/-- 434-449, 1229-1237. -/
def msr10 (c : Conf) (s : Dec) (l : I10) : Prog (Dec × Bool) :=
  .fetch fun
    | none => .done (s, false)
    | some v => prefix10 c s { l with hv := bit v 0, ir := bit v 2, dr := bit v 3 }

/-- 1132-1621 `htm_decode_insn_p10`. -/
def insn10 (c : Conf) (fuel : Nat) (s : Dec) (v : BitVec 64) : Prog (Dec × Bool) :=
  .tell (.count .recordsProcessed) <| .tell (.count .instructionsScanned) <|
  (head10 fuel s [] {} v).bind fun
    | (s, none) => .done (s, false)
    | (s, some (l, v)) =>
      match info10 l v with
      | none => .done (s, false)
      | some l => .tell (.count .instructionsProcessed) (msr10 c s l)

/-! ### The whole trace -/

/-- 1912-1923: decode by the kind of the record; `true` is a return value of zero. -/
def dispatch (c : Conf) (s : Dec) (r : Rd) (v : BitVec 64) : Except Halt ((Dec × Bool) × Rd) :=
  if isStamp v then
    match stamp c r v with
    | .error h => .error h
    | .ok (b, r) => .ok ((s, b), r)
  else if u32 v 36 55 = 0xABCDE then (insn9 c s v).run c r
  else if u32 v 36 55 = 0xABCDF then (insn10 c (r.left + 1) s v).run c r
  else .ok ((s, true), r)

/-- 1899-1945 `htm_decode_one`, with `state->error_count` (101): `false` is a negative return value, which ends decoding.
Lines 1922-1928 are for a return value of -2, which none of the functions has. -/
def decodeOne (c : Conf) (errors : Nat) (s : Dec) (r : Rd) : Except Halt (Bool × Nat × Dec × Rd) :=
  match fetchInternal r with
  | (none, r) => .ok (false, errors, s, r)
  | (some v, r) =>
    if v = 0 then .ok (true, errors, s, r)
    else
      match dispatch c s r v with
      | .error h => .error h
      | .ok ((s, true), r) => .ok (true, 0, s, r)
      | .ok ((s, false), r) => if errors > 100 then .error .tooManyErrors else .ok (true, errors + 1, s, r)

/-- 1983-1985: the loop of `htm_decode`. -/
def decodeLoop (c : Conf) : Nat → Nat → Dec → Rd → Except Halt (Dec × Rd)
  | 0, _, _, _ => .error .fuel
  | n + 1, errors, s, r =>
    match decodeOne c errors s r with
    | .error h => .error h
    | .ok (false, _, s, r) => .ok (s, r)
    | .ok (true, errors, s, r) => decodeLoop c n errors s r

/-- 1952-1997 `htm_decode`, for a file that libarchive can open.  `eof` is the static variable of line 120: unset only for the
first call in a process. -/
def decode (c : Conf) (eof : Bool) (bytes : List (BitVec 8)) (failing : Bool) (fill phantom : BitVec 64) : Except Halt (Dec × Rd) :=
  let r : Rd := { bytes := bytes, failing := failing, fill := fill, phantom := phantom, eof := eof }
  decodeLoop c (r.left + 1) 0 {} r

end Htm
