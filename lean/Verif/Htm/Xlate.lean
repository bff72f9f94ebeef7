import Verif.Htm.Pwc
import Verif.Htm.Erat
import Verif.Qt.Types
/-!
htm/xlate.c: decoding the page-table walks of a trace (line numbers are of that file).

The parser (86-90) is the list of the walks not yet taken.  The decoding functions return 0 or -1 and change the caches in
both cases; a failed assertion or an access outside an array is an outcome of its own.  Debug output is not modelled.
-/
namespace Htm.Xl
open Htm Htm.Pwc

/-- What the decoding functions change: the walks the parser has not taken, and the caches. -/
structure PS where
  rest : List Walk
  caches : Caches

/-- A function of the decoder: `some a` is the return value 0 with results `a`, `none` is -1. -/
def X (α : Type) := PS → Except Bad (Option α × PS)

def X.pure {α : Type} (a : α) : X α := fun s => .ok (some a, s)

def X.bind {α β : Type} (m : X α) (f : α → X β) : X β := fun s =>
  match m s with
  | .error e => .error e
  | .ok (none, s) => .ok (none, s)
  | .ok (some a, s) => f a s

instance : Monad X where
  pure := X.pure
  bind := X.bind

/-- `return -1`. -/
def fail {α : Type} : X α := fun s => .ok (none, s)

/-- Call a function and ignore its result: 725. -/
def ignore {α : Type} (m : X α) : X Unit := fun s =>
  match m s with
  | .error e => .error e
  | .ok (_, s) => .ok (some (), s)

/-- A cache operation that may fail an assertion. -/
def cached {α : Type} (f : Caches → Option (α × Caches)) : X α := fun s =>
  match f s.caches with
  | none => .error .assert
  | some (a, c) => .ok (some a, { s with caches := c })

def xInsert (l : Lvl) (a : Addr) (real : BitVec 64) (leaf : Bool) : X Unit :=
  cached fun c => (Pwc.insert c l a real leaf).map fun c => ((), c)
def xGet (l : Lvl) (a : Addr) : X (Option (BitVec 64 × Option Bool)) := cached fun c => (Pwc.get c l a).map fun r => (r, c)
def xTlbInsert (s : Nat) (a : Addr) (real : BitVec 64) : X Unit := cached fun c => (tlbInsert c s a real).map fun c => ((), c)
def xTlbGet (s : Nat) (a : Addr) : X (Option (BitVec 64)) := cached fun c => (tlbGet c s a).map fun r => (r, c)
def xRevInsert (s : Nat) (a : Addr) (real : BitVec 64) : X Unit := cached fun c => (revInsert c s a real).map fun c => ((), c)
def xRevGet (s : Nat) (a : Addr) : X (Option (BitVec 64)) := cached fun c => (revGet c s a).map fun r => (r, c)

/-- 103-109. -/
def X_FINAL_RA : BitVec 32 := 0x110
def X_NO_FINAL_RA : BitVec 32 := 0x100
def X_GUEST_PTE : BitVec 32 := 0x220
def X_NO_GUEST_PTE : BitVec 32 := 0x200
def X_HOST_RA : BitVec 32 := 0x440
def X_NO_HOST_RA : BitVec 32 := 0x400
/-- 110. -/
def X_LEVEL (x : BitVec 32) : BitVec 32 := 0x80 ||| x
/-- 116-121. -/
def PROCESS_PTE : BitVec 32 := X_NO_HOST_RA ||| X_GUEST_PTE ||| X_NO_FINAL_RA
def NESTED_PTE : BitVec 32 := X_HOST_RA ||| X_GUEST_PTE ||| X_NO_FINAL_RA
def PARTITION_PTE : BitVec 32 := X_HOST_RA ||| X_NO_GUEST_PTE ||| X_NO_FINAL_RA
def NESTED_RA_ADDR : BitVec 32 := X_HOST_RA ||| X_FINAL_RA ||| X_GUEST_PTE
def PROCESS_RA_ADDR : BitVec 32 := X_NO_HOST_RA ||| X_FINAL_RA ||| X_GUEST_PTE

/-- 113-114. -/
def enabled (x : BitVec 32) : BitVec 32 := x &&& 0xf00
def value (x : BitVec 32) : BitVec 32 := x &&& 0x0f0

/-- 123-140 `xlate_parser_check_walk`. -/
def check (w : Walk) (flags : BitVec 32) : Bool :=
  if (enabled flags &&& X_FINAL_RA) ≠ 0 ∧ (value flags &&& X_FINAL_RA != 0) ≠ w.finalRa then false
  else if (enabled flags &&& X_GUEST_PTE) ≠ 0 ∧ (value flags &&& X_GUEST_PTE != 0) ≠ w.guestPte then false
  else if (enabled flags &&& X_HOST_RA) ≠ 0 ∧ (value flags &&& X_HOST_RA != 0) ≠ w.hostRa then false
  else if (flags &&& 0x80) ≠ 0 ∧ (flags &&& 0x0f) ≠ w.level then false
  else true

/-- 146-164 `xlate_parser_take`. -/
def take (flags : BitVec 32) : X (Option Walk) := fun s =>
  match s.rest with
  | [] => .ok (some none, s)
  | w :: r => if check w flags then .ok (some (some w), { s with rest := r }) else .ok (some none, s)

/-- 169-186 `xlate_parser_peek`. -/
def peek (flags : BitVec 32) : X (Option Walk) := fun s =>
  match s.rest with
  | [] => .ok (some none, s)
  | w :: _ => .ok (some (if check w flags then some w else none), s)

/-- 191-214 `xlate_parser_scan`. -/
def scan (flags : BitVec 32) : X (Option Walk) := fun s => .ok (some (s.rest.find? fun w => check w flags), s)

/-- 48-53, htm/xlate.h:41-44: the levels as the trace numbers them. -/
def htmLevel : Lvl → BitVec 32
  | .pgd => 6
  | .pud => 4
  | .pmd => 2
  | _ => 0

/-- 60-65: the level of the tables with 4 kB and 64 kB pages. -/
def subtypes : Lvl → List Lvl
  | .pte => [.pte4k, .pte64k]
  | l => [l]

/-- 68-75. -/
def pageSizes : Lvl → Nat
  | .pgd => 40
  | .pud => 30
  | .pmd => 21
  | .pte => 0
  | .pte4k => 12
  | .pte64k => 16

/-- 44. -/
def hostPageSizes : List Nat := [30, 21, 16, 12]

/-- htm/pwc.h:20. -/
def MSR_HV : BitVec 32 := 2

/-- 215-225 `mk_process_real_addr`. -/
def processRealAddr (lpid : BitVec 32) (address : BitVec 64) : Addr := ⟨MSR_HV, lpid, 0, address⟩

/-- 236-240, 243-247, 271-276: a leaf is below the top level. -/
def leafBelow (level bound : BitVec 32) : X Bool := if level < bound then pure true else fail

/-- 231-250 `xlate_partition_pte_is_leaf`. -/
def partitionIsLeaf (level : BitVec 32) : X Bool := do
  match ← peek X_GUEST_PTE with
  | some _ => leafBelow level 6
  | none =>
    match ← peek X_FINAL_RA with
    | some _ => leafBelow level 6
    | none => pure false

/-- 256-277 `xlate_process_pte_is_leaf`: the loop over the lower levels. -/
def processIsLeafFrom (level : BitVec 32) : List (BitVec 32) → X Bool
  | [] => leafBelow level 4
  | v :: l =>
    if v = level then leafBelow level 4
    else do
      match ← scan (X_NO_FINAL_RA ||| X_GUEST_PTE ||| X_LEVEL v) with
      | some _ => pure false
      | none => processIsLeafFrom level l

/-- 46, 256-277. -/
def processIsLeaf (level : BitVec 32) : X Bool := processIsLeafFrom level [0, 2, 4, 6]

/-- 284-299 with `final` 1, 301-314: 4 kB or 64 kB pages, by the final address further on. -/
def pteSubtype (flags : BitVec 32) : X Lvl := do
  match ← scan (flags ||| X_LEVEL 0) with
  | some _ => pure .pte4k
  | none =>
    match ← scan (flags ||| X_LEVEL 1) with
    | some _ => pure .pte64k
    | none => fail

/-- 318-326 `xlate_partition_subtype`. -/
def partitionSubtype (type : Lvl) : X Lvl := if type = .pte then pteSubtype NESTED_RA_ADDR else pure type

/-- 328-336 `xlate_process_subtype`. -/
def processSubtype (type : Lvl) : X Lvl := if type = .pte then pteSubtype PROCESS_RA_ADDR else pure type

/-- htm/xlate.h:26-30 `struct xlate_pte`. -/
structure Pte where
  address : BitVec 64
  pageSize : Nat
  leaf : Bool
deriving DecidableEq, Repr

/-- 407-414, 461-468: the end of both functions. -/
def finishPte (subtype : Lvl) (a : Addr) : X Pte := do
  match ← xGet subtype a with
  | none => fail
  | some (address, leaf) => pure ⟨address, pageSizes subtype, leaf = some true⟩

/-- 350-359: a process-scoped entry in the trace. -/
def processTaken (type : Lvl) (a : Addr) (w : Walk) : X Lvl := do
  let leaf ← processIsLeaf (htmLevel type)
  let subtype ← processSubtype type
  xInsert subtype a w.ra leaf
  pure subtype

/-- 374-378: an entry of a known directory, of which the trace only has the nested translation. -/
def processNested (level : BitVec 32) (subtype : Lvl) (a : Addr) (real : BitVec 64) : X Unit := do
  let leaf ← processIsLeaf level
  xInsert subtype a real leaf

/-- 362-381: try the cache; `some` is `goto out`. -/
def processCached (level : BitVec 32) (a : Addr) : List Lvl → X (Option Lvl)
  | [] => pure none
  | sub :: l => do
    match ← xGet sub a with
    | none => processCached level a l
    | some (_, some _) => pure (some sub)
    | some (real, none) =>
      match ← peek (NESTED_PTE ||| X_LEVEL level) with
      | none => processCached level a l
      | some _ => do
        processNested level sub a real
        pure (some sub)

/-- 395-402. -/
def processReversed (type : Lvl) (a : Addr) (real : BitVec 64) : X Lvl := do
  let leaf ← processIsLeaf (htmLevel type)
  let subtype ← processSubtype type
  xInsert subtype a real leaf
  pure subtype

/-- 384-405: find the guest address by the host address of the entry; `last` is the value of `subtype` before. -/
def processReverse (type : Lvl) (a : Addr) (w : Walk) (last : Lvl) : List Nat → X Lvl
  | [] => pure last
  | s :: l => do
    match ← xRevGet s ⟨a.msr, a.lpid, 0, w.ra⟩ with
    | some real => processReversed type a real
    | none => processReverse type a w last l

/-- 362-405: without an entry in the trace. -/
def processMissing (type : Lvl) (a : Addr) : X Lvl := do
  match ← processCached (htmLevel type) a (subtypes type) with
  | some sub => pure sub
  | none =>
    match ← peek (NESTED_PTE ||| X_LEVEL (htmLevel type)) with
    | none => pure ((subtypes type).getLast?.getD type)
    | some w => processReverse type a w ((subtypes type).getLast?.getD type) hostPageSizes

/-- 338-415 `xlate_decode_process_pte`. -/
def processPte (type : Lvl) (a : Addr) : X Pte := do
  match ← take (PROCESS_PTE ||| X_LEVEL (htmLevel type)) with
  | some w => do
    let subtype ← processTaken type a w
    finishPte subtype a
  | none => do
    let subtype ← processMissing type a
    finishPte subtype a

/-- 429-438. -/
def partitionTaken (type : Lvl) (a : Addr) (w : Walk) : X Lvl := do
  let leaf ← partitionIsLeaf (htmLevel type)
  let subtype ← partitionSubtype type
  xInsert subtype a w.ra leaf
  pure subtype

/-- 454-457. -/
def partitionGuess (level : BitVec 32) (sub : Lvl) (a : Addr) (real : BitVec 64) : X Lvl := do
  let leaf ← partitionIsLeaf level
  xInsert sub a real leaf
  pure sub

/-- 441-459: try the cache. -/
def partitionCached (level : BitVec 32) (a : Addr) : List Lvl → X Lvl
  | [] => fail
  | sub :: l => do
    match ← xGet sub a with
    | none => partitionCached level a l
    | some (_, some _) => pure sub
    | some (real, none) => partitionGuess level sub a real

/-- 417-469 `xlate_decode_partition_pte`. -/
def partitionPte (type : Lvl) (a : Addr) : X Pte := do
  match ← take (PARTITION_PTE ||| X_LEVEL (htmLevel type)) with
  | some w => do
    let subtype ← partitionTaken type a w
    finishPte subtype a
  | none => do
    let subtype ← partitionCached (htmLevel type) a (subtypes type)
    finishPte subtype a

/-- 499-518 `xlate_partition_real_addr`. -/
def partitionRealAddr (flag : BitVec 32) (a : Addr) (pageSize : Nat) : X (BitVec 64) := do
  match ← take flag with
  | some w => do
    xTlbInsert pageSize a w.ra
    pure w.ra
  | none =>
    match ← xTlbGet pageSize a with
    | some ra => pure ra
    | none => fail

/-- The results of a partition-scoped translation: the real address, `host_ptes` and their number, the page size. -/
structure Host where
  real : BitVec 64
  ptes : List (BitVec 64)
  pageSize : Nat
deriving DecidableEq, Repr

/-- 565-577, the label `final`. -/
def partitionFinal (flag : BitVec 32) (a : Addr) (ptes : List (BitVec 64)) (pageSize : Nat) : X Host := do
  let real ← partitionRealAddr flag a pageSize
  xRevInsert pageSize ⟨0, a.lpid, 0, real⟩ a.address
  pure ⟨real, ptes, pageSize⟩

/-- 553-563: the third and fourth level. -/
def partitionLower (flag : BitVec 32) (a : Addr) (p0 p1 : BitVec 64) : X Host := do
  let pmd ← partitionPte .pmd a
  if pmd.leaf then partitionFinal flag a [p0, p1, pmd.address] pmd.pageSize
  else do
    let pte ← partitionPte .pte a
    partitionFinal flag a [p0, p1, pmd.address, pte.address] pte.pageSize

/-- 521-578 `xlate_partition_translate`; `nr_ptes` is the length of `ptes`. -/
def partitionTranslate (flag : BitVec 32) (a : Addr) : X Host := do
  let pgd ← partitionPte .pgd a
  let pud ← partitionPte .pud a
  if pud.leaf then partitionFinal flag a [pgd.address, pud.address] pud.pageSize
  else partitionLower flag a pgd.address pud.address

/-- 685-703 `xlate_process_real_addr`. -/
def processRealAddr' (a : Addr) (guestPageSize : Nat) : X (BitVec 64) := do
  match ← take (X_NO_HOST_RA ||| X_GUEST_PTE ||| X_FINAL_RA) with
  | none => fail
  | some w => do
    xTlbInsert guestPageSize a w.ra
    pure w.ra

/-- One level of the guest's walk: the guest real address of its entry and the translation of that address. -/
structure Row where
  guest : BitVec 64
  host : Host
deriving DecidableEq, Repr

/-- 728-739, 741-752, 754-765, 783-795: a guest level and its nested translation. -/
def guestLevel (type : Lvl) (a : Addr) : X (Pte × Row) := do
  let pte ← processPte type a
  let host ← partitionTranslate (NESTED_PTE ||| X_LEVEL (htmLevel type)) (processRealAddr a.lpid pte.address)
  pure (pte, ⟨pte.address, host⟩)

/-- 768-779, 797-808: the final address. -/
def finalLevel (a : Addr) (guestPageSize : Nat) : X Row := do
  let guest ← processRealAddr' a guestPageSize
  let host ← partitionTranslate (X_HOST_RA ||| X_GUEST_PTE ||| X_FINAL_RA) (processRealAddr a.lpid guest)
  pure ⟨guest, host⟩

/-- 720-726: the process table. -/
def processTable (lpid : BitVec 32) : X Unit := do
  let _ ← take (X_HOST_RA ||| X_NO_GUEST_PTE ||| X_LEVEL 7)
  match ← take (X_GUEST_PTE ||| X_LEVEL 7) with
  | none => pure ()
  | some w => ignore (partitionTranslate (NESTED_PTE ||| X_LEVEL 7) (processRealAddr lpid w.ra))

/-- The result of a nested walk: its rows, the last one for the final address, and the guest page size. -/
structure Nested where
  rows : List Row
  final : Row
  guestPageSize : Nat
deriving DecidableEq, Repr

/-- 767-812. -/
def nestedLower (a : Addr) (rows : List Row) (pmd : Pte) : X Nested :=
  if pmd.leaf then do
    let f ← finalLevel a pmd.pageSize
    pure ⟨rows, f, pmd.pageSize⟩
  else do
    let (pte, r) ← guestLevel .pte a
    let f ← finalLevel a pte.pageSize
    pure ⟨rows ++ [r], f, pte.pageSize⟩

/-- 705-818 `xlate_decode_nested_radix`. -/
def nestedRadix (a : Addr) : X Nested := do
  processTable a.lpid
  let (_, r0) ← guestLevel .pgd a
  let (_, r1) ← guestLevel .pud a
  let (pmd, r2) ← guestLevel .pmd a
  nestedLower a [r0, r1, r2] pmd

/-- The array element, or zero as `memset` left it. -/
def nth (l : List (BitVec 64)) (i : Nat) : BitVec 64 := l[i]?.getD 0

/-- 77-85 `int_array_max`. -/
def arrayMax (l : List Nat) : Nat := l.foldl max 0

/-- 728-816: what a nested walk stores in the cleared record. -/
def Nested.radix (n : Nested) : Qt.Radix :=
  let all := n.rows ++ [n.final]
  { type := .unspecified
    nrPtes := arrayMax (all.map (·.host.ptes.length))
    nrWalks := all.length
    hostPtes := fun i j => nth ((all[i]?.map (·.host.ptes)).getD []) j
    hostRas := nth (n.rows.map (·.host.real))
    guestRas := nth (all.map (·.guest)) }

/-- 820-841: what a walk in guest real mode stores in the cleared record. -/
def Host.radix (h : Host) : Qt.Radix :=
  { type := .guestReal
    nrPtes := h.ptes.length
    nrWalks := 1
    hostPtes := fun i j => if i = 0 then nth h.ptes j else 0 }

/-- The state of the module and of the ones below it. -/
structure St where
  caches : Caches := {}
  partials : List Xlate := []
  erat : Erat.St Qt.Radix := Erat.init

/-- The results of `xlate_decode` and `xlate_lookup`. -/
structure Res where
  ok : Bool
  rcd : Qt.Radix := {}
  host : Nat := 0
  guest : Nat := 0

/-- 892-900 `xlate_complete`. -/
def complete (x : Xlate) : Except Bad Bool :=
  if x.nwalks = 0 then .ok true
  else match x.walks[x.nwalks - 1]? with
    | none => .error .overflow
    | some w => .ok (w.finalRa && w.hostRa)

/-- 902-912 `xlate_fixup`: the fields not assigned keep what the array element had. -/
def fixup (x : Xlate) (hv reloc : Bool) (real : BitVec 64) : Except Bad Xlate :=
  if !hv && reloc then
    match x.walks[x.nwalks]? with
    | none => .error .overflow
    | some w =>
      .ok { x with
            walks := x.walks.set x.nwalks { w with finalRa := true, ra := real, hostRa := true, guestPte := true }
            nwalks := x.nwalks + 1 }
  else .ok x

/-- 932-934. -/
def fixIncomplete (x : Xlate) (hv reloc : Bool) (real : BitVec 64) : Except Bad Xlate :=
  match complete x with
  | .error e => .error e
  | .ok true => .ok x
  | .ok false => fixup x hv reloc real

/-- 938-982: a walk that was decoded goes into the ERAT; `leftover` tells that walks remain (978-980). -/
def finishDecode (st : St) (rcd : Qt.Radix) (host guest insGuest : Nat) (address real : BitVec 64) (leftover : Bool) :
    Except Bad (Res × St) :=
  match Erat.insert st.erat host address real rcd insGuest with
  | none => .error .assert
  | some e => .ok (if leftover then { ok := false } else { ok := true, rcd := rcd, host := host, guest := guest }, { st with erat := e })

/-- 940-960. -/
def decodeNested (st : St) (x : Xlate) (address real : BitVec 64) : Except Bad (Res × St) :=
  match nestedRadix ⟨0, x.lpid, x.pid, address⟩ ⟨x.walks.take x.nwalks, st.caches⟩ with
  | .error e => .error e
  | .ok (none, s) => .ok ({ ok := false }, { st with caches := s.caches })
  | .ok (some n, s) =>
    if n.final.host.real &&& pageMask 12 ≠ real then .error .assert
    else finishDecode { st with caches := s.caches } n.radix n.final.host.pageSize n.guestPageSize n.guestPageSize address real
      (!s.rest.isEmpty)

/-- 963-976. -/
def decodeGuestReal (st : St) (x : Xlate) (address real : BitVec 64) : Except Bad (Res × St) :=
  match partitionTranslate X_HOST_RA ⟨0, x.lpid, x.pid, address⟩ ⟨x.walks.take x.nwalks, st.caches⟩ with
  | .error e => .error e
  | .ok (none, s) => .ok ({ ok := false }, { st with caches := s.caches })
  | .ok (some h, s) =>
    finishDecode { st with caches := s.caches } h.radix h.pageSize 0 h.pageSize address real (!s.rest.isEmpty)

/-- 936-1004: decode the walk. -/
def decodeWalk (st : St) (x : Xlate) (hv reloc : Bool) (address real : BitVec 64) : Except Bad (Res × St) :=
  match hv, reloc with
  | true, true => .error .assert
  | false, true => decodeNested st x address real
  | true, false => .ok ({ ok := x.nwalks = 0 }, st)
  | false, false => decodeGuestReal st x address real

/-- 914-1004 `xlate_decode`.  The walk of the caller is changed by `xlate_fixup` unless it was merged with a stored one. -/
def decode (st : St) (x : Xlate) (hv reloc : Bool) (address real : BitVec 64) : Except Bad (Res × Xlate × St) :=
  match partialLookup st.partials x with
  | .error e => .error e
  | .ok (m, l) =>
    match fixIncomplete (m.getD x) hv reloc real with
    | .error e => .error e
    | .ok y =>
      match decodeWalk { st with partials := l } y hv reloc address real with
      | .error e => .error e
      | .ok (r, st) => .ok (r, if m.isSome then x else y, st)

/-- Search the ERAT for the page sizes in turn: 854-866, 871-879. -/
def eratSearch (e : Erat.St Qt.Radix) (address real : BitVec 64) : List Nat → Except Bad (Option (Erat.Val Qt.Radix))
  | [] => .ok none
  | s :: l =>
    match Erat.get e s address real with
    | none => .error .assert
    | some (some v) => .ok (some v)
    | some none => eratSearch e address real l

/-- 857-858: replace the page offset of the last guest real address.  An index outside the array and a shift by 64 or more
are undefined. -/
def setOffset (v : Erat.Val Qt.Radix) (address : BitVec 64) : Except Bad Qt.Radix :=
  if v.rcd.nrWalks = 0 ∨ 5 < v.rcd.nrWalks ∨ 64 ≤ v.guest then .error .overflow
  else .ok { v.rcd with guestRas := (fun i =>
    if i = v.rcd.nrWalks - 1 then (v.rcd.guestRas i &&& pageMask v.guest) ||| (address &&& ~~~ (pageMask v.guest))
    else v.rcd.guestRas i) }

/-- 843-890 `xlate_lookup`. -/
def lookup (st : St) (hv reloc : Bool) (address real : BitVec 64) : Except Bad Res :=
  if hv then .ok { ok := true }
  else match eratSearch st.erat address real hostPageSizes with
    | .error e => .error e
    | .ok none => .ok { ok := false }
    | .ok (some v) =>
      if reloc then
        match setOffset v address with
        | .error e => .error e
        | .ok r => .ok { ok := true, rcd := r, host := v.host, guest := v.guest }
      else .ok { ok := true, rcd := v.rcd, host := v.host, guest := 0 }

end Htm.Xl
