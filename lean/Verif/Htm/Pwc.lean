import Verif.Htm.Cache
import Verif.Htm.Pages
/-!
htm/pwc.c: the page-walk cache, the translation caches and the store of interrupted walks (line numbers are of that file).

The hash tables are maps (`Htable.Map.refines`); padding bytes of the keys, which the hash function reads, are taken to be
zero, as `calloc` and the `{ 0 }` initialisers leave them.
-/
namespace Htm.Pwc
open Htm

/-- htm/xlate.h:19-24 `struct xlate_address`. -/
structure Addr where
  msr : BitVec 32
  lpid : BitVec 32
  pid : BitVec 32
  address : BitVec 64
deriving DecidableEq, Repr

/-- htm/xlate.h:32-39 `enum xlate_pte_type`. -/
inductive Lvl where
  | pgd | pud | pmd | pte | pte4k | pte64k
deriving DecidableEq, Repr

/-- 95-98 `struct page_walk_cache_key`; `L` is the page size in the translation caches and the level in the walk cache. -/
structure Key (L : Type) where
  level : L
  addr : Addr
deriving DecidableEq, Repr

/-- 103-106 `struct page_walk_cache_val`: the address of the directory and which of its entries are known leaves. -/
structure Dir where
  real : BitVec 64
  leaves : Cache (BitVec 64) Bool

/-- 170, 173, 401: the three hash tables. -/
structure Caches where
  walk : Cache (Key Lvl) Dir := Cache.empty
  tlb : Cache (Key Nat) (BitVec 64) := Cache.empty
  rev : Cache (Key Nat) (BitVec 64) := Cache.empty

/-- The cases of the switches over page sizes: 188-206, 236-255, 413-432, 462-485. -/
def sizes : List Nat := [12, 16, 21, 30]

/-- The address replaced by that of its page. -/
def Addr.page (a : Addr) (s : Nat) : Addr := { a with address := pteAddress s a.address }

/-- 182-222 `pwc_tlb_insert` and 407-446 `pwc_reverse_insert` do the same in their tables; `none` is `assert(0)`. -/
def pageInsert (c : Cache (Key Nat) (BitVec 64)) (s : Nat) (a : Addr) (real : BitVec 64) :
    Option (Cache (Key Nat) (BitVec 64)) :=
  if s ∈ sizes then some (c.put ⟨s, a.page s⟩ fun _ => pteAddress s real) else none

/-- 229-267 `pwc_tlb_get` and 453-496 `pwc_reverse_get`; the outer `none` is `assert(0)`. -/
def pageGet (c : Cache (Key Nat) (BitVec 64)) (s : Nat) (a : Addr) : Option (Option (BitVec 64)) :=
  if s ∈ sizes then some ((c ⟨s, a.page s⟩).map (· + pageOffset s a.address)) else none

/-- 182-222. -/
def tlbInsert (c : Caches) (s : Nat) (a : Addr) (real : BitVec 64) : Option Caches :=
  (pageInsert c.tlb s a real).map fun t => { c with tlb := t }

/-- 229-267. -/
def tlbGet (c : Caches) (s : Nat) (a : Addr) : Option (Option (BitVec 64)) := pageGet c.tlb s a

/-- 407-446. -/
def revInsert (c : Caches) (s : Nat) (a : Addr) (real : BitVec 64) : Option Caches :=
  (pageInsert c.rev s a real).map fun t => { c with rev := t }

/-- 453-496. -/
def revGet (c : Caches) (s : Nat) (a : Addr) : Option (Option (BitVec 64)) := pageGet c.rev s a

/-- 280-303, 349-372: the part of the address that selects the directory (htm/xlate.h:145-178); `none` is `assert(0)`. -/
def dirAddress : Lvl → BitVec 64 → Option (BitVec 64)
  | .pgd, _ => some 0
  | .pud, a => some (pteAddress 39 a)
  | .pmd, a => some (pteAddress 30 a)
  | .pte64k, a => some (pteAddress 21 a)
  | .pte4k, a => some (pteAddress 21 a)
  | .pte, _ => none

/-- 280-303, 349-372: the offset in the directory (htm/xlate.h:135-173). -/
def dirOffset : Lvl → BitVec 64 → BitVec 64
  | .pgd, a => tableIndex 39 13 a
  | .pud, a => tableIndex 30 9 a
  | .pmd, a => tableIndex 21 9 a
  | .pte64k, a => tableIndex 16 5 a
  | .pte4k, a => tableIndex 12 9 a
  | .pte, _ => 0

/-- 308-328: the directory found is changed in place, a new one has one known entry. -/
def dirUpdate (base offset : BitVec 64) (leaf : Bool) : Option Dir → Dir
  | none => ⟨base, Cache.empty.put offset fun _ => leaf⟩
  | some d => ⟨base, d.leaves.put offset fun _ => leaf⟩

/-- 274-330 `pwc_insert`; `none` is `assert(0)`. -/
def insert (c : Caches) (l : Lvl) (a : Addr) (real : BitVec 64) (leaf : Bool) : Option Caches :=
  match dirAddress l a.address with
  | none => none
  | some d =>
    some { c with walk := c.walk.put ⟨l, { a with address := d }⟩
                            (dirUpdate (real - dirOffset l a.address) (dirOffset l a.address) leaf) }

/-- 342-393 `pwc_get`: the address of the entry and, if known, whether it is a leaf (`flags` 0 is `none`); the outer `none`
is `assert(0)`, the inner one the result -1. -/
def get (c : Caches) (l : Lvl) (a : Addr) : Option (Option (BitVec 64 × Option Bool)) :=
  match dirAddress l a.address with
  | none => none
  | some d =>
    some ((c.walk ⟨l, { a with address := d }⟩).map fun v => (v.real + dirOffset l a.address, v.leaves (dirOffset l a.address)))

/-- htm/htm_types.h:99-107 `struct htm_insn_walk`. -/
structure Walk where
  finalRa : Bool := false
  exception : Bool := false
  guestPte : Bool := false
  hostRa : Bool := false
  finalRecord : Bool := false
  level : BitVec 32 := 0
  ra : BitVec 64 := 0
deriving DecidableEq, Repr

/-- The capacity of the array of walks, htm/htm_types.h:115. -/
def MAXW : Nat := 38

/-- htm/htm_types.h:110-116 `struct htm_insn_xlate`; `walks` has `MAXW` elements. -/
structure Xlate where
  dSide : Bool := false
  lpid : BitVec 32 := 0
  pid : BitVec 32 := 0
  nwalks : Nat := 0
  walks : List Walk := List.replicate MAXW {}
deriving DecidableEq, Repr

/-- How an operation on walks may end badly. -/
inductive Bad where
  /-- A failed `assert`. -/
  | assert
  /-- An access outside the array of walks. -/
  | overflow
deriving DecidableEq, Repr

/-- `walks[i] = w`. -/
def setWalk (ws : List Walk) (i : Nat) (w : Walk) : Except Bad (List Walk) :=
  if i < ws.length then .ok (ws.set i w) else .error .overflow

/-- 548-558: copy `old` until the first step of `new` or an exception; the result is the copy and `i`.  `fuel` is
`old.nwalks - i`. -/
def mergeOld (old : Xlate) (ra : BitVec 64) : Nat → Nat → List Walk → Except Bad (List Walk × Nat)
  | 0, i, t => .ok (t, i)
  | fuel + 1, i, t =>
    match old.walks[i]? with
    | none => .error .overflow
    | some w =>
      if w.ra = ra then .ok (t, i)
      else if w.exception then .ok (t, i)
      else match setWalk t i w with
        | .error e => .error e
        | .ok t => mergeOld old ra fuel (i + 1) t

/-- 564-565: append the walks of `new`.  `fuel` is `new.nwalks - j`. -/
def mergeNew (new : Xlate) : Nat → Nat → Nat → List Walk → Except Bad (List Walk × Nat)
  | 0, i, _, t => .ok (t, i)
  | fuel + 1, i, j, t =>
    match new.walks[j]? with
    | none => .error .overflow
    | some w =>
      match setWalk t i w with
      | .error e => .error e
      | .ok t => mergeNew new fuel (i + 1) (j + 1) t

/-- `walks[0].ra_address`. -/
def firstRa (x : Xlate) : Except Bad (BitVec 64) :=
  match x.walks[0]? with
  | none => .error .overflow
  | some w => .ok w.ra

/-- 532-570 `xlate_merge`; the merged walk. -/
def merge (old new : Xlate) : Except Bad Xlate :=
  if old.lpid ≠ new.lpid ∨ old.pid ≠ new.pid then .error .assert
  else match firstRa new with
    | .error e => .error e
    | .ok ra =>
      match mergeOld old ra old.nwalks 0 (List.replicate MAXW {}) with
      | .error e => .error e
      | .ok (t, i) =>
        if i = old.nwalks then .error .assert
        else match mergeNew new new.nwalks i 0 t with
          | .error e => .error e
          | .ok (t, i) => .ok { dSide := old.dSide, lpid := old.lpid, pid := old.pid, nwalks := i, walks := t }

/-- 575-592 `xlate_match`. -/
def xmatch (a b : Xlate) : Bool :=
  a.lpid == b.lpid && a.pid == b.pid && (a.walks.take a.nwalks).any fun w => some w.ra == (b.walks[0]?).map (·.ra)

/-- 617-638 `pwc_partial_insert`: the list of the interrupted walks; merged into the first that shares a step with it, else
appended. -/
def partialInsert : List Xlate → Xlate → Except Bad (List Xlate)
  | [], x => .ok [x]
  | n :: l, x =>
    if xmatch n x then
      match merge n x with
      | .error e => .error e
      | .ok m => .ok (m :: l)
    else
      match partialInsert l x with
      | .error e => .error e
      | .ok l => .ok (n :: l)

/-- 645-660 `pwc_partial_lookup`: the merged walk, if any, and the remaining list. -/
def partialLookup : List Xlate → Xlate → Except Bad (Option Xlate × List Xlate)
  | [], _ => .ok (none, [])
  | n :: l, x =>
    if xmatch n x then
      match merge n x with
      | .error e => .error e
      | .ok m => .ok (some m, l)
    else
      match partialLookup l x with
      | .error e => .error e
      | .ok (m, l) => .ok (m, n :: l)

/-- 666-684 `xlate_match_address`. -/
def matchAddress (x : Xlate) (address real : BitVec 64) : Bool :=
  (x.walks.take x.nwalks).any fun w =>
    w.finalRa && ((!w.hostRa && (address &&& ~~~ 0xc00000000000000f#64) == w.ra) || real == w.ra)

/-- 691-706 `pwc_address_lookup`. -/
def addressLookup : List Xlate → BitVec 64 → BitVec 64 → Option Xlate × List Xlate
  | [], _, _ => (none, [])
  | n :: l, a, r =>
    if matchAddress n a r then (some n, l)
    else ((addressLookup l a r).1, n :: (addressLookup l a r).2)

end Htm.Pwc
