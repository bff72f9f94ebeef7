import Verif.Htm.Pwc
/-!
Specification for C70: radix page tables, and the steps of a nested translation that the processor writes into a dump.

The processor translates an effective address of a guest in two stages: the guest's tables are at guest real addresses,
each of which the host's tables translate to a host real address.  It does not write a step that it had in its own caches.
Here a step may be missing only if an address that uses the same entry was translated before.
-/
namespace Htm.Mmu
open Htm
open Htm.Pwc (Walk)

/-- Radix tables of four levels, as functions of the address of an entry: the table an entry points to, whether it maps a
page, and the number of that page.  `small` is the logarithm of the size of the pages of the lowest level. -/
structure Table where
  root : BitVec 64
  next : BitVec 64 → BitVec 64
  leaf : BitVec 64 → Bool
  page : BitVec 64 → Nat
  small : Nat

namespace Table
variable (T : Table)

/-- The number of the lowest address bit that selects an entry of a level. -/
def shift : Nat → Nat
  | 0 => 39
  | 1 => 30
  | 2 => 21
  | _ => T.small

/-- The number of the bit above those that select the entry. -/
def top : Nat → Nat
  | 0 => 52
  | 1 => 39
  | 2 => 30
  | _ => 21

/-- The number of an address' entry in its table. -/
def index (i : Nat) (a : BitVec 64) : Nat := a.toNat % 2 ^ top i / 2 ^ T.shift i

/-- The address of the entry of each level. -/
def entry : Nat → BitVec 64 → BitVec 64
  | 0, a => T.root + BitVec.ofNat 64 (8 * T.index 0 a)
  | i + 1, a => T.next (entry i a) + BitVec.ofNat 64 (8 * T.index (i + 1) a)

/-- The number of levels used for an address: the second or third level may map a page, the fourth does. -/
def depth (a : BitVec 64) : Nat := if T.leaf (T.entry 1 a) then 2 else if T.leaf (T.entry 2 a) then 3 else 4

/-- The addresses of the entries used for an address. -/
def path (a : BitVec 64) : List (BitVec 64) := (List.range (T.depth a)).map fun i => T.entry i a

/-- The logarithm of the size of the page. -/
def size (a : BitVec 64) : Nat := T.shift (T.depth a - 1)

/-- The number of the page. -/
def frame (a : BitVec 64) : Nat := T.page (T.entry (T.depth a - 1) a)

/-- The translation. -/
def real (a : BitVec 64) : BitVec 64 := BitVec.ofNat 64 (T.frame a * 2 ^ T.size a + a.toNat % 2 ^ T.size a)

/-- Small pages have 4 or 64 kB, and pages are within the 52-bit address space. -/
def Ok : Prop := (T.small = 12 ∨ T.small = 16) ∧ ∀ a, T.frame a * 2 ^ T.size a < 2 ^ 52

/-- Two addresses that use the same entries down to the level. -/
def Same (i : Nat) (a b : BitVec 64) : Prop := a.toNat % 2 ^ 52 / 2 ^ T.shift i = b.toNat % 2 ^ 52 / 2 ^ T.shift i

/-- Two addresses of the same page. -/
def SamePage (a b : BitVec 64) : Prop := T.Same (T.depth a - 1) a b

/-- Two addresses that use the same table at the level. -/
def SameTable (i : Nat) (a b : BitVec 64) : Prop := ∀ j, i = j + 1 → T.Same j a b

/-- The code of the size of small pages in the level field of final addresses. -/
def code : BitVec 32 := if T.small = 12 then 0 else 1

end Table

/-- The tables of all partitions, and of all processes. -/
structure Tables where
  host : BitVec 32 → Table
  guest : BitVec 32 → BitVec 32 → Table

/-- Guests use pages of at most 2 MB. -/
def Tables.Ok (S : Tables) : Prop :=
  (∀ l, (S.host l).Ok) ∧ ∀ l p, ((S.guest l p).small = 12 ∨ (S.guest l p).small = 16) ∧ ∀ a, (S.guest l p).depth a ≠ 2

/-- The level field of a level. -/
def level : Nat → BitVec 32
  | 0 => 6
  | 1 => 4
  | 2 => 2
  | _ => 0

/-! The records of a walk. -/

/-- An entry of the host's tables. -/
def hostEntry (l : BitVec 32) (ra : BitVec 64) : Walk := { hostRa := true, level := l, ra := ra }
/-- The guest real address of an entry of the guest's tables. -/
def guestEntry (l : BitVec 32) (ra : BitVec 64) : Walk := { guestPte := true, level := l, ra := ra }
/-- The host real address of an entry of the guest's tables. -/
def nestedEntry (l : BitVec 32) (ra : BitVec 64) : Walk := { hostRa := true, guestPte := true, level := l, ra := ra }
/-- The guest real address translated to. -/
def guestFinal (l : BitVec 32) (ra : BitVec 64) : Walk := { finalRa := true, guestPte := true, level := l, ra := ra }

/-- The entries of the host's tables for an address, without the first `k`. -/
def hostWalk (T : Table) (g : BitVec 64) (k : Nat) : List Walk :=
  ((List.range (T.depth g)).drop k).map fun i => hostEntry (level i) (T.entry i g)

/-- How much of a level of the guest's walk is written. -/
inductive Form where
  /-- The entry, its translation without the first `k` levels, and the result of that. -/
  | full (k : Nat)
  /-- Only the result of the translation of the address of the entry. -/
  | short
  /-- Nothing. -/
  | hidden
deriving DecidableEq, Repr

/-- The records of level `i` of a guest's walk, for the entry at `e`. -/
def rowRecords (T : Table) (i : Nat) (e : BitVec 64) : Form → List Walk
  | .full k => guestEntry (level i) e :: (hostWalk T e k ++ [nestedEntry (level i) (T.real e)])
  | .short => [nestedEntry (level i) (T.real e)]
  | .hidden => []

/-- The records of the levels from `i` on. -/
def rowsRecords (T G : Table) (a : BitVec 64) : Nat → List Form → List Walk
  | _, [] => []
  | i, f :: l => rowRecords T i (G.entry i a) f ++ rowsRecords T G a (i + 1) l

/-- A lookup in the process table: whether the entry of the partition table is written, the guest real address and host real
address of the process table entry, and the levels omitted. -/
structure Proc where
  partition : Option (BitVec 64)
  entry : BitVec 64
  omitted : Nat

/-- The nested translation of an effective address. -/
structure Translation where
  lpid : BitVec 32
  pid : BitVec 32
  address : BitVec 64
  proc : Option Proc
  forms : List Form
  /-- The guest real and host real address as written, with the level fields. -/
  guest : BitVec 64
  guestLevel : BitVec 32
  real : BitVec 64
  realLevel : BitVec 32
  /-- The levels omitted of the translation of the final guest real address. -/
  omitted : Nat
  /-- Flags of the last record that have no meaning for the translation. -/
  exception : Bool := false
  finalRecord : Bool := false

/-- The record of the host real address translated to. -/
def Translation.last (t : Translation) : Walk :=
  { finalRa := true, exception := t.exception, guestPte := true, hostRa := true, finalRecord := t.finalRecord,
    level := t.realLevel, ra := t.real }

def procRecords (T : Table) : Option Proc → List Walk
  | none => []
  | some p =>
    (match p.partition with
      | none => []
      | some r => [hostEntry 7 r]) ++
    (guestEntry 7 p.entry :: (hostWalk T p.entry p.omitted ++ [nestedEntry 7 (T.real p.entry)]))

/-- The records of a translation. -/
def Translation.records (S : Tables) (t : Translation) : List Walk :=
  procRecords (S.host t.lpid) t.proc ++
  (rowsRecords (S.host t.lpid) (S.guest t.lpid t.pid) t.address 0 t.forms ++
  (guestFinal t.guestLevel t.guest :: (hostWalk (S.host t.lpid) t.guest t.omitted ++ [t.last])))

/-- The addresses that were translated: guest real addresses by the host's tables, effective addresses by the guest's. -/
structure Seen where
  host : List (BitVec 32 × BitVec 64) := []
  guest : List (BitVec 32 × BitVec 32 × BitVec 64) := []

/-- The first `k` levels of the host's walk for an address were used before. -/
def Omittable (S : Tables) (seen : Seen) (lpid : BitVec 32) (g : BitVec 64) (k : Nat) : Prop :=
  k ≤ (S.host lpid).depth g ∧ ∀ i < k, ∃ g', (lpid, g') ∈ seen.host ∧ (S.host lpid).Same i g g'

/-- The page was translated before. -/
def PageSeen (S : Tables) (seen : Seen) (lpid : BitVec 32) (g : BitVec 64) : Prop :=
  ∃ g', (lpid, g') ∈ seen.host ∧ (S.host lpid).SamePage g g'

/-- What must be known for a level of a guest's walk to be written in a form. -/
def FormOk (S : Tables) (seen : Seen) (lpid pid : BitVec 32) (a : BitVec 64) (i : Nat) : Form → Prop
  | .full k => Omittable S seen lpid ((S.guest lpid pid).entry i a) k
  | .short => PageSeen S seen lpid ((S.guest lpid pid).entry i a) ∧
      ∃ a', (lpid, pid, a') ∈ seen.guest ∧ (S.guest lpid pid).SameTable i a a'
  | .hidden => PageSeen S seen lpid ((S.guest lpid pid).entry i a) ∧
      ∃ a', (lpid, pid, a') ∈ seen.guest ∧ (S.guest lpid pid).Same i a a'

def Seen.addHost (seen : Seen) (lpid : BitVec 32) (g : BitVec 64) : Seen := { seen with host := (lpid, g) :: seen.host }

/-- The same for the levels from `i` on.  The levels that are not written are the first. -/
def FormsOk (S : Tables) (lpid pid : BitVec 32) (a : BitVec 64) : Nat → Seen → List Form → Prop
  | _, _, [] => True
  | i, seen, f :: l =>
    FormOk S seen lpid pid a i f ∧ (f ≠ .hidden → ∀ f' ∈ l, ∃ k, f' = .full k) ∧
      FormsOk S lpid pid a (i + 1) (seen.addHost lpid ((S.guest lpid pid).entry i a)) l

/-- Some row of the translation has an entry of small host pages written. -/
def SmallWritten (T : Table) (g : BitVec 64) (k : Nat) : Prop := T.depth g = 4 ∧ k < 4

def Seen.addProc (seen : Seen) (lpid : BitVec 32) : Option Proc → Seen
  | none => seen
  | some p => seen.addHost lpid p.entry

/-- After the rows. -/
def Seen.addRows (seen : Seen) (S : Tables) (t : Translation) : Seen :=
  { seen with host := ((S.guest t.lpid t.pid).path t.address).reverse.map (fun e => (t.lpid, e)) ++ seen.host }

/-- A translation the processor may write after those before. -/
structure Translation.Valid (S : Tables) (seen : Seen) (t : Translation) : Prop where
  proc : ∀ p, t.proc = some p → Omittable S seen t.lpid p.entry p.omitted
  length : t.forms.length = (S.guest t.lpid t.pid).depth t.address
  forms : FormsOk S t.lpid t.pid t.address 0 (seen.addProc t.lpid t.proc) t.forms
  /-- The addresses written are in the pages translated to. -/
  guest : t.guest.toNat / 2 ^ (S.guest t.lpid t.pid).size t.address = (S.guest t.lpid t.pid).frame t.address
  real : t.real.toNat / 2 ^ (S.host t.lpid).size t.guest = (S.host t.lpid).frame t.guest
  omitted : Omittable S ((seen.addProc t.lpid t.proc).addRows S t) t.lpid t.guest t.omitted
  guestLevel : (S.guest t.lpid t.pid).depth t.address = 4 → t.guestLevel = (S.guest t.lpid t.pid).code
  notProc : t.guestLevel ≠ 7
  /-- If an entry for small pages of the host is written, the final address is in a small page too. -/
  smallProc : ∀ p, t.proc = some p → SmallWritten (S.host t.lpid) p.entry p.omitted → t.realLevel = (S.host t.lpid).code
  smallRows : ∀ i k, t.forms[i]? = some (.full k) →
    SmallWritten (S.host t.lpid) ((S.guest t.lpid t.pid).entry i t.address) k → t.realLevel = (S.host t.lpid).code
  smallFinal : SmallWritten (S.host t.lpid) t.guest t.omitted → t.realLevel = (S.host t.lpid).code

/-- After the translation. -/
def Seen.add (seen : Seen) (S : Tables) (t : Translation) : Seen :=
  { ((seen.addProc t.lpid t.proc).addRows S t).addHost t.lpid t.guest with guest := (t.lpid, t.pid, t.address) :: seen.guest }

/-- The guest real addresses of a translation: those of the guest's entries, and the final one. -/
def Translation.guestRas (S : Tables) (t : Translation) : List (BitVec 64) :=
  (S.guest t.lpid t.pid).path t.address ++ [t.guest]

/-- A translation without omissions. -/
structure Translation.Complete (t : Translation) : Prop where
  proc : ∀ p, t.proc = some p → p.omitted = 0
  forms : ∀ f ∈ t.forms, f = .full 0
  omitted : t.omitted = 0

/-! Addresses without walk. -/

/-- The page of a translation: the smaller one of the guest's and the host's. -/
def Translation.page (S : Tables) (t : Translation) : Nat :=
  min ((S.host t.lpid).size t.guest) ((S.guest t.lpid t.pid).size t.address)

/-- The guest real address written is the one the guest's tables translate to. -/
def Translation.Exact (S : Tables) (t : Translation) : Prop :=
  t.guest.toNat / 2 ^ 12 = ((S.guest t.lpid t.pid).real t.address).toNat / 2 ^ 12

/-- The effective address and the real address are in the pages of the translation. -/
def Translation.Covers (S : Tables) (t : Translation) (real a r : BitVec 64) : Prop :=
  a.toNat / 2 ^ t.page S = t.address.toNat / 2 ^ t.page S ∧ r.toNat / 2 ^ t.page S = real.toNat / 2 ^ t.page S

/-- The translation of another address of that process. -/
def Translation.move (S : Tables) (t : Translation) (a : BitVec 64) : Translation :=
  { t with address := a, guest := (S.guest t.lpid t.pid).real a }

end Htm.Mmu
