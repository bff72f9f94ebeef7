import Verif.Htm.Tlb
import Verif.Htm.Listing
/-!
Model of htm/tlb.c with its counters, and of `tlb_dump`, which `htmdecode -d` calls at the end.  Line numbers are of htm/tlb.c.

As in Tlb.lean, `none` is a failed assertion.  The counters of the entries are unsigned numbers of 64 bits.  Those of the cache are
`int`: where C leaves the overflow undefined they wrap here (the theorems have fewer than 2^31 calls).  The search by
`tlb_validate` (161-163) counts a hit only if the assertion around it fails.
-/
namespace Htm.Tlb

/-- 23-30 `struct tlbe`, with the counters. -/
structure Line where
  e : Entry
  hits : BitVec 64 := 0
  misses : BitVec 64 := 0

/-- 31-38 `struct tlb_cache`. -/
structure Counted where
  lines : List Line := []
  size : Nat := 0
  translations : BitVec 32 := 0
  noTranslation : BitVec 32 := 0
  changes : BitVec 32 := 0

/-- The cache without counters. -/
def Counted.cache (c : Counted) : Cache := { entries := c.lines.map Line.e, size := c.size }

/-- 134: a hit at index `i`. -/
def hit (l : List Line) (i : Nat) : List Line := l.modify i fun t => { t with hits := t.hits + 1 }

/-- 335-336: a miss in the hardware for the entry at index `i`. -/
def miss (l : List Line) (i : Nat) : List Line := l.modify i fun t => { t with misses := t.misses + 1 }

/-- 204-235 `tlb_ra_get`. -/
def countedGet (c : Counted) (ea flags : BitVec 64) : Option (Option (BitVec 64 × BitVec 64) × Counted) :=
  if flags &&& 1 = 0 then some (some (ea &&& 0x3fffffffffffffff, 0x1000), c)
  else
    let c := { c with translations := c.translations + 1 }
    match search c.cache.entries ea 0 with
    | none => none
    | some none => some (none, { c with noTranslation := c.noTranslation + 1 })
    | some (some i) =>
      match c.lines[i]? with
      | none => none
      | some t => (translate ea flags t.e).map fun ra => (some (ra, t.e.size), { c with lines := hit c.lines i })

/-- 251-278 `tlb_allocate`. -/
def countedAllocate (c : Counted) : Option Counted :=
  if c.size = 0 then some { c with size := 1 }
  else
    let c := { c with size := c.size * 2 }
    if validate c.cache then some c else none

/-- 237-249: insertion into a sorted array in the order of `tlb_compare_ea`. -/
def insertLine (t : Line) : List Line → List Line
  | [] => [t]
  | u :: l => if t.e.ea ≤ u.e.ea then t :: u :: l else u :: insertLine t l

/-- 349 `qsort`. -/
def sortLines : List Line → List Line
  | [] => []
  | t :: l => insertLine t (sortLines l)

/-- 349-352. -/
def countedFinish (c : Counted) : Option Counted :=
  let c := { c with lines := sortLines c.lines }
  if validate c.cache then some c else none

/-- 298-353 `tlb_ra_set`. -/
def countedSet (c : Counted) (ea flags ra pagesize : BitVec 64) : Option Counted :=
  if flags &&& 1 = 0 then some c
  else if pagesizeOk pagesize = false then none
  else if flagsOk flags = false then none
  else
    let tnew : Entry := { ea := ea &&& maskRpn pagesize, ra := ra &&& maskRpn pagesize, size := pagesize }
    match search c.cache.entries ea 0 with
    | none => none
    | some none =>
      match (if c.size = c.lines.length then countedAllocate c else some c) with
      | none => none
      | some c => countedFinish { c with lines := c.lines ++ [{ e := tnew }] }
    | some (some i) =>
      if c.cache.entries[i]? = some tnew then some { c with lines := miss (hit c.lines i) i }
      else countedFinish { c with lines := (hit c.lines i).set i { e := tnew }, changes := c.changes + 1 }

/-- A history of calls. -/
def countedRun : Counted → List Op → Option Counted
  | c, [] => some c
  | c, .set ea flags ra ps :: l => (countedSet c ea flags ra ps).bind fun c => countedRun c l
  | c, .get ea flags :: l => (countedGet c ea flags).bind fun r => countedRun r.2 l

/-- `%li` of a 64-bit number. -/
def fmtL (n : BitVec 64) : List Char := if n.toNat < 2 ^ 63 then Nat.toDigits 10 n.toNat else '-' :: Nat.toDigits 10 (2 ^ 64 - n.toNat)

/-- `%02i` of an index. -/
def fmt02 (i : Nat) : List Char := List.replicate (2 - (Nat.toDigits 10 i).length) '0' ++ Nat.toDigits 10 i

/-- 89-94 `tlb_print`, 285. -/
def dumpLine (p : Line × Nat) : List Char :=
  "TLBDUMP ".toList ++ fmt02 p.2 ++ ": ".toList ++ "ea:".toList ++ Ptr.Log.fmtPad 16 p.1.e.ea.toNat ++ " ra:".toList ++ Ptr.Log.fmtPad 16 p.1.e.ra.toNat ++
    " size:".toList ++ Ptr.Log.fmtPad 8 p.1.e.size.toNat ++ " miss:".toList ++ fmtL p.1.misses ++ " hit:".toList ++ fmtL p.1.hits ++ ['\n']

/-- 280-292 `tlb_dump`. -/
def dump (c : Counted) : List Char :=
  c.lines.zipIdx.flatMap dumpLine ++
    "TLBDUMP no translation: ".toList ++ fmtI c.noTranslation ++ " of ".toList ++ fmtI c.translations ++ ['\n'] ++
    "TLBDUMP replaced translations: ".toList ++ fmtI c.changes ++ ['\n']

end Htm.Tlb
