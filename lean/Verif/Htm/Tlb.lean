/-!
Model of htm/tlb.c, the effective-to-real translation cache of the HTM decoder.  Line numbers are of that file.

`none` stands for a failed assertion (abort).  Simplifications: the hit and miss counters of the entries, and the counters
printed by `tlb_dump` (280-292), are left out (they are in TlbDump.lean); the array is the list of its first `next` entries, the zeroed entries
between `next` and `size` being represented by `size` alone, so the check for holes (166-172), which looks at those, holds
by construction; `int` indices do not overflow; allocation does not fail.
-/
namespace Htm.Tlb

/-- tlb.c:23-30 `struct tlbe` (a valid one). -/
structure Entry where
  ea : BitVec 64
  ra : BitVec 64
  size : BitVec 64
deriving DecidableEq, Repr

/-- tlb.c:31-38 `struct tlb_cache`. -/
structure Cache where
  entries : List Entry := []
  size : Nat := 0
deriving DecidableEq

/-- tlb.c:43-46 `tlb_mask_offset`. -/
def maskOffset (size : BitVec 64) : BitVec 64 := size - 1
/-- tlb.c:48-51 `tlb_mask_rpn`. -/
def maskRpn (size : BitVec 64) : BitVec 64 := ~~~ (maskOffset size)

/-- tlb.c:53-56 `tlb_pagesize_validate`. -/
def pagesizeOk (size : BitVec 64) : Bool := size == 4096 || size == 65536 || size == 16777216

/-- tlb.c:58-61 `tlb_flags_validate`. -/
def flagsOk (flags : BitVec 64) : Bool := flags &&& ~~~ 1 == 0

/-- tlb.c:78-87 `tlb_entry_validate`. -/
def entryOk (t : Entry) : Bool :=
  pagesizeOk t.size && (t.ea &&& maskOffset t.size == 0) && (t.ra &&& maskOffset t.size == 0)

/-- tlb.c:96-106 `tlb_compare`. -/
def compare (ea : BitVec 64) (t : Entry) : Option Ordering :=
  if entryOk t then
    some (if ea < t.ea then .lt else if ea > t.ea + t.size - 1 then .gt else .eq)
  else none

/-- tlb.c:117-138: the loop of the binary search.  `fuel` bounds the iterations, each of which makes the interval smaller;
`search` starts with more than the number of entries (`search_fuel` shows it is never exhausted). -/
def searchLoop (l : List Entry) (ea : BitVec 64) : (fuel : Nat) → (first last : Int) → Option (Option Nat)
  | 0, _, _ => some none
  | fuel + 1, first, last =>
    if first ≤ last then
      let middle := (first + last) / 2
      match l[middle.toNat]? with
      | none => none
      | some t =>
        match compare ea t with
        | none => none
        | some .lt => if first = last then some none else searchLoop l ea fuel first (middle - 1)
        | some .gt => if first = last then some none else searchLoop l ea fuel (middle + 1) last
        | some .eq => some (some middle.toNat)
    else some none

/-- tlb.c:108-141 `__tlb_get_index`. -/
def search (l : List Entry) (ea : BitVec 64) (start : Nat) : Option (Option Nat) :=
  searchLoop l ea (l.length + 1) start ((l.length : Int) - 1)

/-- tlb.c:157-164: one turn of the overlap check. -/
def checkOne (l : List Entry) (i : Nat) (t : Entry) : Bool :=
  search l t.ea (i + 1) == some none && search l (t.ea + t.size - 1) (i + 1) == some none

/-- tlb.c:148-173 `tlb_validate`. -/
def validate (c : Cache) : Bool :=
  decide (c.entries.length ≤ c.size) && (c.entries.zipIdx.all fun x => checkOne c.entries x.2 x.1)

/-- tlb.c:175-192 `tlb_translate`. -/
def translate (ea flags : BitVec 64) (t : Entry) : Option (BitVec 64) :=
  if ea ≥ t.ea && decide (ea < t.ea + t.size) && flagsOk flags && entryOk t then
    some ((ea &&& maskOffset t.size) ||| (t.ra &&& maskRpn t.size))
  else none

/-- tlb.c:204-235 `tlb_ra_get`: outer `none` is an abort, inner `none` is `return false`. -/
def raGet (c : Cache) (ea flags : BitVec 64) : Option (Option (BitVec 64 × BitVec 64)) :=
  if flags &&& 1 = 0 then some (some (ea &&& 0x3fffffffffffffff, 0x1000))
  else
    match search c.entries ea 0 with
    | none => none
    | some none => some none
    | some (some i) =>
      match c.entries[i]? with
      | none => none
      | some t => (translate ea flags t).map fun ra => some (ra, t.size)

/-- tlb.c:251-278 `tlb_allocate`. -/
def allocate (c : Cache) : Option Cache :=
  if c.size = 0 then some { c with size := 1 }
  else
    let c := { c with size := c.size * 2 }
    if validate c then some c else none

/-- tlb.c:237-249: insertion into a sorted array in the order of `tlb_compare_ea`. -/
def insertEa (t : Entry) : List Entry → List Entry
  | [] => [t]
  | u :: l => if t.ea ≤ u.ea then t :: u :: l else u :: insertEa t l

/-- tlb.c:237-249, 347-349 `qsort` by `ea`.  The order of entries with equal `ea` is unspecified in C; `validate` aborts on those in
any order (`validate_dup`). -/
def sortEa : List Entry → List Entry
  | [] => []
  | t :: l => insertEa t (sortEa l)

/-- tlb.c:346-352: sort and check. -/
def finish (c : Cache) : Option Cache :=
  let c := { c with entries := sortEa c.entries }
  if validate c then some c else none

/-- tlb.c:298-352 `tlb_ra_set`. -/
def raSet (c : Cache) (ea flags ra pagesize : BitVec 64) : Option Cache :=
  if flags &&& 1 = 0 then some c
  else if pagesizeOk pagesize = false then none
  else if flagsOk flags = false then none
  else
    let tnew : Entry := { ea := ea &&& maskRpn pagesize, ra := ra &&& maskRpn pagesize, size := pagesize }
    match search c.entries ea 0 with
    | none => none
    | some none =>
      match (if c.size = c.entries.length then allocate c else some c) with
      | none => none
      | some c => finish { c with entries := c.entries ++ [tnew] }
    | some (some i) =>
      if c.entries[i]? = some tnew then some c
      else finish { c with entries := c.entries.set i tnew }

/-- A call of the interface. -/
inductive Op where
  | set (ea flags ra pagesize : BitVec 64)
  | get (ea flags : BitVec 64)

/-- A history of calls, from an empty cache (tlb.c:39, 194-197).  Lookups leave the modelled state alone. -/
def run : Cache → List Op → Option Cache
  | c, [] => some c
  | c, .set ea flags ra ps :: l => (raSet c ea flags ra ps).bind fun c => run c l
  | c, .get ea flags :: l => (raGet c ea flags).bind fun _ => run c l

end Htm.Tlb
