/-!
# Cached physical addresses

Model of `ea_to_pa` of `ptracer/pagemap.c`. The base page size is 64 KiB and the huge page size 2 MiB, the
only values ever passed to `init_pagemaps` (ptracer/main.c:404). What the kernel answers to the two reads
of `/proc/<pid>/pagemap` and `/proc/kpageflags` is a parameter of every access; a read either delivers
eight bytes or fails.
-/

namespace Ptr

/-- What the kernel tells at one moment: the words of the two files by page number; `none` is a failing
`pread`. -/
structure Kernel where
  pagemap : BitVec 64 → Option (BitVec 64)
  kpageflags : BitVec 64 → Option (BitVec 64)

/-- `struct map`, ptracer/pagemap.c:29-33. -/
structure MapEntry where
  ea : BitVec 64
  pa : BitVec 64
  seq : BitVec 32

/-- The static variables, ptracer/pagemap.c:35-43. The arrays have 4096 entries; indices are taken modulo
4096. -/
structure Maps where
  seq : BitVec 32
  base : Nat → MapEntry
  huge : Nat → MapEntry

/-- Static storage starts as zeros. -/
def Maps.init : Maps := ⟨0#32, fun _ => ⟨0#64, 0#64, 0#32⟩, fun _ => ⟨0#64, 0#64, 0#32⟩⟩

/-- One call of `ea_to_pa`. -/
structure Access where
  kernel : Kernel
  ea : BitVec 64
  iside : Bool

/-- `base_pshift` and `huge_pshift`, ptracer/pagemap.c:62-63 with the sizes of ptracer/main.c:404. -/
abbrev basePshift : Nat := 16
abbrev hugePshift : Nat := 21

/-- The refresh intervals, ptracer/pagemap.c:25-26 and 83-86. -/
def maxInterval (iside : Bool) : Nat := if iside then 10000 else 100

/-- Result of a call. -/
inductive Pa where
  /-- `exit(1)` -/
  | exit
  /-- false: not present -/
  | no
  /-- true, with `*pa` and `*pshift` -/
  | yes (pa : BitVec 64) (pshift : Nat)
  deriving DecidableEq, Repr

def setEntry (f : Nat → MapEntry) (i : Nat) (e : MapEntry) : Nat → MapEntry := fun j => if j = i then e else f j

/-- `access_seq - entry.access_seq < max_interval` in 32-bit unsigned arithmetic. -/
def recent (now : BitVec 32) (e : MapEntry) (iv : Nat) : Bool := decide ((now - e.seq).toNat < iv)

/-- Reading the kernel's maps and filling the cache, ptracer/pagemap.c:112-150. -/
def fill (s : Maps) (a : Access) : Maps × Pa :=
  let bea := a.ea >>> basePshift
  let hea := a.ea >>> hugePshift
  match a.kernel.pagemap bea with
  | none => (s, .exit)
  | some w =>
    if w &&& (1#64 <<< 63) = 0#64 then (s, .no)
    else
      let pa := (w &&& 0x3fffffffffffff#64) <<< basePshift
      match a.kernel.kpageflags (pa >>> basePshift) with
      | none => (s, .exit)
      | some f =>
        if f &&& ((1#64 <<< 17) ||| (1#64 <<< 22)) ≠ 0#64 then
          ({ s with huge := setEntry s.huge (hea.toNat % 4096) ⟨hea, pa, s.seq⟩ }, .yes pa hugePshift)
        else
          ({ s with base := setEntry s.base (bea.toNat % 4096) ⟨bea, pa, s.seq⟩ }, .yes pa basePshift)

/-- `ea_to_pa`, ptracer/pagemap.c:74-151 (both intervals are nonzero, so the cache is always in use). -/
def eaToPa (s : Maps) (a : Access) : Maps × Pa :=
  let bea := a.ea >>> basePshift
  let hea := a.ea >>> hugePshift
  let s1 := { s with seq := s.seq + 1#32 }
  let be := s1.base (bea.toNat % 4096)
  let he := s1.huge (hea.toNat % 4096)
  if be.ea = bea ∧ recent s1.seq be (maxInterval a.iside) = true then (s1, .yes be.pa basePshift)
  else if he.ea = hea ∧ recent s1.seq he (maxInterval a.iside) = true then (s1, .yes he.pa hugePshift)
  else fill s1 a

/-- The state after a history of calls. -/
def runMaps (h : List Access) : Maps := h.foldl (fun s a => (eaToPa s a).1) Maps.init

end Ptr
