import Verif.Ptracer.Pagemap

/-! Page sizes: `init_pagemaps` of ptracer/pagemap.c, and the shifts of `ea_to_pa` by what it has found. -/
namespace Ptr

/-- `ffs` of the C library: the number of the lowest bit that is set, from 1, or 0. -/
def ffs (n : Nat) (w : BitVec n) : Nat := if w = 0#n then 0 else w.ctz.toNat + 1

/-- ptracer/pagemap.c:61-62: `ffs(~(size-1)) - 1`, stored in an unsigned long.  The argument of `ffs` is an int, so that the upper 32 bits are lost. -/
def pageShift (size : BitVec 64) : BitVec 64 := (BitVec.ofInt 32 ((ffs 32 ((~~~ (size - 1)).setWidth 32) : Int) - 1)).signExtend 64

/-- What `open` answers for the two files. -/
structure PageFiles where
  pagemap : String → Option Nat
  kpageflags : Option Nat

/-- The static variables set by `init_pagemaps`. -/
structure PageState where
  pmFd : Nat
  kpfFd : Nat
  base : BitVec 64
  huge : BitVec 64
  deriving DecidableEq, Repr

/-- How a call ends. -/
inductive PageInit where
  /-- `exit(1)` -/
  | exit
  /-- a shift by 64 bits or more -/
  | undefined
  | ok (s : PageState)
  deriving DecidableEq, Repr

/-- init_pagemaps, ptracer/pagemap.c:45-72, for a process number, the two sizes, and the page size that `sysconf` tells. -/
def initPagemaps (f : PageFiles) (sysconf : BitVec 64) (pid : Int) (basesz hugesz : BitVec 64) : PageInit :=
  match f.pagemap ("/proc/" ++ toString pid ++ "/pagemap") with
  | none => .exit
  | some pm =>
    match f.kpageflags with
    | none => .exit
    | some kpf =>
      if 64 ≤ (pageShift basesz).toNat then .undefined
      else if sysconf ≠ 1#64 <<< (pageShift basesz).toNat then .exit
      else .ok ⟨pm, kpf, pageShift basesz, pageShift hugesz⟩

/-- The page numbers of an address, ptracer/pagemap.c:76-77: `none` is a shift by 64 bits or more. -/
def pageNumbers (s : PageState) (ea : BitVec 64) : Option (BitVec 64 × BitVec 64) :=
  if 64 ≤ s.base.toNat ∨ 64 ≤ s.huge.toNat then none else some (ea >>> s.base.toNat, ea >>> s.huge.toNat)

end Ptr
