import Verif.Ptracer.Pagemap

/-!
# What the kernel's page map says about an address

Linux documentation of `/proc/<pid>/pagemap`: bit 63 of an entry says that the page is present, the low bits
are the page frame number; `/proc/kpageflags`: bits 17 (HUGE) and 22 (THP) say that the frame is part of a
huge page.
-/

namespace PmSpec
open Ptr (Access)

def bit (w : BitVec 64) (i : Nat) : Bool := decide (w.toNat / 2 ^ i % 2 = 1)

/-- At the moment of the access the kernel mapped the base page of the address to the frame starting at
`pa`, and `shift` is the size of the page that frame belongs to. -/
def Says (a : Access) (pa : BitVec 64) (shift : Nat) : Prop :=
  ∃ w f, a.kernel.pagemap (BitVec.ofNat 64 (a.ea.toNat / 2 ^ 16)) = some w ∧ bit w 63 = true ∧
    pa.toNat = w.toNat % 2 ^ 54 * 2 ^ 16 % 2 ^ 64 ∧
    a.kernel.kpageflags (BitVec.ofNat 64 (pa.toNat / 2 ^ 16)) = some f ∧
    shift = if bit f 17 || bit f 22 then 21 else 16

/-- Accesses between two refreshes: 10000 for instructions, 100 for data. -/
def interval (iside : Bool) : Nat := if iside then 10000 else 100

end PmSpec
