import Verif.Htm.SpecGuest
import Verif.Qt.SpecTranslation
/-!
Specification for C83: translations in the trace that the dump of a guest process is converted to.
-/
namespace Htm.Guest
open Htm Htm.Spec Htm.Mmu

/-- The walk of a translation, as far as the counts of a record go: guest real addresses, the host real addresses of the
guest's entries, and the host's entries. -/
structure Entries (S : Tables) (t : Translation) (x : Qt.Radix) : Prop where
  walks : x.nrWalks = (t.guestRas S).length
  guestRas : ∀ i e, (t.guestRas S)[i]? = some e → x.guestRas i = e
  hostRas : ∀ i e, ((S.guest t.lpid t.pid).path t.address)[i]? = some e → x.hostRas i = (S.host t.lpid).real e
  hostPtes : ∀ i e, (t.guestRas S)[i]? = some e → ∀ j < x.nrPtes, x.hostPtes i j = (((S.host t.lpid).path e)[j]?).getD 0
  most : ∀ e ∈ t.guestRas S, ((S.host t.lpid).path e).length ≤ x.nrPtes

/-- Two addresses are in the same page: the smaller one of the guest's and the host's page of `a`. -/
def Space.Together (P : Space) (a b : BitVec 64) : Prop :=
  b.toNat / 2 ^ min (P.hostSize a) (P.guestSize a) = a.toNat / 2 ^ min (P.hostSize a) (P.guestSize a)

/-- The record has a walk for the address `a`: that of an address `b` for which `near b` holds. -/
def Space.HasWalk (P : Space) (near : BitVec 64 → Prop) (x : Qt.Radix) : Prop :=
  ∃ t : Translation, t.lpid = P.lpid ∧ t.pid = P.pid ∧ near t.address ∧ t.Exact P.tables ∧
    t.guest.toNat / 2 ^ P.guestSize t.address = P.guest.frame t.address ∧ Entries P.tables t x

/-- What the format has room for: the address is in a page of the host that is not larger than the guest's, with a number of 32 bits. -/
def Space.Fits (P : Space) (a : BitVec 64) : Prop :=
  P.hostSize a ≤ P.guestSize a ∧ (P.real a).toNat / 2 ^ P.hostSize a < 2 ^ 32

/-- All that is known about an instruction can be stored. -/
structure View.Fits (P : Space) (v : View) : Prop where
  word : v.base.nonzero = true
  fits : P.Fits v.base.addr
  data : ∀ a, v.base.data = some a → v.data ∧ P.Fits a

/-- Two instructions one after the other: the next one is in the same page, or it is jumped to, and then its walk is known and its guest page has
the size of the host page of the data.  The second word of a prefixed instruction is the next one, and has no walk of its own. -/
def View.Follows (P : Space) (a b : View) : Prop :=
  (b.base.addr = a.base.addr + 4 → P.Together a.base.addr b.base.addr) ∧
  (b.base.addr ≠ a.base.addr + 4 → b.insn ∧ ∀ d, a.base.data = some d → P.guestSize b.base.addr = P.hostSize d)

/-- The walk of the first instruction is known. -/
def Starts (l : List View) : Prop := ∀ v, l.head? = some v → v.insn

/-- The record read has the translations of the instruction and of its data. -/
structure InFile (P : Space) (v : View) (o : Qt.Record) : Prop where
  real : o.insnRaValid = true ∧ o.insnRa = P.real v.base.addr
  size : o.insnPageShiftValid = true ∧ o.insnPageShift = P.hostSize v.base.addr
  guest : o.guestInsnPageShiftValid = true ∧ o.guestInsnPageShift = P.guestSize v.base.addr
  walk : P.HasWalk (fun b => P.Together b v.base.addr) o.radixInsn
  data : ∀ a, v.base.data = some a →
    (o.dataRaValid = true ∧ o.dataRa = P.real a) ∧ (o.dataPageShiftValid = true ∧ o.dataPageShift = P.hostSize a) ∧
    (o.guestDataPageShiftValid = true ∧ o.guestDataPageShift = P.guestSize a) ∧ P.HasWalk (· = a) o.radixData
  nodata : v.base.data = none → o.dataRaValid = false ∧ o.dataPageShiftValid = false ∧ o.guestDataPageShiftValid = false

end Htm.Guest
