import Verif.Qt.Spec
/-
Specification vocabulary for real addresses, page sizes and page walks in the round trip.
-/
namespace Qt.Spec
open Qt

/-- Page shift in force: the one given, or 64K pages. -/
def pageShift (valid : Bool) (shift : Nat) : Nat := if valid then shift else 16

/-- The real address lies in a page frame whose number has at most 32 bits, at the page offset of the
effective address. -/
def RaOk (ra ea : BitVec 64) (shift : Nat) : Prop :=
  ra.toNat / 2 ^ shift < 2 ^ 32 ∧ ra.toNat % 2 ^ shift = ea.toNat % 2 ^ shift

/-- Real addresses of a record are translations of its effective addresses. -/
def TranslationOk (r : Record) : Prop :=
  (r.insnRaValid = true → RaOk r.insnRa r.insnAddr (pageShift r.insnPageShiftValid r.insnPageShift)) ∧
  (r.dataRaValid = true → RaOk r.dataRa (if r.dataAddrValid then r.dataAddr else 0)
    (pageShift r.dataPageShiftValid r.dataPageShift))

/-- Both instructions are translated by the same page frame with the same page sizes. -/
def SamePage (a b : Record) : Prop :=
  b.insnRaValid = a.insnRaValid ∧
  b.insnPageShiftValid = a.insnPageShiftValid ∧
  (a.insnPageShiftValid = true → b.insnPageShift = a.insnPageShift) ∧
  b.guestInsnPageShiftValid = a.guestInsnPageShiftValid ∧
  (a.guestInsnPageShiftValid = true → b.guestInsnPageShift = a.guestInsnPageShift) ∧
  (a.insnRaValid = true →
    b.insnRa.toNat / 2 ^ pageShift b.insnPageShiftValid b.insnPageShift =
      a.insnRa.toNat / 2 ^ pageShift a.insnPageShiftValid a.insnPageShift)

/-- What the format can say about the translation of the next instruction: nothing new unless control
jumps; known properties never become unknown; and at a jump only one of the data page size and the guest
instruction page size of the target, unless they agree. -/
def TranslationStep (a b : Record) : Prop :=
  (¬ Jumps a b → SamePage a b) ∧
  (a.insnRaValid = true → b.insnRaValid = true) ∧
  (a.insnPageShiftValid = true → b.insnPageShiftValid = true) ∧
  (a.guestInsnPageShiftValid = true → b.guestInsnPageShiftValid = true) ∧
  (Jumps a b → a.dataPageShiftValid = true → b.guestInsnPageShiftValid = true →
    b.guestInsnPageShift = a.dataPageShift)

/-- All addresses and page sizes agree. -/
def SameTranslation (r o : Record) : Prop :=
  o.insnRaValid = r.insnRaValid ∧ (r.insnRaValid = true → o.insnRa = r.insnRa) ∧
  o.insnPageShiftValid = r.insnPageShiftValid ∧
  (r.insnPageShiftValid = true → o.insnPageShift = r.insnPageShift) ∧
  o.guestInsnPageShiftValid = r.guestInsnPageShiftValid ∧
  (r.guestInsnPageShiftValid = true → o.guestInsnPageShift = r.guestInsnPageShift) ∧
  o.dataRaValid = r.dataRaValid ∧ (r.dataRaValid = true → o.dataRa = r.dataRa) ∧
  o.dataPageShiftValid = r.dataPageShiftValid ∧
  (r.dataPageShiftValid = true → o.dataPageShift = r.dataPageShift) ∧
  o.guestDataPageShiftValid = r.guestDataPageShiftValid ∧
  (r.guestDataPageShiftValid = true → o.guestDataPageShift = r.guestDataPageShift)

/-- Two walks describe the same page-table accesses. -/
def SameWalk (x y : Radix) : Prop :=
  y.nrPtes = x.nrPtes ∧ y.nrWalks = x.nrWalks ∧
  (∀ i j, i < x.nrWalks → j < x.nrPtes → y.hostPtes i j = x.hostPtes i j) ∧
  (∀ i, 2 ≤ x.nrWalks → i < x.nrWalks - 1 → y.hostRas i = x.hostRas i) ∧
  (∀ i, 2 ≤ x.nrWalks → i < x.nrWalks → y.guestRas i = x.guestRas i)

/-- A single walk is stored as four entries, so only those with four entries keep their count. -/
def FourIfSingle (x : Radix) : Prop := Single x → x.nrPtes = 4

/-- Without a jump the instruction walk does not change. -/
def WalkStep (a b : Record) : Prop :=
  ¬ Jumps a b → b.insnRaValid = true → ¬ NoWalk b.radixInsn →
    a.insnRaValid = true ∧ SameWalk a.radixInsn b.radixInsn

end Qt.Spec
