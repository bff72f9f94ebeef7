import Verif.Qt.SpecTranslation
/-
Specification vocabulary for copies of traces, in terms of the records read from the original and from the copy.
-/
namespace Qt.Spec
open Qt

/-- The walks, page sizes and neighbours of the records read from a trace are ones that can be written (`Expressible`, without the
conditions on instruction words). -/
def Copyable (rs : List Record) : Prop :=
  (∀ r ∈ rs, RecordOk r) ∧
  Chain (fun r next => Jumps r next → r.dataRaValid = true → next.insnRaValid = true →
    WalksCompatible r.radixData next.radixInsn) rs ∧
  (∀ r, rs.head? = some r → ¬ NoWalk r.radixInsn → r.insnRaValid = true)

/-- Both records are of the same instruction at the same address, with the same data address. -/
def SameAccess (r o : Record) : Prop :=
  o.insn = r.insn ∧ o.insnAddr = r.insnAddr ∧ o.dataAddrValid = r.dataAddrValid ∧
  (r.dataAddrValid = true → o.dataAddr = r.dataAddr)

/-- The page of an instruction changes only where control jumps, and there the page size of the data and the guest page size of the
target agree, if both are known. -/
def PagesAtJumps (a b : Record) : Prop :=
  (¬ Jumps a b → SamePage a b) ∧
  (Jumps a b → a.dataPageShiftValid = true → b.guestInsnPageShiftValid = true → b.guestInsnPageShift = a.dataPageShift)

end Qt.Spec
