import Verif.Dis.Spec
import Verif.Dis.Verbose
import Verif.Qt.SpecTranslation

/-! # Specification vocabulary for the verbose listing -/

namespace DisSpec
open Qt Dis
open Qt.Spec (pageShift Jumps)

/-- The rows are those of a walk: a guest real address in each, the host's entries for it, and, but for the last, the host real
address that it is translated to. -/
structure IsWalk (l : List Row) (x : Radix) : Prop where
  length : l.length = x.nrWalks
  guest : ∀ j (w : Row), l[j]? = some w → w.guest = x.guestRas j
  entries : ∀ j (w : Row), l[j]? = some w → w.host.length = x.nrPtes ∧ ∀ i e, w.host[i]? = some e → e = x.hostPtes j i
  real : ∀ j (w : Row), l[j]? = some w → w.real = if j + 1 = x.nrWalks then none else some (x.hostRas j)

/-- The number of the page with the real address `ra`, in 32 bits. -/
def pageNumber (ra : BitVec 64) (shift : Nat) : BitVec 32 := BitVec.ofNat 32 (ra.toNat / 2 ^ shift)

/-- The remarks about an instruction itself. -/
structure Own (l : List Remark) (r : Record) : Prop where
  addr : ∀ a, .dataAddr a ∈ l ↔ r.dataAddrValid = true ∧ a = r.dataAddr
  page : ∀ v, .dataRpn v ∈ l ↔ r.dataRaValid = true ∧ v = pageNumber r.dataRa (pageShift r.dataPageShiftValid r.dataPageShift)
  walk : ∀ w, .dataWalk w ∈ l → r.radixData.nrPtes ≠ 0 ∧ IsWalk w r.radixData
  walked : r.radixData.nrPtes ≠ 0 → ∃ w, .dataWalk w ∈ l
  size : ∀ n, .dataSize n ∈ l ↔ r.dataPageShiftValid = true ∧ n = r.dataPageShift
  node : ∀ b, .node b ∈ l ↔ r.nodeValid = true ∧ b = r.node
  term : ∀ a b, .term a b ∈ l ↔ r.branch = true ∧ a = r.termNode ∧ b = r.termCode

/-- The remarks about the instruction `b` that follows `a`: it has some if it is jumped to. -/
structure Next (l : List Remark) (a b : Record) : Prop where
  page : ∀ v, .insnRpn v ∈ l ↔ Jumps a b ∧ b.insnRaValid = true ∧ v = pageNumber b.insnRa (pageShift b.insnPageShiftValid b.insnPageShift)
  size : ∀ n, .insnSize n ∈ l ↔ Jumps a b ∧ b.insnPageShiftValid = true ∧ n = b.insnPageShift

/-- No remark about another instruction. -/
def NoNext (l : List Remark) : Prop := (∀ v, .insnRpn v ∉ l) ∧ (∀ w, .insnWalk w ∉ l) ∧ ∀ n, .insnSize n ∉ l

/-- The first record of every instruction, with the record behind it: for a prefixed instruction that is its second word. -/
def followed : List Record → List (Record × Option Record)
  | [] => []
  | [r] => [(r, none)]
  | r :: s :: rest => (r, some s) :: if IsPrefix r.insn then followed rest else followed (s :: rest)

end DisSpec
