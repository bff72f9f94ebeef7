import Verif.Qt.Types
/-
Specification vocabulary for the write/read round trip, in terms of the records the user hands to the
writer and gets back from the reader.  Nothing here mentions how either is implemented.
-/
namespace Qt.Spec
open Qt

/-- The record is followed by one that is not at the next sequential address. -/
def Jumps (r next : Record) : Prop := next.insnAddr ≠ r.insnAddr + 4

/-- A page walk that the record format has a representation for: none, one walk of known kind, or a nested
walk that fits the arrays. -/
def WalkOk (x : Radix) : Prop :=
  x.nrPtes = 0 ∨ (x.nrWalks = 1 ∧ x.type ≠ .unspecified) ∨
    (2 ≤ x.nrWalks ∧ x.nrWalks ≤ 5 ∧ 1 ≤ x.nrPtes ∧ x.nrPtes ≤ 4)

def NoWalk (x : Radix) : Prop := x.nrPtes = 0
def Single (x : Radix) : Prop := x.nrPtes ≠ 0 ∧ x.nrWalks = 1
def Nested (x : Radix) : Prop := x.nrPtes ≠ 0 ∧ 2 ≤ x.nrWalks

/-- The pair of a data walk and the walk of a following branch target that share one mode word: the format
can only describe "no walks at all", or a walk on both sides where a nested data walk is not combined with
a single instruction walk. -/
def WalksCompatible (data insn : Radix) : Prop :=
  (NoWalk data ∧ NoWalk insn) ∨
  (¬ NoWalk data ∧ ¬ NoWalk insn ∧ ¬ (Nested data ∧ Single insn))

/-- Page shifts are shift counts of a 64-bit address. -/
def ShiftsOk (r : Record) : Prop :=
  (r.insnPageShiftValid = true → r.insnPageShift < 64) ∧
  (r.guestInsnPageShiftValid = true → r.guestInsnPageShift < 64) ∧
  (r.dataPageShiftValid = true → r.dataPageShift < 64) ∧
  (r.guestDataPageShiftValid = true → r.guestDataPageShift < 64)

/-- One record is expressible by itself. -/
def RecordOk (r : Record) : Prop :=
  ShiftsOk r ∧ (r.insnRaValid = true → WalkOk r.radixInsn) ∧ (r.dataRaValid = true → WalkOk r.radixData)

/-- The instruction word is a prefix (primary opcode 1) of a two-word instruction. -/
def IsPrefix (insn : BitVec 32) : Prop := insn.toNat / 2 ^ 26 = 1

/-- A record and its successor are expressible together: a zero word is only allowed as the second word of
a prefixed instruction, and page walks that share a mode word must be compatible. -/
def StepOk (r next : Record) : Prop :=
  (next.insn = 0 → IsPrefix r.insn) ∧
  (Jumps r next → r.dataRaValid = true → next.insnRaValid = true →
    WalksCompatible r.radixData next.radixInsn)

/-- Every two neighbours of a list are related. -/
def Chain {α} (R : α → α → Prop) : List α → Prop
  | [] => True
  | [_] => True
  | a :: b :: l => R a b ∧ Chain R (b :: l)

/-- A sequence of records the trace format can express. -/
def Expressible (rs : List Record) : Prop :=
  (∀ r ∈ rs, RecordOk r) ∧
  Chain StepOk rs ∧
  (∀ r, rs.head? = some r → r.insn ≠ 0 ∧ (¬ NoWalk r.radixInsn → r.insnRaValid = true))

/-- The records of those write calls that returned true, given the calls and their results. -/
def accepted : List (Record × Bool) → List Bool → List Record
  | (r, _) :: h, true :: bs => r :: accepted h bs
  | _ :: h, false :: bs => accepted h bs
  | _, _ => []

end Qt.Spec
