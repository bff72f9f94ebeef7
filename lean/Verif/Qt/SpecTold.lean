import Verif.Qt.SpecTranslation
/-
Specification vocabulary: what a trace says about the pages of instructions that are not jumped to.
-/
namespace Qt.Spec
open Qt

/-- Something that the trace can say about an instruction only where control jumps to it: for the other instructions (and
where nothing is said) it is what was said before. -/
def carried {α : Type} (f : Record → Option α) (rs : List Record) : Nat → Option α
  | 0 => rs[0]?.bind f
  | i + 1 =>
    match rs[i]?, rs[i + 1]? with
    | some a, some b => if b.insnAddr ≠ a.insnAddr + 4 then (f b).or (carried f rs i) else carried f rs i
    | _, _ => none

/-- The number of the page frame of the instruction. -/
def insnFrame (r : Record) : Option Nat :=
  if r.insnRaValid then some (r.insnRa.toNat / 2 ^ pageShift r.insnPageShiftValid r.insnPageShift) else none

/-- The size of the page of the instruction. -/
def insnShift (r : Record) : Option Nat := if r.insnPageShiftValid then some r.insnPageShift else none

/-- The address in a page frame (the trace has room for 32 bits of its number) at the offset of the effective address. -/
def inFrame (frame shift : Nat) (ea : BitVec 64) : Nat := frame % 2 ^ 32 * 2 ^ shift % 2 ^ 64 + ea.toNat % 2 ^ shift

end Qt.Spec
