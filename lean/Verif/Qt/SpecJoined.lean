import Verif.Qt.Writer
import Verif.Qt.Spec
import Verif.Qt.SpecTranslation
/-
Specification for property C127: files of several traces one behind the other.
-/
namespace Qt.Spec

/-- The files of several traces, each with its magic number and its records, one behind the other. -/
def joined : List (BitVec 32 × List Record) → WRes Bytes
  | [] => .ok []
  | (magic, rs) :: ts => do
    let a ← writeTrace magic rs
    let b ← joined ts
    return a ++ b

/-- The trace does not end between the two words of an instruction. -/
def EndsWhole (rs : List Record) : Prop := ∀ r, rs.getLast? = some r → ¬ IsPrefix r.insn

/-- What is known of the page of an earlier instruction is known of a later one. -/
def KnownStays (a b : Record) : Prop :=
  (a.insnRaValid = true → b.insnRaValid = true) ∧
  (a.insnPageShiftValid = true → b.insnPageShiftValid = true) ∧
  (a.guestInsnPageShiftValid = true → b.guestInsnPageShiftValid = true)

/-- Read as `o`, record `r`, number `i` of trace `rs`, tells the walks it had: data walks, none where there was none, instruction walks,
and the kind of a single data walk unless the target of a jump has a single walk of another kind. -/
def WalksTold (rs : List Record) (i : Nat) (r o : Record) : Prop :=
  (r.dataRaValid = true → ¬ NoWalk r.radixData → SameWalk r.radixData o.radixData) ∧
  (r.dataRaValid = true → NoWalk r.radixData → NoWalk o.radixData) ∧
  (r.dataRaValid = false → NoWalk o.radixData) ∧
  (r.insnRaValid = true → ¬ NoWalk r.radixInsn → SameWalk r.radixInsn o.radixInsn) ∧
  (r.dataRaValid = true → Single r.radixData →
    (∀ n, rs[i + 1]? = some n → Jumps r n → n.insnRaValid = true → Single n.radixInsn →
      n.radixInsn.type = r.radixData.type) → o.radixData.type = r.radixData.type)

end Qt.Spec
