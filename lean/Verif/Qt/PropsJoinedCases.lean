import Verif.Qt.PropsJoined
/-
Property C127: traces joined one behind the other, concrete cases.
-/
namespace Qt
open Spec

def joinedFile (ts : List (BitVec 32 × List Record)) : Bytes := match joined ts with | .ok f => f | _ => []

theorem joinedFile_eq {ts : List (BitVec 32 × List Record)} (h : (match joined ts with | .ok _ => true | _ => false) = true) :
    joined ts = .ok (joinedFile ts) := by
  unfold joinedFile
  generalize joined ts = x at h
  cases x with
  | ok f => rfl
  | abort => cases h
  | ub => cases h

/-- A trace that ends with the first word of a prefixed instruction swallows the header of the next one. -/
def cutShort : List (BitVec 32 × List Record) :=
  [(0, [{ insn := 0x06000000, insnAddr := 0x10000 }]), (0, [{ insn := 0x60000000, insnAddr := 0x40000 }])]

theorem C127_prefix_refuted : ¬ ∀ (ts : List (BitVec 32 × List Record)) (file : Bytes), (∀ t ∈ ts, Expressible t.2) →
    joined ts = .ok file →
    (readTrace { bytes := file, beyond := fun _ => 0 } false false).records.map (·.insn) = (ts.flatMap (·.2)).map (·.insn) := by
  intro h
  exact absurd (h cutShort (joinedFile cutShort)
    (by simp [cutShort, Expressible, RecordOk, ShiftsOk, WalkOk, Chain, NoWalk])
    (joinedFile_eq (by decide +kernel))) (by decide +kernel)

/-- An instruction of the second trace whose real address is not known gets one in the page of the last instruction of the first. -/
def laterUnknown : List (BitVec 32 × List Record) :=
  [(0, [{ insn := 0x60000000, insnAddr := 0x10000, insnRaValid := true, insnRa := 0x70000 }]),
   (0, [{ insn := 0x60000000, insnAddr := 0x40008 }])]

theorem C127_unknown_refuted : ¬ ∀ (ts : List (BitVec 32 × List Record)) (file : Bytes), (∀ t ∈ ts, Expressible t.2) →
    Chain (fun t _ => EndsWhole t.2) ts → joined ts = .ok file →
    (readTrace { bytes := file, beyond := fun _ => 0 } false false).records.map (·.insnRaValid) =
      (ts.flatMap (·.2)).map (·.insnRaValid) := by
  intro h
  exact absurd (h laterUnknown (joinedFile laterUnknown)
    (by simp [laterUnknown, Expressible, RecordOk, ShiftsOk, WalkOk, Chain, NoWalk])
    (by simp [laterUnknown, Chain, EndsWhole, IsPrefix])
    (joinedFile_eq (by decide +kernel))) (by decide +kernel)

/-- The wrong real address. -/
example : (readTrace { bytes := joinedFile laterUnknown, beyond := fun _ => 0 } false false).records.map (·.insnRa) =
    [0x70000, 0x70008] := by decide +kernel

/-- The last record of the first trace does not tell of the jump to the first instruction of the second. -/
def farApart : List (BitVec 32 × List Record) :=
  [(0, [{ insn := 0x60000000, insnAddr := 0x10000 }]), (0, [{ insn := 0x60000000, insnAddr := 0x40000 }])]

theorem C127_jump_refuted : ¬ ∀ (ts : List (BitVec 32 × List Record)) (file : Bytes), (∀ t ∈ ts, Expressible t.2) →
    Chain (fun t _ => EndsWhole t.2) ts → joined ts = .ok file →
    ((readTrace { bytes := file, beyond := fun _ => 0 } false false).records.map (·.nextInsnAddr)).dropLast =
      ((readTrace { bytes := file, beyond := fun _ => 0 } false false).records.map (·.insnAddr)).tail := by
  intro h
  exact absurd (h farApart (joinedFile farApart)
    (by simp [farApart, Expressible, RecordOk, ShiftsOk, WalkOk, Chain, NoWalk])
    (by simp [farApart, Chain, EndsWhole, IsPrefix])
    (joinedFile_eq (by decide +kernel))) (by decide +kernel)

end Qt
