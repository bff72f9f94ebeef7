import Verif.Qt.PropsCopyTwice
import Verif.Qt.PropsCopyCases
/-
Property C113: copies of copies, concrete cases.
-/
namespace Qt
open Spec

instance : DecidablePred ShiftsOk := fun r => by unfold ShiftsOk; infer_instance
instance : DecidablePred NoWalk := fun r => by unfold NoWalk; infer_instance
instance (a b : Record) : Decidable (Jumps a b) := by unfold Jumps; infer_instance
instance (a b : Record) : Decidable (SamePage a b) := by unfold SamePage; infer_instance
instance (a b : Record) : Decidable (PagesAtJumps a b) := by unfold PagesAtJumps; infer_instance

/-- A trace that tells of two no-operations at addresses that do not follow each other, without telling of a branch. -/
def jumpWithoutBranch : Bytes :=
  [0, 0, 0, 0, 0, 1, 0, 2, 0x60, 0, 7, 1, 0, 0, 0, 0, 0, 0, 0, 1, 0, 0,
   0x60, 0, 0, 0, 0x80, 0x41, 0, 0, 0, 0, 0, 0, 0, 2, 0, 0,
   0x60, 0, 0, 0, 0, 1, 0, 0]

def jumpMem : Mem := { bytes := jumpWithoutBranch, beyond := fun _ => 0 }

theorem jumpMem_plain : PlainTrace jumpMem := by
  have hl : (readTrace jumpMem false false).records.length = 2 := by decide +kernel
  have hne : (readTrace jumpMem false false).records ≠ [] := by
    intro h
    rw [h] at hl
    cases hl
  refine ⟨opens_of_records hne, by decide +kernel, hne, by decide +kernel, by decide +kernel, ?_⟩
  have h : ∀ a ∈ (readTrace jumpMem false false).records, ∀ b ∈ (readTrace jumpMem false false).records, PagesAtJumps a b := by
    decide +kernel
  exact chain_all _ h

/-- The copy of a copy need not be the copy: where control leaves the sequential path without a branch the first copy tells of one, and
the second copy gives another reason for it. -/
theorem C113_twice_refuted : ¬ ∀ (m : Mem) (file : Bytes), PlainTrace m → copyTrace m (fun _ => true) = .done file →
    copyTrace { bytes := file, beyond := fun _ => 0 } (fun _ => true) = .done file := by
  intro h
  let file : Bytes := match copyTrace jumpMem (fun _ => true) with | .done f => f | _ => []
  have e : copyTrace jumpMem (fun _ => true) = .done file := by decide +kernel
  exact absurd (h jumpMem file jumpMem_plain e) (by decide +kernel)

/-- The hypotheses of `C113_twice_partial` and `C113_written_twice_partial` are met by a trace with data accesses and a branch. -/
example : ∃ file, writeTrace 0xABCD copySample = .ok file ∧ ∀ beyond, PlainTrace { bytes := file, beyond := beyond } ∧
    JumpsAreBranches (readTrace { bytes := file, beyond := beyond } false false).records :=
  written_plain 0xABCD copySample (by simp [copySample, Expressible, RecordOk, ShiftsOk, WalkOk, Chain, NoWalk, StepOk, Jumps])
    (by simp [copySample]) (by simp [copySample, NoWalk]) (by simp [copySample, OneKindOfSize])

end Qt
