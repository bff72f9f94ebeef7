import Verif.Ptracer.Live
import Verif.Ptracer.SpecStorage
import Verif.Ptracer.SpecPagemap
import Verif.Qt.SpecBranch
import Verif.Qt.Spec
import Verif.Qt.Reader

/-!
# What the trace file of the live tracer should say

In terms of what the tracer sees at each instruction it records, and of the records that a reader of the file gets.
-/

namespace LiveSpec
open Ptr (Seen Access)
open IsaMem

/-- The address after instruction `i`: that of the instruction recorded next, or the next word at the end. -/
def nextPc (xs : List Seen) (i : Nat) (x : Seen) : BitVec 64 :=
  match xs[i + 1]? with
  | some y => y.pc
  | none => x.pc + 4

/-- The record read from the file describes the instruction. -/
structure Shown (o : Qt.Record) (x : Seen) (after : BitVec 64) : Prop where
  addr : o.insnAddr = x.pc
  word : o.insn = x.insn
  /-- a load or store comes with the address that the ISA gives for the registers seen -/
  data : ∀ i ∈ handled, i.Encodes x.insn → o.dataAddrValid = true ∧ o.dataAddr.toNat = i.ea.value x.insn x.regs
  /-- other instructions come without -/
  nodata : ¬ Accesses x.insn → o.dataAddrValid = false
  next : o.nextInsnAddr = after
  taken : o.branchTaken = true ↔ after ≠ x.pc + 4
  branch : o.branch = true ↔ (Qt.Spec.kind x.insn.toNat ≠ .other ∧ Qt.Spec.kind x.insn.toNat ≠ .rfebb) ∨ after ≠ x.pc + 4
  conditional : o.conditionalBranch = true ↔ Qt.Spec.conditional x.insn.toNat

/-- The file has a record for every instruction, in order, and nothing else. -/
def Holds (file : Qt.Bytes) (xs : List Seen) : Prop := ∀ beyond,
  let R := Qt.readTrace { bytes := file, beyond := beyond } false false
  R.final = .fail ∧ R.records.length = xs.length ∧
  ∀ (i : Nat) (x : Seen), xs[i]? = some x → ∃ o, R.records[i]? = some o ∧ Shown o x (nextPc xs i x)

/-- Instructions that can be recorded: none of those on which the tracer aborts, and a zero word (which is no instruction) only
behind a prefix. -/
structure Traceable (xs : List Seen) : Prop where
  supported : ∀ x ∈ xs, ∀ i ∈ unsupported, ¬ i.Encodes x.insn
  first : ∀ x, xs.head? = some x → x.insn ≠ 0
  words : Qt.Spec.Chain (fun a b => b.insn = 0 → Qt.Spec.IsPrefix a.insn) xs

/-- The kernel answers when it is asked about pages. -/
def Answers (xs : List Seen) : Prop := ∀ x ∈ xs, ∀ p, x.kernel.pagemap p ≠ none ∧ x.kernel.kpageflags p ≠ none

/-- The look-up of the page of the instruction. -/
def fetch (x : Seen) : Access := ⟨x.kernel, x.pc, true⟩

/-- The look-ups for an instruction. -/
def lookUps (x : Seen) : List Access :=
  fetch x :: match Ptr.isStorageInsn x.insn x.regs with
    | .yes a _ => [⟨x.kernel, a, false⟩]
    | _ => []

/-- The look-ups for a list of instructions. -/
def accesses (xs : List Seen) : List Access := xs.flatMap lookUps

/-- At the look-up `a` or before (after the look-ups `h`), at most an interval of refreshing ago, the kernel said that the page
of the address `ea` is in the frame of `pa`, a page of size `2 ^ sh`. -/
def Fresh (h : List Access) (a : Access) (ea pa : BitVec 64) (sh : Nat) : Prop :=
  ∃ (n : Nat) (b : Access), (h ++ [a])[n]? = some b ∧ h.length - n < PmSpec.interval a.iside ∧
    b.ea.toNat / 2 ^ sh = ea.toNat / 2 ^ sh ∧ PmSpec.Says b pa sh

/-- The real address of `ea` in a page of size `2 ^ sh` in whose frame `pa` is. -/
def realAddr (pa : BitVec 64) (sh : Nat) (ea : BitVec 64) : Nat := pa.toNat / 2 ^ sh * 2 ^ sh + ea.toNat % 2 ^ sh

/-- Every page looked up is present, in a frame that the trace format has room for; it is not in the first 2 MiB; and the
look-ups are fewer than 2³². -/
structure Mapped (xs : List Seen) : Prop where
  present : ∀ a ∈ accesses xs, ∃ pa sh, PmSpec.Says a pa sh
  room : ∀ a ∈ accesses xs, ∀ pa sh, PmSpec.Says a pa sh → pa.toNat < 2 ^ 48
  high : ∀ a ∈ accesses xs, 2 ^ 21 ≤ a.ea.toNat
  few : (accesses xs).length < 2 ^ 32

/-- Control comes to instruction `j` other than from the word before it (or the trace begins there) and goes on from
there to instruction `i` word by word. -/
def Straight (xs : List Seen) (j i : Nat) : Prop :=
  j ≤ i ∧ (j = 0 ∨ ∃ a b, xs[j - 1]? = some a ∧ xs[j]? = some b ∧ b.pc ≠ a.pc + 4) ∧
  ∀ k a b, j ≤ k → k < i → xs[k]? = some a → xs[k + 1]? = some b → b.pc = a.pc + 4

end LiveSpec
