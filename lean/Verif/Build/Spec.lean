import Verif.Qt.Types
import Verif.Qt.SpecBranch
import Verif.Ptracer.SpecStorage

/-!
# What a trace built from annotated assembler text should contain

The source is a list of instruction words with annotations: after an instruction there may be one of the
macros `branch_to_abs`, `branch_to_rel` or `branch_taken` of `qtbuild/qtb.h`, and `ldst`.
-/

namespace QtbSpec

/-- The branch macros of `qtb.h`. -/
inductive Jump where
  | abs (address : BitVec 64)
  | rel (distance : BitVec 64)
  | taken

/-- One instruction of the source. -/
structure Line where
  word : BitVec 32
  jump : Option Jump
  ldst : Option (BitVec 64)

/-- Where control goes after the instruction `l` at `pc`. -/
def next (l : Line) (pc : BitVec 64) : BitVec 64 :=
  match l.jump with
  | none => pc + 4
  | some (.abs a) => a
  | some (.rel d) => pc + d
  | some .taken => Qt.Spec.target l.word.toNat pc

/-- The address of every instruction, beginning with `pc`. -/
def addresses (pc : BitVec 64) : List Line → List (BitVec 64)
  | [] => []
  | l :: ls => pc :: addresses (next l pc) ls

/-- `v` is the instruction `w` at `pc` changed so that it goes to `t`: `b` and `bc` get the target and keep
everything else, other instructions are unchanged. -/
def Reaches (w v : BitVec 32) (pc t : BitVec 64) : Prop :=
  if Qt.Spec.kind w.toNat = .b ∨ Qt.Spec.kind w.toNat = .bc then
    Qt.Spec.target v.toNat pc = t ∧ Qt.Spec.kind v.toNat = Qt.Spec.kind w.toNat ∧
      Qt.Spec.lk v.toNat = Qt.Spec.lk w.toNat ∧ Qt.Spec.aa v.toNat = Qt.Spec.aa w.toNat ∧
      (Qt.Spec.kind w.toNat = .bc → Qt.Spec.bo v.toNat = Qt.Spec.bo w.toNat ∧ Qt.Spec.bi v.toNat = Qt.Spec.bi w.toNat)
  else v = w

/-- The record for the line `l` at `pc`: instruction, address, data address, and the two branch flags. -/
def Matches (l : Line) (pc : BitVec 64) (r : Qt.Record) : Prop :=
  r.insnAddr = pc ∧
  (match l.jump with
    | none => r.insn = l.word
    | some _ => Reaches l.word r.insn pc (next l pc)) ∧
  (r.dataAddrValid = true ↔ ∃ i ∈ IsaMem.handled, i.Encodes l.word) ∧
  (r.dataAddrValid = true → l.ldst = some r.dataAddr) ∧
  (r.branch = true ↔ Qt.Spec.kind l.word.toNat ≠ .other ∧ Qt.Spec.kind l.word.toNat ≠ .rfebb) ∧
  (r.conditionalBranch = true ↔ Qt.Spec.conditional l.word.toNat)

/-- A source the tool can build: annotated loads and stores are loads and stores and the other way round,
nothing is unsupported, and every annotated branch can reach its destination. -/
def LineOk (l : Line) (pc : BitVec 64) : Prop :=
  (l.ldst.isSome = true ↔ ∃ i ∈ IsaMem.handled, i.Encodes l.word) ∧
  (¬ ∃ i ∈ IsaMem.unsupported, i.Encodes l.word) ∧
  (∀ j, l.jump = some j →
    (Qt.Spec.kind l.word.toNat = .b ∨ Qt.Spec.kind l.word.toNat = .bc → Qt.Spec.reachable l.word.toNat pc (next l pc)) ∧
    l.word ≠ 0 ∧
    match j with
    | .taken => Qt.Spec.kind l.word.toNat = .b ∨ Qt.Spec.kind l.word.toNat = .bc
    | _ => True)

/-- Every line is fine at its address. -/
def SourceOk (pc : BitVec 64) : List Line → Prop
  | [] => True
  | l :: ls => LineOk l pc ∧ SourceOk (next l pc) ls

/-- Annotated addresses and distances are multiples of four, and `branch_taken` is only used for relative
branches. -/
def Plain (l : Line) : Prop :=
  match l.jump with
  | some (.abs a) => a.toNat % 4 = 0
  | some (.rel d) => d.toNat % 4 = 0
  | some .taken => Qt.Spec.aa l.word.toNat = 0
  | none => True

end QtbSpec
