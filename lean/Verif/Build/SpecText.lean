import Verif.Qt.SpecBranch
import Verif.Ptracer.SpecStorage

/-!
# The assembler, and traces that survive it

What the assembler makes of the statements that `qtdis -b` prints is an assumption: an instruction is assembled to the word it
was disassembled from; but the target of a branch is printed as a symbol that is not defined anywhere (`_dummy_...`, qtdis.c:183),
so that its field is left empty, for a linker to fill. The macros (`qtbuild/qtb.h`) put entries in two more sections.
-/

namespace AsmSpec

/-- The statements that `qtdis -b` prints. -/
inductive Stmt where
  | startTrace (a : BitVec 64)
  | branchToAbs (a : BitVec 64)
  | insn (ws : List (BitVec 32))
  | ldst (a : BitVec 64)

/-- The instruction without the target of a branch. -/
def withoutTarget (w : BitVec 32) : BitVec 32 :=
  if Qt.Spec.kind w.toNat = .b then BitVec.ofNat 32 (w.toNat - 4 * Qt.Spec.li w.toNat)
  else if Qt.Spec.kind w.toNat = .bc then BitVec.ofNat 32 (w.toNat - 4 * Qt.Spec.bd w.toNat)
  else w

/-- The sections of the object: instructions, and pairs of an offset in the instructions and an address. -/
structure Object where
  words : List (BitVec 32)
  insnmap : List (BitVec 64 × BitVec 64)
  ldstmap : List (BitVec 64 × BitVec 64)

/-- The statements behind `start_trace`, from the offset `t`. -/
def sections (t : Nat) : List Stmt → Option Object
  | [] => some ⟨[], [], []⟩
  | .startTrace _ :: _ => none
  | .branchToAbs a :: l => (sections t l).map fun o => { o with insnmap := (BitVec.ofNat 64 t, a) :: o.insnmap }
  | .insn ws :: l => (sections (t + 4 * ws.length) l).map fun o => { o with words := ws.map withoutTarget ++ o.words }
  | .ldst a :: l => (sections t l).map fun o => { o with ldstmap := (BitVec.ofNat 64 t, a) :: o.ldstmap }

/-- All of the text: the macros use the symbol that `start_trace` defines. -/
def object : List Stmt → Option Object
  | .startTrace a :: l => (sections 0 l).map fun o => { o with insnmap := (0, a) :: o.insnmap }
  | [] => some ⟨[], [], []⟩
  | _ => none

/-! ## Traces -/

/-- A branch with a target in its word. -/
def Targeted (w : BitVec 32) : Prop := Qt.Spec.kind w.toNat = .b ∨ Qt.Spec.kind w.toNat = .bc

instance (w : BitVec 32) : Decidable (Targeted w) := by unfold Targeted; infer_instance

/-- Where control went after record `i`; at the end of the trace this is not known, which counts as the next word. -/
def after (rs : List Qt.Record) (i : Nat) (r : Qt.Record) : BitVec 64 :=
  match rs[i + 1]? with
  | some s => s.insnAddr
  | none => r.insnAddr + 4

/-- A trace as the tool expects it: no prefixed instructions, addresses are multiples of four, exactly the loads and stores have
data addresses, and where control goes elsewhere after a branch with a target in its word it goes to that target. -/
structure Regular (rs : List Qt.Record) : Prop where
  plain : ∀ r ∈ rs, ¬ r.insn.toNat / 2 ^ 26 = 1
  words : ∀ r ∈ rs, r.insn ≠ 0
  aligned : ∀ r ∈ rs, r.insnAddr.toNat % 4 = 0
  data : ∀ r ∈ rs, r.dataAddrValid = true ↔ ∃ i ∈ IsaMem.handled, i.Encodes r.insn
  supported : ∀ r ∈ rs, ¬ ∃ i ∈ IsaMem.unsupported, i.Encodes r.insn
  targets : ∀ (i : Nat) (r : Qt.Record), rs[i]? = some r → Targeted r.insn → after rs i r ≠ r.insnAddr + 4 →
    after rs i r = Qt.Spec.target r.insn.toNat r.insnAddr
  size : 4 * rs.length < 2 ^ 64

/-- The word that is left of record `i`: the targets of branches that are not taken are lost. -/
def leftOf (rs : List Qt.Record) (i : Nat) (r : Qt.Record) : BitVec 32 :=
  if after rs i r = r.insnAddr + 4 then withoutTarget r.insn else r.insn

/-- Address and data address of a record. -/
def place (r : Qt.Record) : BitVec 64 × Option (BitVec 64) := (r.insnAddr, if r.dataAddrValid then some r.dataAddr else none)

end AsmSpec
