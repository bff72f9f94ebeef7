import Verif.Qt.Types
import Verif.Qt.Branch
import Verif.Ptracer.Storage

/-!
# Building a trace from assembler output

Model of `build` in `qtbuild/qtbuild.c`: the sections `.text`, `.data.insnmap` and `.data.ldstmap` of an
object file are turned into the records handed to the trace writer.

Simplifications: the sizes of the sections are multiples of the sizes of their entries (4, 20 and 16 bytes)
and `taddr` does not wrap, as the sections are held in memory. Opening the object and reading its sections
(qtbuild.c:82-129) are not modelled.
-/

namespace Qtb

/-- `struct insn_map`, qtbuild/qtbuild.c:57-61. -/
structure IMap where
  text : BitVec 64
  btype : BitVec 32
  dyn : BitVec 64

/-- `struct ldst_map`, qtbuild/qtbuild.c:63-66. -/
structure LMap where
  text : BitVec 64
  storage : BitVec 64

/-- How `build` ends. -/
inductive End where
  /-- all of the text has been turned into records -/
  | done
  /-- a message and `exit(1)` -/
  | exit
  /-- `assert(0)` in `is_storage_insn` -/
  | abort
  /-- `ldstmap_buf` read behind its end -/
  | oob
  deriving DecidableEq, Repr

/-- The records written before `build` ended, and how it ended. -/
structure Result where
  records : List Qt.Record
  final : End

/-- What the load/store map contributes, qtbuild/qtbuild.c:166-179: the data address, if any, and the
remaining entries. `t` is `taddr`. -/
def storage (w : BitVec 32) (t : Nat) (lm : List LMap) : End ⊕ (Option (BitVec 64) × List LMap) :=
  match Ptr.isStorage w with
  | none => .inl .abort
  | some false => .inr (none, lm)
  | some true =>
    match lm with
    | [] => .inl .oob
    | m :: rest => if m.text.toNat ≠ t + 4 then .inl .exit else .inr (some m.storage, rest)

/-- The destination of a taken branch, qtbuild/qtbuild.c:188-214. -/
def destination (e : IMap) (w : BitVec 32) (d : BitVec 64) : Option (BitVec 64) :=
  if e.btype = 0 then some e.dyn
  else if e.btype = 1 then some (d + e.dyn)
  else if e.btype = 2 then
    if Qt.hasBranchTarget w then some (Qt.branchTarget w d) else none
  else none

/-- What the instruction map contributes, qtbuild/qtbuild.c:184-225: the instruction word, the next dynamic
address and the remaining entries; `none` is `exit(1)`. The entry behind the last one never matches
(qtbuild.c:114). -/
def advance (w : BitVec 32) (t : Nat) (d : BitVec 64) (im : List IMap) : Option (BitVec 32 × BitVec 64 × List IMap) :=
  match im with
  | [] => some (w, d + 4, [])
  | e :: rest =>
    if e.text.toNat = t + 4 then
      match destination e w d with
      | none => none
      | some d' =>
        if Qt.setBranchTarget w d d' = 0 then none else some (Qt.setBranchTarget w d d', d', rest)
    else some (w, d + 4, e :: rest)

/-- The record for one instruction, qtbuild/qtbuild.c:159-161, 177-178, 181-182, 216: `w` is the word in the
text, `v` the one with the branch target set. -/
def record (w v : BitVec 32) (d : BitVec 64) (data : Option (BitVec 64)) : Qt.Record :=
  { insn := v
    insnAddr := d
    dataAddrValid := data.isSome
    dataAddr := data.getD 0
    branch := Qt.isBranch w
    conditionalBranch := Qt.isConditionalBranch w }

/-- The main loop, qtbuild/qtbuild.c:155-236. -/
def loop (t : Nat) (d : BitVec 64) (im : List IMap) (lm : List LMap) : List (BitVec 32) → Result
  | [] => ⟨[], .done⟩
  | w :: ws =>
    match storage w t lm with
    | .inl e => ⟨[], e⟩
    | .inr (data, lm') =>
      match advance w t d im with
      | none => ⟨[], .exit⟩
      | some (v, d', im') =>
        let r := loop (t + 4) d' im' lm' ws
        ⟨record w v d data :: r.records, r.final⟩

/-- `build`, qtbuild/qtbuild.c:131-236. The first entry of the instruction map gives the initial address;
a second one for text address 0 replaces it. -/
def build (words : List (BitVec 32)) (im : List IMap) (lm : List LMap) : Result :=
  match im with
  | [] => ⟨[], .exit⟩
  | e :: rest =>
    if e.text ≠ 0 then ⟨[], .exit⟩
    else if e.btype ≠ 0 then ⟨[], .exit⟩
    else
      match rest with
      | [] => loop 0 e.dyn [] lm words
      | e2 :: rest2 =>
        if e2.text = 0 then
          if e2.btype ≠ 0 then ⟨[], .exit⟩ else loop 0 e2.dyn rest2 lm words
        else loop 0 e.dyn (e2 :: rest2) lm words

end Qtb
