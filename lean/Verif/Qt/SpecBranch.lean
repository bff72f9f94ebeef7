import Verif.Qt.Types
/-!
Specification of Power ISA branch instructions, by arithmetic on the instruction word (Power ISA 3.1, Book I
chapter 2).  Independent of the model's predicates.
-/
namespace Qt.Spec

/-- Primary opcode, bits 0:5. -/
def primary (w : Nat) : Nat := w / 2 ^ 26
/-- Extended opcode of the XL form, bits 21:30. -/
def xo (w : Nat) : Nat := w / 2 % 1024
/-- `BO`, bits 6:10. -/
def bo (w : Nat) : Nat := w / 2 ^ 21 % 32
/-- `BI`, bits 11:15. -/
def bi (w : Nat) : Nat := w / 2 ^ 16 % 32
/-- `BD`, bits 16:29. -/
def bd (w : Nat) : Nat := w / 4 % 2 ^ 14
/-- `BH`, bits 19:20. -/
def bh (w : Nat) : Nat := w / 2 ^ 11 % 4
/-- `AA`, bit 30. -/
def aa (w : Nat) : Nat := w / 2 % 2
/-- `LK`, bit 31. -/
def lk (w : Nat) : Nat := w % 2

/-- `BO` = 1z1zz: branch always.  The bits of weight 16 and 4 are set. -/
def always (w : Nat) : Prop := bo w / 16 = 1 ∧ bo w / 4 % 2 = 1

/-- The branch instructions of the ISA. -/
inductive Kind where
  /-- I form -/ | b
  /-- B form -/ | bc
  /-- branch to LR, CTR, TAR -/ | bclr | bcctr | bctar
  /-- system call -/ | sc
  /-- return from interrupt, XL form: `rfid`, `rfi`, `rfscv`, `hrfid` -/ | rfx
  /-- return from event based branch -/ | rfebb
  /-- anything else -/ | other
deriving DecidableEq

/-- Decode an instruction word. -/
def kind (w : Nat) : Kind :=
  if primary w = 18 then .b
  else if primary w = 16 then .bc
  else if primary w = 17 then .sc
  else if primary w = 19 then
    if xo w = 16 then .bclr
    else if xo w = 528 then .bcctr
    else if xo w = 560 then .bctar
    else if xo w = 18 ∨ xo w = 50 ∨ xo w = 82 ∨ xo w = 274 then .rfx
    else if xo w = 146 then .rfebb
    else .other
  else .other

/-- Instructions with a condition field that can be evaluated. -/
def hasBO (w : Nat) : Prop := kind w = .bc ∨ kind w = .bclr ∨ kind w = .bcctr ∨ kind w = .bctar

/-- A conditional branch: has a condition field which is not "branch always". -/
def conditional (w : Nat) : Prop := hasBO w ∧ ¬ always w

/-- `bcl 20,31,$+4`, the idiom that reads the instruction address. -/
def addressing (w : Nat) : Prop :=
  kind w = .bc ∧ bo w = 20 ∧ bi w = 31 ∧ bd w = 1 ∧ aa w = 0 ∧ lk w = 1

instance (w : Nat) : Decidable (always w) := by unfold always; infer_instance
instance (w : Nat) : Decidable (hasBO w) := by unfold hasBO; infer_instance
instance (w : Nat) : Decidable (conditional w) := by unfold conditional; infer_instance
instance (w : Nat) : Decidable (addressing w) := by unfold addressing; infer_instance

/-- The kind of control transfer a branch record stands for.  A record of a non-branch instruction that changes
control is an asynchronous interrupt. -/
def branchType (w : Nat) : BranchType :=
  if addressing w then .addressing
  else match kind w with
  | .sc => .systemCallException
  | .rfx => .exceptionReturn
  | .bclr => if bh w = 0 then .ret else if lk w = 1 then .call else .branch
  | .b | .bc | .bcctr | .bctar => if lk w = 1 then .call else .branch
  | .rfebb | .other => .asyncException

/-- The records the annotation stops at with a failed assertion: unconditional `bc` other than the addressing
idiom, and conditional branches whose termination code says "exception" or "unconditional". -/
def Asserts (r : Record) : Prop :=
  r.branch = true ∧
    ((kind r.insn.toNat = .bc ∧ always r.insn.toNat ∧ ¬ addressing r.insn.toNat) ∨
      (conditional r.insn.toNat ∧ (r.termCode = 0x08 ∨ r.termCode = 0x10)))

instance (r : Record) : Decidable (Asserts r) := by unfold Asserts; infer_instance

/-- The annotation of a record: nothing for other records, the branch type and the direct flag for branches.  The
code calls everything but `bcctr` and `bctar` direct. -/
def annotated (r : Record) : Record :=
  if r.branch then
    { r with
      branchType := branchType r.insn.toNat
      branchDirect := decide (kind r.insn.toNat ≠ .bcctr ∧ kind r.insn.toNat ≠ .bctar) }
  else r

/-- Is a branch as far as a reader can tell: it has a termination code, or is a conditional branch. -/
def isBranchRecord (r : Record) : Prop := r.termCode ≠ 0 ∨ conditional r.insn.toNat

/-- What the record says about the condition: for conditional branches anything but "unconditional"; for
non-branch instructions "taken conditional" codes count. -/
def condRecord (r : Record) : Prop :=
  (conditional r.insn.toNat ∧ ¬ (r.termCode = 0x08 ∨ r.termCode = 0x10)) ∨
  ((kind r.insn.toNat = .other ∨ kind r.insn.toNat = .rfebb) ∧ (r.termCode = 0x40 ∨ r.termCode = 0x80))

/-- An `n`-bit field read as a two's complement number. -/
def signed (n x : Nat) : Int := if x < 2 ^ (n - 1) then x else (x : Int) - 2 ^ n

/-- `LI`, bits 6:29. -/
def li (w : Nat) : Nat := w / 4 % 2 ^ 24

/-- The displacement of an I-form or B-form branch. -/
def displacement (w : Nat) : Int := 4 * (if kind w = .b then signed 24 (li w) else signed 14 (bd w))

/-- The address an I-form or B-form branch at `pc` goes to: relative to `pc` unless `AA` is set. -/
def target (w : Nat) (pc : BitVec 64) : BitVec 64 :=
  BitVec.ofInt 64 (displacement w) + (if aa w = 1 then 0 else pc)

/-- The distance a branch has to cover. -/
def distance (w : Nat) (pc t : BitVec 64) : Int := (if aa w = 1 then t else t - pc).toInt

/-- It is a multiple of four and fits the field: 26 bits for I form, 16 bits for B form. -/
def reachable (w : Nat) (pc t : BitVec 64) : Prop :=
  distance w pc t % 4 = 0 ∧
    (if kind w = .b then -2 ^ 25 ≤ distance w pc t ∧ distance w pc t < 2 ^ 25
     else -2 ^ 15 ≤ distance w pc t ∧ distance w pc t < 2 ^ 15)

end Qt.Spec
