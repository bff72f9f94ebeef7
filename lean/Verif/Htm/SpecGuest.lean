import Verif.Htm.SpecInsn
import Verif.Htm.SpecWalk
/-!
Specification for C73: the dump of a guest process, with the page-table walks that the processor writes in front of an
instruction for its address and for those of its data.

The records are those of SpecInsn.lean, and the walks those of SpecWalk.lean.
-/
namespace Htm.Guest
open Htm Htm.Spec Htm.Mmu
open Htm.Pwc (Walk)

/-- The record of a step of a walk. -/
structure StepWord (v : BitVec 64) (w : Walk) : Prop where
  finalRa : fld v 0 0 = w.finalRa.toNat
  exception : fld v 1 1 = w.exception.toNat
  guestPte : fld v 2 2 = w.guestPte.toNat
  hostRa : fld v 3 3 = w.hostRa.toNat
  level : fld v 4 6 = w.level.toNat
  finalRecord : fld v 7 7 = w.finalRecord.toNat
  ra : fld v 8 60 * 8 = w.ra.toNat

inductive StepWords : List (BitVec 64) → List Walk → Prop
  | nil : StepWords [] []
  | cons {v w l m} : StepWord v w → StepWords l m → StepWords (v :: l) (w :: m)

/-- The records of a walk: the first has the partition and the process, then there is one for each step, and one that ends
the walk.  `t` is the translation they are of. -/
structure Walked where
  head : BitVec 64
  steps : List (BitVec 64)
  fin : BitVec 64
  t : Translation

def Walked.words (w : Walked) : List (BitVec 64) := w.head :: (w.steps ++ [w.fin])

/-- An access to data: effective address, real address, and the walk, if there is one. -/
structure Access where
  ea : BitVec 64
  ra : BitVec 64
  walk : Option Walked

/-- An instruction: the walk for a new line, the new line, and the records of `Item10`. -/
structure Item where
  walk : Option Walked
  line : Option (BitVec 64 × BitVec 64 × BitVec 64)
  info : BitVec 64
  msr : BitVec 64
  pre : Option (BitVec 64)
  data : List Access

/-- The instruction without walks. -/
def Item.base (i : Item) : Item10 := ⟨i.line.toList, i.info, i.msr, i.pre, i.data.map fun d => (d.ea, d.ra)⟩

def Item.words (i : Item) : List (BitVec 64) :=
  i.walk.toList.flatMap Walked.words ++ (i.line.toList.flatMap (fun p => [p.1, p.2.1, p.2.2]) ++
  ((i.data.filterMap Access.walk).flatMap Walked.words ++
  (i.info :: i.msr :: (i.pre.toList ++ (i.data.map fun d => (d.ea, d.ra)).flatMap (fun p => [p.1, p.2])))))

/-! ### Translation -/

/-- The page tables, the partition and the process. -/
structure Space where
  tables : Tables
  lpid : BitVec 32
  pid : BitVec 32

namespace Space
variable (P : Space)

def guest : Table := P.tables.guest P.lpid P.pid
def host : Table := P.tables.host P.lpid

/-- The real address of an effective address. -/
def real (a : BitVec 64) : BitVec 64 := P.host.real (P.guest.real a)

/-- The sizes of the guest's and the host's page. -/
def guestSize (a : BitVec 64) : Nat := P.guest.size a
def hostSize (a : BitVec 64) : Nat := P.host.size (P.guest.real a)

/-- The address is in the page of an address of the list: the smaller one of the two pages. -/
def InPages (l : List (BitVec 64)) (a : BitVec 64) : Prop :=
  ∃ b ∈ l, a.toNat / 2 ^ min (P.hostSize b) (P.guestSize b) = b.toNat / 2 ^ min (P.hostSize b) (P.guestSize b)

end Space

/-- What has been in the dump up to some point. -/
structure Ctx where
  /-- The address of the last instruction. -/
  prev : BitVec 64 := 0
  /-- The addresses that were translated with walks, in all stages. -/
  seen : Seen := {}
  /-- The effective addresses that walks were of. -/
  walked : List (BitVec 64) := []
  /-- The walk of the current line is known. -/
  known : Prop := False

def Ctx.walk (P : Space) (c : Ctx) : Option Walked → Ctx
  | none => c
  | some w => { c with seen := c.seen.add P.tables w.t, walked := w.t.address :: c.walked }

/-- The records are of a walk for the address `a`, in the page `n` of real memory, that the processor may write. -/
structure Walked.Ok (P : Space) (c : Ctx) (data : Bool) (a : BitVec 64) (n : Nat) (w : Walked) : Prop where
  tag : fld w.head 36 55 = 0xABCDF ∧ fld w.head 34 35 = 1
  side : fld w.head 0 0 = data.toNat
  lpid : fld w.head 1 12 = P.lpid.toNat
  pid : fld w.head 13 32 = P.pid.toNat
  steps : StepWords w.steps (w.t.records P.tables)
  count : w.steps.length < 38
  fin : fld w.fin 7 7 = 1
  space : w.t.lpid = P.lpid ∧ w.t.pid = P.pid
  address : w.t.address = a
  exact : w.t.Exact P.tables
  real : w.t.real.toNat = n * 4096
  plain : w.t.finalRecord = false
  valid : w.t.Valid P.tables c.seen

/-- The accesses of an instruction: the real pages are those of the addresses. -/
def DataOk (P : Space) : Ctx → List Access → Prop
  | _, [] => True
  | c, d :: l => (fld d.ra 0 40 = (P.real d.ea).toNat / 4096 ∧ ∀ w, d.walk = some w → w.Ok P c true d.ea (fld d.ra 0 40)) ∧
      DataOk P (c.walk P d.walk) l

/-- What is known when the instruction is executed: a new line is known if its walk is in the dump or an address of its page
had one before. -/
def Item.fetched (P : Space) (c : Ctx) (i : Item) : Ctx :=
  { c.walk P i.walk with
    prev := i.base.addr c.prev
    known := if i.line.isSome then P.InPages (c.walk P i.walk).walked (i.base.addr c.prev) else c.known }

/-- What is known after the instruction. -/
def Item.after (P : Space) (c : Ctx) (i : Item) : Ctx := i.data.foldl (fun c d => c.walk P d.walk) (i.fetched P c)

/-- An instruction of the guest, with translation of instructions and data.  Walks are only for a new line and for data that
are accessed.  Two accesses are to different pages of 4 kB of real memory, or have no walks, or are to the same page of 4 kB
and only the first has a walk. -/
structure Item.Ok (P : Space) (c : Ctx) (i : Item) : Prop where
  base : i.base.Ok c.prev
  mode : fld i.msr 0 0 = 0 ∧ fld i.msr 2 2 = 1 ∧ fld i.msr 3 3 = 1
  line : i.walk.isSome → i.line.isSome
  real : ∀ p, i.line = some p → fld p.2.2 0 39 = (P.real (i.base.addr c.prev)).toNat / 4096
  walk : ∀ p w, i.line = some p → i.walk = some w → w.Ok P c false (i.base.addr c.prev) (fld p.2.2 0 39)
  data : DataOk P (i.fetched P c) i.data
  two : ∀ d e, i.data = [d, e] → fld d.ra 0 40 ≠ fld e.ra 0 40 ∨ (d.walk = none ∧ e.walk = none) ∨
    (d.ea.toNat / 4096 = e.ea.toNat / 4096 ∧ e.walk = none)

def Trace (P : Space) : Ctx → List Item → Prop
  | _, [] => True
  | c, i :: l => i.Ok P c ∧ Trace P (i.after P c) l

/-! ### What is expected -/

/-- A record: what `Expect` says, whether the walk of the instruction is known, and whether that of the data is. -/
structure View where
  base : Expect
  insn : Prop
  data : Prop

/-- The second record of a prefixed instruction is without addresses of pages. -/
def Item.views (P : Space) (c : Ctx) (i : Item) : List View :=
  match i.base.expect c.prev with
  | [] => []
  | e :: l =>
    { base := e, insn := (i.fetched P c).known
      data := match i.data with
        | [] => False
        | d :: _ => P.InPages ((i.fetched P c).walk P d.walk).walked d.ea } ::
    l.map fun e => { base := e, insn := False, data := False }

def views (P : Space) : Ctx → List Item → List View
  | _, [] => []
  | c, i :: l => i.views P c ++ views P (i.after P c) l

end Htm.Guest
