import Verif.Htm.SpecInsn
import Verif.Htm.SpecTlb
/-!
Real addresses in POWER9 traces.  The trace gives the real page of an instruction only now and then; the decoder has to remember it.
-/
namespace Htm.Spec

/-- The pages of addresses of instructions while the trace is taken: for each address the logarithm of the size of its page.  Sizes
do not change; where a page is in real memory may change at any time. -/
structure Layout where
  size : Nat → Nat
  sizes : ∀ a, size a = 12 ∨ size a = 16 ∨ size a = 24
  same : ∀ a b, b / 2 ^ size a = a / 2 ^ size a → size b = size a

/-- Two addresses are in the same page. -/
def Layout.SamePage (t : Layout) (a b : Nat) : Prop := b / 2 ^ t.size a = a / 2 ^ t.size a

instance (t : Layout) (a b : Nat) : Decidable (t.SamePage a b) := by unfold Layout.SamePage; infer_instance

/-- A page table that does not change: where each page is in real memory. -/
structure PageTable extends Layout where
  frame : Nat → Nat
  one : ∀ a b, b / 2 ^ size a = a / 2 ^ size a → frame b = frame a

def PageTable.real (t : PageTable) (a : Nat) : Nat := t.frame a + a % 2 ^ t.size a

/-- An instruction: the instruction record, its address, the real page it is in, the address of its data, and the real page of the
data.  An instruction with segment information has the effective segment of its data in place of their address, and the virtual
segment in place of their real page. -/
structure Item9r where
  info : BitVec 64
  iea : Option (BitVec 64)
  ira : Option (BitVec 64)
  dea : Option (BitVec 64)
  dra : Option (BitVec 64)
deriving DecidableEq, Repr

def Item9r.words (i : Item9r) : List (BitVec 64) := [i.info] ++ i.iea.toList ++ i.ira.toList ++ i.dea.toList ++ i.dra.toList

/-- The instruction has segment information: bit 61 of the instruction record. -/
def Item9r.segmented (i : Item9r) : Bool := decide (fld i.info 61 61 = 1)

/-- The record with the real page of an instruction: bits 0 to 37 are its number in units of 4 kB, bits 38 and 39 its size. -/
def irSize (v : BitVec 64) : Nat := if fld v 38 39 = 1 then 12 else if fld v 38 39 = 2 then 16 else 24
def irFrame (v : BitVec 64) : Nat := fld v 0 37 * 4096

/-- The record with the real page of the data: bits 0 and 1 are its size, bits 2 to 39 its number in units of 4 kB. -/
def drSize (v : BitVec 64) : Nat := if fld v 0 1 = 0 then 12 else if fld v 0 1 = 1 then 16 else 24
def drFrame (v : BitVec 64) : Nat := fld v 2 39 * 4096

/-- Instructions without an address follow the one before. -/
def Item9r.addr (i : Item9r) (prev : BitVec 64) : BitVec 64 :=
  match i.iea with
  | some v => BitVec.ofNat 64 (v.toNat / 4 * 4)
  | none => prev + 4

/-- The record with the address says that addresses of instructions are translated. -/
def Item9r.Translated (i : Item9r) : Prop := ∃ v, i.iea = some v ∧ fld v 63 63 = 1

instance (i : Item9r) : Decidable i.Translated :=
  match h : i.iea with
  | none => isFalse (fun ⟨v, hv, _⟩ => by rw [h] at hv; cases hv)
  | some v => if g : fld v 63 63 = 1 then isTrue ⟨v, h, g⟩ else isFalse (fun ⟨u, hu, hg⟩ => by rw [h] at hu; cases hu; exact g hg)

/-- The format of the instructions.  Addresses and segments must not look like the instruction records. -/
structure Item9r.Format (i : Item9r) : Prop where
  plain : ∀ v ∈ i.words, ¬ IsStamp v
  info : fld i.info 36 55 = 0xABCDE ∧ fld i.info 56 56 = 1
  word : fld i.info 0 31 ≠ 0
  iea : i.iea.isSome = decide (fld i.info 57 57 = 1)
  ira : i.ira.isSome = decide (fld i.info 58 58 = 1)
  dea : i.dea.isSome = decide (fld i.info 59 59 = 1)
  dra : i.dra.isSome = decide (fld i.info 60 60 = 1)
  tags : ∀ v ∈ i.iea.toList ++ i.dea.toList ++ i.dra.toList, fld v 36 55 ≠ 0xABCDE
  ipage : ∀ v, i.ira = some v → fld v 41 63 = 0 ∧ fld v 38 39 ≠ 0 ∧ irFrame v % 2 ^ irSize v = 0
  dpage : i.segmented = false → ∀ v, i.dra = some v → fld v 0 1 ≠ 2 ∧ drFrame v % 2 ^ drSize v = 0

/-- Translated instructions are in the pages of the layout, and not in the last page of the address space. -/
structure Item9r.Within (i : Item9r) (t : Layout) (prev : BitVec 64) : Prop where
  page : i.Translated → ∀ v, i.ira = some v → irSize v = t.size (i.addr prev).toNat
  top : i.Translated → ((i.addr prev).toNat / 2 ^ t.size (i.addr prev).toNat + 1) * 2 ^ t.size (i.addr prev).toNat < 2 ^ 64

/-- A trace is a list of instructions in this format. -/
def Trace9 (t : Layout) (prev : BitVec 64) : List Item9r → Prop
  | [] => True
  | i :: l => i.Format ∧ i.Within t prev ∧ Trace9 t (i.addr prev) l

/-- Where the page of an address was when the trace last had it: `seen` has the addresses that the trace had a page for, and where the
page was, the last ones first. -/
def Layout.latest (t : Layout) (a : Nat) : List (Nat × Nat) → Option Nat
  | [] => none
  | p :: l => if t.SamePage a p.1 then some p.2 else t.latest a l

/-- The real address of an instruction, and the size of its page.  It is known if the trace has it, if addresses are not translated,
or if the trace had the page of the instruction before.  Of instructions that follow the one before and have no real address in the
trace, nothing is said. -/
def Item9r.known (i : Item9r) (t : Layout) (seen : List (Nat × Nat)) (prev : BitVec 64) : Option (Nat × Nat) :=
  let a := (i.addr prev).toNat
  match i.ira, i.iea with
  | some v, _ => some (irFrame v + a % 2 ^ irSize v, irSize v)
  | none, some v =>
    if fld v 63 63 = 0 then some (a % 2 ^ 62, 12)
    else (t.latest a seen).map fun frame => (frame + a % 2 ^ t.size a, t.size a)
  | none, none => none

/-- The real address that is reported: none for instructions with segment information. -/
def Item9r.real (i : Item9r) (t : Layout) (seen : List (Nat × Nat)) (prev : BitVec 64) : Option (Nat × Nat) :=
  if i.segmented then none else i.known t seen prev

/-- The real address of the data, and the size of its page. -/
def Item9r.dataReal (i : Item9r) : Option (Nat × Nat) :=
  if i.segmented then none else i.dra.map fun v => (drFrame v + (match i.dea with | some d => d.toNat % 2 ^ drSize v | none => 0), drSize v)

/-- The addresses of instructions that the trace had a page for, and where it was. -/
def Item9r.seen (i : Item9r) (seen : List (Nat × Nat)) (prev : BitVec 64) : List (Nat × Nat) :=
  match i.ira with
  | some v => if i.Translated then ((i.addr prev).toNat, irFrame v) :: seen else seen
  | none => seen

/-- What the translation cache is told or asked for an instruction: a page that the trace has is inserted; otherwise, if the trace has
the address, the page is looked up. -/
def Item9r.asks (i : Item9r) (prev : BitVec 64) : List Tlb.Op :=
  match i.ira, i.iea with
  | some v, _ => [.set (i.addr prev) (if i.Translated then 1 else 0) (BitVec.ofNat 64 (irFrame v + (i.addr prev).toNat % 2 ^ irSize v)) (BitVec.ofNat 64 (2 ^ irSize v))]
  | none, some _ => [.get (i.addr prev) (if i.Translated then 1 else 0)]
  | none, none => []

def allAsks (prev : BitVec 64) : List Item9r → List Tlb.Op
  | [] => []
  | i :: l => i.asks prev ++ allAsks (i.addr prev) l

/-- The address of the data that is reported.  If the trace has only the segment, the program reports the address 0 (see
`C50_segment_refuted`). -/
def Item9r.data (i : Item9r) : Option (BitVec 64) := if i.segmented then i.dea.map fun _ => 0 else i.dea

def Item9r.expect (i : Item9r) (t : Layout) (seen : List (Nat × Nat)) (prev : BitVec 64) : Expect :=
  { addr := i.addr prev, data := i.data, word := stored (fld i.info 32 32) (fld i.info 0 31)
    real := (i.real t seen prev).map fun p => BitVec.ofNat 64 p.1, nonzero := true }

/-- What the trace says, but for the pages. -/
def expect9r (t : Layout) (seen : List (Nat × Nat)) (prev : BitVec 64) : List Item9r → List Expect
  | [] => []
  | i :: l => i.expect t seen prev :: expect9r t (i.seen seen prev) (i.addr prev) l

/-- Real address and page size of each instruction and of its data. -/
def pages9r (t : Layout) (seen : List (Nat × Nat)) (prev : BitVec 64) : List Item9r → List (Option (Nat × Nat) × Option (Nat × Nat))
  | [] => []
  | i :: l => (i.real t seen prev, i.dataReal) :: pages9r t (i.seen seen prev) (i.addr prev) l

/-! ### What the machine had -/

/-- The pages of the trace are those of a page table that does not change. -/
def Steady (t : PageTable) (prev : BitVec 64) : List Item9r → Prop
  | [] => True
  | i :: l => (i.Translated → ∀ v, i.ira = some v → irFrame v = t.frame (i.addr prev).toNat) ∧ Steady t (i.addr prev) l

/-- The real addresses and page sizes that the page table has for translated instructions. -/
def steady9r (t : PageTable) (prev : BitVec 64) : List Item9r → List (Option (Nat × Nat))
  | [] => []
  | i :: l => (if i.Translated then some (t.real (i.addr prev).toNat, t.size (i.addr prev).toNat) else none) :: steady9r t (i.addr prev) l

/-! ### The trace that is written -/

/-- A real address and the size of its page that the machine may have for an address. -/
structure Maps (a : BitVec 64) (x : Nat × Nat) : Prop where
  size : x.2 = 12 ∨ x.2 = 16 ∨ x.2 = 24
  offset : x.1 % 2 ^ x.2 = a.toNat % 2 ^ x.2

/-- The machine had `had` for the instructions, one for each, and `last` for the one before.  From an instruction to the next one in
memory the page does not change; for all others the trace has, or had, the page. -/
def Told (t : Layout) (seen : List (Nat × Nat)) (last : Nat × Nat) (prev : BitVec 64) : List Item9r → List (Nat × Nat) → Prop
  | [], had => had = []
  | _ :: _, [] => False
  | i :: l, x :: had =>
    Maps (i.addr prev) x ∧
    (if i.addr prev = prev + 4 then
      x.2 = last.2 ∧ (i.addr prev).toNat / 2 ^ last.2 = prev.toNat / 2 ^ last.2 ∧ x.1 / 2 ^ last.2 = last.1 / 2 ^ last.2
     else i.real t seen prev = some x) ∧
    Told t (i.seen seen prev) x (i.addr prev) l had

/-- The same for a whole trace: for the first instruction the trace has the page, too. -/
def Told9 (t : Layout) : List Item9r → List (Nat × Nat) → Prop
  | [], had => had = []
  | _ :: _, [] => False
  | i :: l, x :: had => Maps (i.addr 0) x ∧ i.real t [] 0 = some x ∧ Told t (i.seen [] 0) x (i.addr 0) l had

/-- Page numbers have at most 32 bits. -/
def Small (x : Option (Nat × Nat)) : Prop := ∀ p, x = some p → p.1 / 2 ^ p.2 < 2 ^ 32

/-- Real address and page size of each instruction and of its data, as the machine had them. -/
def actual9r : List Item9r → List (Nat × Nat) → List (Option (Nat × Nat) × Option (Nat × Nat))
  | i :: l, x :: had => (some x, i.dataReal) :: actual9r l had
  | _, _ => []

end Htm.Spec
