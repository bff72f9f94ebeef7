import Verif.Htm.SpecReal9
import Verif.Htm.SpecStamps
import Verif.Htm.SpecSource
/-!
What the summary that `htmdecode -d` prints has to say of a dump.
-/
namespace Htm.Spec

/-! ### Reading the summary -/

abbrev Text := List Char

/-- The lines of a text. -/
def textLines : Text → List Text
  | [] => []
  | c :: l =>
    if c = '\n' then [] :: textLines l
    else match textLines l with
      | [] => [[c]]
      | x :: r => (c :: x) :: r

/-- A line of the summary: the label is before the first colon, without the blanks around it; the value is after it and a blank. -/
def entryOf (line : Text) : Text × Text :=
  (((line.takeWhile (· ≠ ':')).dropWhile (· = ' ')).dropLast, (line.dropWhile (· ≠ ':')).drop 2)

/-- The summary has 46 lines; more may follow. -/
def entries (text : Text) : List (Text × Text) := ((textLines text).take 46).map entryOf

/-- A number, in decimal.  The counters have 32 bits. -/
def row (label : String) (n : Nat) : Text × Text := (label.toList, Nat.toDigits 10 (n % 2 ^ 32))

/-- Sixteen hexadecimal digits. -/
def hex16 (n : Nat) : Text := List.replicate (16 - (Nat.toDigits 16 n).length) '0' ++ Nat.toDigits 16 n

/-! ### Interrupts and branches -/

/-- `rfid`, `hrfid`, `rfscv`, `sc`, `sc 1` and `scv`. -/
def system (w : Nat) : Bool :=
  [0x4c0000a4, 0x4c000024, 0x4c000224, 0x44000002, 0x44000022].contains w || (decide (w / 2 ^ 12 = 0x44000) && decide (w % 2 = 1))

/-- The instruction may go on elsewhere. -/
def Item9r.leaves (i : Item9r) : Bool := decide (fld i.info 32 32 = 1) || system (fld i.info 0 31)

/-- The instruction is not the one that follows the instruction at `prev`.  Nothing is known after the address 0. -/
def Item9r.elsewhere (i : Item9r) (prev : BitVec 64) : Bool :=
  decide (prev ≠ 0) && decide (i.addr prev ≠ 0) && decide (i.addr prev ≠ prev + 4)

/-- The addresses where interrupts are taken: 0x80, 0x100, …, 0xf80. -/
def vector (a : BitVec 64) : Bool := decide (a.toNat < 2 ^ 12) && decide (a.toNat % 2 ^ 7 = 0)

/-- What the number of interrupts counts: instructions elsewhere, at one of the addresses where interrupts are taken, if the instruction before
is not one that may go on elsewhere, and was not itself elsewhere. -/
def interrupts9 (prev : BitVec 64) (left : Bool) : List Item9r → Nat
  | [] => 0
  | i :: l => (if i.elsewhere prev && !left && vector (i.addr prev) then 1 else 0) + interrupts9 (i.addr prev) (i.leaves || i.elsewhere prev) l

/-- What the number with the label "Total Branches taken after Non branches" counts: instructions elsewhere, if the instruction before
may go on elsewhere, or was itself elsewhere. -/
def branches9 (prev : BitVec 64) (left : Bool) : List Item9r → Nat
  | [] => 0
  | i :: l => (if i.elsewhere prev && left then 1 else 0) + branches9 (i.addr prev) (i.leaves || i.elsewhere prev) l

/-! ### The summary -/

/-- The instructions with the real page of the instruction in the dump, by the size of the page. -/
def pageCount (n : Nat) (items : List Item9r) : Nat := items.countP fun i => decide (i.ira.map irSize = some n)

/-- The numbers that do not depend on what instructions the dump has: of all records `all` and of the stamps `ss` among them.
Processed are the records that begin with 0xaceff, stamps or not, and the first records of instructions. -/
def recordRows (all : List (BitVec 64)) (ss : List Stamp) (scanned : Nat) (processed : Nat) : List (Text × Text) :=
  [("RAW Checksum".toList, "0x".toList ++ hex16 (checksum all).toNat),
   row "Total Records Scanned" all.length,
   row "Total Records Processed" ((all.countP fun v => decide (fld v 0 19 = 0xaceff)) + scanned),
   row "Total Instructions Scanned" scanned,
   row "Total Instructions Processed" processed,
   row "Total TimeStamps Scanned" (ss.countP Stamp.isTime),
   row "Total TimeStamps Processed" (ss.countP Stamp.isTime),
   row "Total Cycles for Processed Instructions" ((ss.filterMap Stamp.cycles).map (·.toNat)).sum]

/-- The numbers that depend on what instructions there are. -/
structure Numbers where
  interrupts : Nat := 0
  branches : Nat := 0
  withIra : Nat := 0
  withoutIra : Nat := 0
  withIVsid : Nat := 0
  withoutIVsid : Nat := 0
  withDVsid : Nat := 0
  withoutDVsid : Nat := 0
  /-- By the code for the size of the segment. -/
  segments : Nat → Nat := fun _ => 0
  withIXlate : Nat := 0
  withoutIXlateErat : Nat := 0
  withoutIXlatePwc : Nat := 0
  withoutIXlateIeara : Nat := 0
  withDXlate : Nat := 0
  withoutDXlateErat : Nat := 0
  withoutDXlatePwc : Nat := 0
  /-- By the logarithm of the size of the page. -/
  insnPages : Nat → Nat := fun _ => 0
  dataPages : Nat → Nat := fun _ => 0

def instructionRows (n : Numbers) : List (Text × Text) :=
  [row "Total Interrupts Processed" n.interrupts,
   row "Total Branches taken after Non branches" n.branches,
   row "Pipeline CPI" 0, row "CHTM CPI" 0, row "Unique ESIDs with IRPNs" 0, row "Unique ESIDs without IRPNs" 0,
   row "Instructions with IRAs" n.withIra,
   row "Instructions without IRAs" n.withoutIra,
   row "SLBMTE Instructions" 0, row "SLBIA Instructions" 0, row "RFID Instructions" 0,
   row "Total Instructions With I-VSIDs" n.withIVsid,
   row "Total Instructions Without I-VSIDs" n.withoutIVsid,
   row "Total Instructions With D-VSIDs" n.withDVsid,
   row "Total Instructions Without D-VSIDs" n.withoutDVsid,
   row "Total Instruction Records with ESID record" 0, row "Total Instruction Records with VSID record" 0,
   row "Total VSID records with Segment Size 0" (n.segments 0), row "Total VSID records with Segment Size 1" (n.segments 1),
   row "Total VSID records with Segment Size 2" (n.segments 2), row "Total VSID records with Segment Size 3" (n.segments 3),
   row "Total Instructions With I-XLATEs" n.withIXlate,
   row "Total Instructions missing I-XLATEs ERAT" n.withoutIXlateErat,
   row "Total Instructions missing I-XLATEs PWC" n.withoutIXlatePwc,
   row "Total Instructions missing I-XLATEs without IEARA" n.withoutIXlateIeara,
   row "Total Instructions With D-XLATEs" n.withDXlate,
   row "Total Instructions Without D-XLATEs ERAT" n.withoutDXlateErat,
   row "Total Instructions Without D-XLATEs PWC" n.withoutDXlatePwc,
   row "4K data pages" (n.dataPages 12), row "64K data pages" (n.dataPages 16), row "2M data pages" (n.dataPages 21),
   row "16M data pages" (n.dataPages 24), row "1G data pages" (n.dataPages 30),
   row "4K instruction pages" (n.insnPages 12), row "64K instruction pages" (n.insnPages 16), row "2M instruction pages" (n.insnPages 21),
   row "16M instruction pages" (n.insnPages 24), row "1G instruction pages" (n.insnPages 30)]

/-- The instructions of a POWER9 dump: those with the real page of the instruction, with segment information or without, those with a
real page of data, and those with a virtual segment of data. -/
def numbers9 (items : List Item9r) : Numbers where
  interrupts := interrupts9 0 false items
  branches := branches9 0 false items
  withIra := items.countP fun i => i.ira.isSome
  withoutIra := items.countP fun i => i.ira.isNone
  withIVsid := items.countP fun i => i.segmented && i.ira.isSome
  withoutIVsid := items.countP fun i => !i.segmented && i.ira.isSome
  withDVsid := items.countP fun i => i.segmented && i.dra.isSome
  withoutDVsid := items.countP fun i => !i.segmented && i.dra.isSome
  segments := fun n => items.countP fun i => i.segmented && decide (i.dra.map (fun v => fld v 0 1) = some n)
  insnPages := fun n => pageCount n items

/-- The numbers do not contradict each other, nor the numbers of instructions scanned and processed. -/
structure Numbers.Consistent (scanned processed : Nat) (x : Numbers) : Prop where
  scanned : processed ≤ scanned
  /-- An instruction is reached by an interrupt, by a jump, or neither. -/
  flow : x.interrupts + x.branches ≤ processed
  /-- What is said of where an instruction is in memory is one thing. -/
  instruction : x.withIra + x.withoutIra + x.withIXlate + x.withoutIXlateErat + x.withoutIXlatePwc + x.withoutIXlateIeara ≤ processed
  /-- What is said of where its data are is one thing. -/
  data : x.withDVsid + x.withoutDVsid + x.withDXlate + x.withoutDXlateErat + x.withoutDXlatePwc ≤ processed
  /-- Real pages come with segment information or without. -/
  segmented : x.withIVsid + x.withoutIVsid = x.withIra
  /-- Segments have one of four sizes. -/
  sizes : x.segments 0 + x.segments 1 + x.segments 2 + x.segments 3 = x.withDVsid
  /-- Pages have one size. -/
  insnPages : x.insnPages 12 + x.insnPages 16 + x.insnPages 21 + x.insnPages 24 + x.insnPages 30 ≤ x.withIra + x.withIXlate + x.withoutIXlatePwc
  dataPages : x.dataPages 12 + x.dataPages 16 + x.dataPages 21 + x.dataPages 24 + x.dataPages 30 ≤ x.withoutDVsid + x.withDXlate + x.withoutDXlatePwc

/-- The summary of a dump with `n` instructions. -/
def summary (all : List (BitVec 64)) (ss : List Stamp) (n : Nat) (x : Numbers) : List (Text × Text) := recordRows all ss n n ++ instructionRows x

end Htm.Spec
