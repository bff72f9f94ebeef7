import Verif.Qt.Copy
/-
The model run on the project's own tests of reader and writer (qtlib/tests): the traces they write and the assertions they make.
These are tests of the model, not proofs about it.
-/
namespace Qt

/-- What is written and then found in memory, followed by zeros. -/
def written (magic : BitVec 32) (rs : List Record) : Mem :=
  { bytes := match writeTrace magic rs with | .ok f => f | _ => [], beyond := fun _ => 0 }

/-- The state of the reader after opening. -/
def opened (m : Mem) : Option RState := match readerInit m with | .ok _ c => some c.st | .err _ _ => none

/-- The results of the first calls of the reader. -/
def nth (m : Mem) (i : Nat) : Record := (readTrace m false false).records.getD i .zero

/-- basictest.c:17-52: a trace without records; both assertions hold. -/
example : (opened (written 0xcafe [])).map (fun s => (s.magic, s.nextInsnAddr)) = some (0xcafe, 4) := by decide +kernel

/-- guestpagetest.c:15-41. -/
def guestPages : List Record :=
  [{ insn := 0xcafef00d, guestInsnPageShiftValid := true, guestInsnPageShift := 12 },
   { insn := 0xcafef00d, guestInsnPageShiftValid := true, guestInsnPageShift := 13 },
   { insn := 0xcafef00d, guestInsnPageShiftValid := true, guestInsnPageShift := 13,
     guestDataPageShiftValid := true, guestDataPageShift := 9 }]

/-- guestpagetest.c:44-74. -/
example :
    let m := written 0 guestPages
    (nth m 0).insn = 0xcafef00d ∧ (nth m 0).guestInsnPageShiftValid = true ∧ (nth m 0).guestInsnPageShift = 12 ∧
    (nth m 1).guestInsnPageShiftValid = true ∧ (nth m 1).guestInsnPageShift = 13 ∧
    (nth m 2).guestDataPageShiftValid = true ∧ (nth m 2).guestDataPageShift = 9 := by decide +kernel

/-- The entries of a walk, as numbers. -/
def entriesOf (x : Radix) : List (List Nat) :=
  (List.range x.nrWalks).map (fun i => (List.range 4).map (fun j => (x.hostPtes i j).toNat))

/-- radixtest.c:15-54 and realonradixtest.c:15-54, which differ in the kind of the walks. -/
def singleWalks (type : XlateType) : List Record :=
  let insn : Radix := {
    type := type, nrPtes := 4, nrWalks := 1,
    hostPtes := fun _ j => if j < 4 then BitVec.ofNat 64 (0xdeadf00d + 16 * j) else 0 }
  let data : Radix := {
    type := type, nrPtes := 4, nrWalks := 1,
    hostPtes := fun _ j => if j < 4 then BitVec.ofNat 64 (0xcafef00d + 16 * j) else 0 }
  [{ insn := 0x6000000, insnRaValid := true, insnRa := 0x100, radixInsn := insn },
   { insn := 0x6000000, insnRaValid := true, insnRa := 0x100, radixInsn := insn,
     dataAddrValid := true, dataRa := 0xc0000000, dataRaValid := true, radixData := data }]

/-- radixtest.c:58-94 and realonradixtest.c:58-94: all assertions hold. -/
def singleAsserted (type : XlateType) : Bool :=
  let m := written 0 (singleWalks type)
  (nth m 0).insn == 0x6000000 && (nth m 0).radixInsn.nrPtes == 4 && (nth m 0).radixInsn.type == type &&
  entriesOf (nth m 0).radixInsn == [[0xdeadf00d, 0xdeadf01d, 0xdeadf02d, 0xdeadf03d]] &&
  (nth m 1).radixData.nrPtes == 4 && (nth m 1).radixData.type == type &&
  entriesOf (nth m 1).radixData == [[0xcafef00d, 0xcafef01d, 0xcafef02d, 0xcafef03d]]

example : singleAsserted .hostRadix = true ∧ singleAsserted .guestReal = true := by decide +kernel

/-- radixonradixtest.c:15-66. -/
def nestedWalks : List Record :=
  let insn : Radix := {
    nrPtes := 4, nrWalks := 5,
    hostPtes := fun i _ => BitVec.ofNat 64 (0xdeadf00 + i)
    hostRas := fun i => BitVec.ofNat 64 (0xbeef00 + i)
    guestRas := fun i => BitVec.ofNat 64 (0xfeed00 + i) }
  let data : Radix := {
    nrPtes := 4, nrWalks := 5,
    hostPtes := fun i j => if j < 2 then BitVec.ofNat 64 (0xcafef00 + i) else 0
    hostRas := fun i => BitVec.ofNat 64 (0xfade00 + i)
    guestRas := fun i => BitVec.ofNat 64 (0xbead00 + i) }
  [{ insn := 0x6000000, insnRaValid := true, insnRa := 0x100, radixInsn := insn },
   { insn := 0x6000000, insnRaValid := true, insnRa := 0x100, radixInsn := insn,
     dataAddrValid := true, dataRa := 0xc0000000, dataRaValid := true, radixData := data }]

/-- radixonradixtest.c:69-117. -/
def nestedAsserted : Bool :=
  let m := written 0 nestedWalks
  (nth m 0).radixInsn.nrWalks == 5 &&
  entriesOf (nth m 0).radixInsn == (List.range 5).map (fun i => List.replicate 4 (0xdeadf00 + i)) &&
  (List.range 4).all (fun i => (nth m 0).radixInsn.hostRas i == BitVec.ofNat 64 (0xbeef00 + i)) &&
  (List.range 5).all (fun i => (nth m 0).radixInsn.guestRas i == BitVec.ofNat 64 (0xfeed00 + i)) &&
  (nth m 1).radixData.nrWalks == 5 &&
  entriesOf (nth m 1).radixData == (List.range 5).map (fun i => [0xcafef00 + i, 0xcafef00 + i, 0, 0]) &&
  (List.range 4).all (fun i => (nth m 1).radixData.hostRas i == BitVec.ofNat 64 (0xfade00 + i)) &&
  (List.range 5).all (fun i => (nth m 1).radixData.guestRas i == BitVec.ofNat 64 (0xbead00 + i))

example : nestedAsserted = true := by decide +kernel

/-- test4.c:16-27 writes, and test1.c:43-44 prints, three words; the last one has a data address. -/
def sequential : List Record :=
  [{ insn := 0x60000000, insnAddr := 0x10000000 }, { insn := 0x60000000, insnAddr := 0x10000004 },
   { insn := 0x60000000, insnAddr := 0x10000008, dataAddrValid := true, dataAddr := 0xacebabe }]

example : printedWords (written 0 sequential) = some [0x60000000, 0x60000000, 0x60000000] ∧
    (readTrace (written 0 sequential) false false).records.map (fun r => (r.insnAddr, r.dataAddrValid, r.dataAddr)) =
      [(0x10000000, false, 0), (0x10000004, false, 0), (0x10000008, true, 0xacebabe)] := by decide +kernel

end Qt
