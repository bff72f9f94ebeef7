import Verif.Qt.Reader

/-! # The disassembly loop (`/repo/qtdis/qtdis.c`)

The reader is the model of qtreader.c (`Verif.Qt.Reader`).  The text of an instruction is produced by the disassembler of
binutils, which is not modelled: here a printed line is what that is given, and what the build without binutils prints in
its place (lines 379-387). -/

namespace Dis
open Qt

/-- The arguments of one call of `print_qt_record` (qtdis.c:303-304). -/
structure Shown where
  st : RState
  rcd : Record
  ea : BitVec 64

/-- What is printed for an instruction without options: its address, its word, and the second word of a prefixed
instruction. -/
structure Line where
  ea : BitVec 64
  word : BitVec 32
  suffix : Option (BitVec 32)
  deriving DecidableEq, Repr

/-- qtdis.c:306-313 and 379-387 (the same `ea`, `buf` and `buflen` go to `disasm` in lines 372-376). -/
def line (x : Shown) : Line :=
  { ea := x.ea
    word := x.rcd.insn
    suffix := if x.st.prefixed then some x.st.suffix else none }

/-- A line of dump strategy 1: effective address, real address and page shift.  The number printed for the page is
`1UL << shift`, which is undefined from 64 on. -/
structure Access where
  ea : BitVec 64
  ra : Option (BitVec 64)
  shift : Option Nat
  deriving DecidableEq, Repr

/-- qtdis.c:318-323: the `IFTCH` line. -/
def fetchLine (x : Shown) : Access :=
  { ea := x.ea
    ra := if x.st.nextInsnRpnValid then some (x.st.nextInsnRpn.setWidth 64 <<< 12) else none
    shift := if x.st.nextInsnPageShiftValid then some x.st.nextInsnPageShift else none }

/-- qtdis.c:325-332: the `LDST` line. -/
def dataLine (x : Shown) : Option Access :=
  if x.rcd.dataAddrValid then
    some { ea := x.rcd.dataAddr
           ra := if x.st.dataRpnValid then some (x.st.dataRpn.setWidth 64 <<< 12) else none
           shift := if x.rcd.dataPageShiftValid then some x.rcd.dataPageShift else none }
  else none

/-- What the loop printed, and what ended it. -/
structure Listing where
  shown : List Shown
  final : Err

/-- qtdis.c:452-464: the loop of `read_qt`.  The copies of lines 457-458 are taken before the second record is read; whether
that read succeeds is not looked at, only a crash in it ends the program.  `fuel` bounds the number of rounds; every round
but the last takes at least six bytes.  Behind a failed second read the counts of walk entries may differ from those of the C code
(`walkSection`). -/
def loop (m : Mem) : (fuel : Nat) → (ea : BitVec 64) → RState → Listing
  | 0, _, _ => { shown := [], final := .fail }
  | fuel + 1, ea, s =>
    match nextRecord m s with
    | .err e _ => { shown := [], final := e }
    | .ok _ c =>
      if c.st.prefixed then
        match nextRecord m c.st with
        | .ok _ c2 =>
          let r := loop m fuel c2.st.nextInsnAddr c2.st
          { r with shown := ⟨c.st, c.rcd, ea⟩ :: r.shown }
        | .err .fail c2 =>
          let r := loop m fuel c2.st.nextInsnAddr c2.st
          { r with shown := ⟨c.st, c.rcd, ea⟩ :: r.shown }
        | .err e _ => { shown := [], final := e }
      else
        let r := loop m fuel c.st.nextInsnAddr c.st
        { r with shown := ⟨c.st, c.rcd, ea⟩ :: r.shown }

/-- qtdis.c:434-467 `read_qt`: opened with no flags (line 447), so neither branches nor tlbie are annotated. -/
def list (m : Mem) : Listing :=
  match readerInit m with
  | .ok _ c => loop m (m.bytes.length + 1) c.st.nextInsnAddr c.st
  | .err e _ => { shown := [], final := e }

end Dis
