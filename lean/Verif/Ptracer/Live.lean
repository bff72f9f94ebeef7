import Verif.Ptracer.Storage
import Verif.Ptracer.Pagemap
import Verif.Ptracer.Window
import Verif.Qt.Branch
import Verif.Qt.Writer

/-!
# The trace file of the live tracer

Model of what `print_insn` (`ptracer/main.c:223-294`) hands to the trace writer, and of the file that the tracer leaves. Reading
the instruction and the registers of the stopped thread is assumed to succeed (otherwise the program exits).
-/

namespace Ptr

/-- What `print_insn` finds: the address it was called with, the instruction there, the general registers of the thread, and what
the kernel answers about pages at that moment. -/
structure Seen where
  pc : BitVec 64
  insn : BitVec 32
  regs : Gprs
  kernel : Kernel

/-- What a call of `print_insn` leads to (counters aside, see `Window.lean`). -/
inductive Made where
  /-- `exit(1)` -/
  | exit
  /-- a failed assertion -/
  | abort
  /-- the record handed to the writer -/
  | made (r : Qt.Record)

/-- `do_xlate && ea_to_pa(ea, &pa, &pshift, iside)`, ptracer/main.c:269 and 279. -/
def lookUp (xlate : Bool) (s : Maps) (x : Seen) (ea : BitVec 64) (iside : Bool) : Maps × Pa :=
  if xlate = true then eaToPa s ⟨x.kernel, ea, iside⟩ else (s, .no)

/-- ptracer/main.c:264-268 and 287-288: the record without translations and data. -/
def plainRecord (x : Seen) : Qt.Record :=
  { insn := x.insn, insnAddr := x.pc, branch := Qt.isBranch x.insn, conditionalBranch := Qt.isConditionalBranch x.insn }

/-- ptracer/main.c:269-274. -/
def withInsnPa (r : Qt.Record) : Pa → Qt.Record
  | .yes pa sh => { r with insnRa := pa, insnRaValid := true, insnPageShift := sh, insnPageShiftValid := true }
  | _ => r

/-- ptracer/main.c:277-285. -/
def withData (r : Qt.Record) (addr : BitVec 64) : Pa → Qt.Record
  | .yes pa sh => { r with dataAddr := addr, dataAddrValid := true, dataRa := pa, dataRaValid := true, dataPageShift := sh,
                           dataPageShiftValid := true }
  | _ => { r with dataAddr := addr, dataAddrValid := true }

/-- ptracer/main.c:276-285, after the instruction has been looked up. -/
def addData (xlate : Bool) (s : Maps) (x : Seen) (r : Qt.Record) : Maps × Made :=
  match isStorageInsn x.insn x.regs with
  | .abort => (s, .abort)
  | .no => (s, .made r)
  | .yes addr _ =>
    let d := lookUp xlate s x addr false
    match d.2 with
    | .exit => (d.1, .exit)
    | p => (d.1, .made (withData r addr p))

/-- The record of `print_insn`, ptracer/main.c:250-288. -/
def makeRecord (xlate : Bool) (s : Maps) (x : Seen) : Maps × Made :=
  let i := lookUp xlate s x x.pc true
  match i.2 with
  | .exit => (i.1, .exit)
  | p => addData xlate i.1 x (withInsnPa (plainRecord x) p)

/-- The records of a run of calls of `print_insn`, and whether all calls returned. -/
def makeAll (xlate : Bool) : Maps → List Seen → List Qt.Record × Bool
  | _, [] => ([], true)
  | s, x :: t =>
    let m := makeRecord xlate s x
    match m.2 with
    | .made r => (r :: (makeAll xlate m.1 t).1, (makeAll xlate m.1 t).2)
    | _ => ([], false)

/-- The trace file that is left when the tracer has seen `xs`: it is opened at ptracer/main.c:382 (with magic number 0) and closed
when the limit is reached or the traced thread exits (ptracer/main.c:471-473, 553-556). If the tracer exits at another place or
dies (also by a signal: there is no handler), the file is as it was mapped (`extra`: see `Qt.crashFile`). -/
def liveFile (xlate closed : Bool) (extra : Nat) (xs : List Seen) : Qt.WRes Qt.Bytes :=
  let m := makeAll xlate Maps.init xs
  if (m.2 && closed) = true then Qt.writeTrace 0 m.1
  else match Qt.writeAll (Qt.writerOpen 0) m.1 with
    | .ok s => .ok (Qt.crashFile s extra)
    | .abort => .abort
    | .ub => .ub

/-- The instructions that `print_insn` records in a run of the tracer (`tracerRun`, `Window.lean`) and the file. -/
def traceFile (skip limit count : BitVec 64) (xlate closed : Bool) (extra : Nat) (chunks : List (Chunk Seen)) : Qt.WRes Qt.Bytes :=
  liveFile xlate closed extra (tracerRun skip limit count chunks)

end Ptr
