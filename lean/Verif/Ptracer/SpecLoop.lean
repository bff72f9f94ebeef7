import Verif.Ptracer.SingleStep
import Verif.Ptracer.Pids

/-!
# What the threads of a traced program do

The operating system stops a thread of the traced program and reports the stop to the tracer, which answers with a
request. This file describes the stops, what the thread that is being traced does between them (as far as
`ptrace` documents it), and what the tracer should record. It does not mention the loops of the tracer.
-/

namespace Ptr

/-- An instruction that is executed: its address and word. -/
abbrev Insn := Addr × Word

/-- A stop as reported by `waitpid`, with what the tracer can find out about the stopped thread. -/
structure Stop where
  pid : Pid
  /-- `WIFSTOPPED(status)` -/
  stopped : Bool
  /-- `status >> 16` -/
  event : Nat
  /-- `WSTOPSIG(status)` -/
  sig : Nat
  /-- the message of the event (the id of a new thread) -/
  msg : Pid
  /-- the instruction at which the thread is stopped -/
  at_ : Insn
  /-- the code in the signal information is `TRAP_TRACE` -/
  trace : Bool
  /-- if that instruction begins an atomic sequence: the instructions reported when it is stepped over, `none` if
  that fails -/
  atomic : Option (List Insn)
  deriving DecidableEq, Repr

/-- A request of the tracer, or an entry in the log. -/
inductive Act where
  /-- let the thread run on, delivering the signal (0: none) -/
  | cont (p : Pid) (sig : Nat)
  /-- let the thread execute one instruction, delivering the signal (0: none) -/
  | step (p : Pid) (sig : Nat)
  /-- leave the thread stopped, as a job control stop demands -/
  | listen (p : Pid)
  | detach (p : Pid)
  /-- an instruction is recorded -/
  | record (x : Insn)
  /-- the tracer ends -/
  | exit (code : Nat)
  /-- the tracer uses a null pointer -/
  | crash
  deriving DecidableEq, Repr

/-- The entries of the log. -/
def recorded (l : List Act) : List Insn := l.filterMap fun a => match a with
  | .record x => some x
  | _ => none

def evFork : Nat := 1
def evVfork : Nat := 2
def evClone : Nat := 3
def evExit : Nat := 6
def evStop : Nat := 128
def sigIll : Nat := 4
def sigTrap : Nat := 5
def sigStkflt : Nat := 16
def sigStop : Nat := 19

/-- A piece of the life of the traced thread. It always begins with the thread being stopped because it has
finished a single step. -/
inductive Life where
  /-- executes one instruction -/
  | insn (x : Insn)
  /-- executes a system call that makes the new threads given -/
  | call (x : Insn) (new : List Pid)
  /-- executes an atomic sequence and the instruction behind it -/
  | sequence (x : Insn) (l : List Insn)
  /-- a performance counter of before signals, then executes the instruction -/
  | stray (x : Insn)
  /-- a signal without handler arrives, then executes the instruction -/
  | ignored (x : Insn) (s : Nat)
  /-- a signal with a handler arrives; the instruction is not executed, the thread continues in the handler -/
  | handled (x : Insn) (s : Nat)

/-- The thread is stopped at `x` after a single step. -/
def trapAt (t : Pid) (x : Insn) : Stop := ⟨t, true, 0, sigTrap, 0#32, x, true, none⟩

/-- The thread is stopped at `x` because of the signal `s`. -/
def signalAt (t : Pid) (x : Insn) (s : Nat) : Stop := ⟨t, true, 0, s, 0#32, x, false, none⟩

/-- The thread is stopped inside the system call at `x` that makes a thread. -/
def cloneAt (t : Pid) (x : Insn) (new : Pid) : Stop := ⟨t, true, evClone, sigTrap, new, x, false, none⟩

/-- The thread is stopped when it exits. -/
def exitAt (t : Pid) (x : Insn) : Stop := ⟨t, true, evExit, sigTrap, 0#32, x, false, none⟩

/-- The stops of the traced thread. -/
def Life.stops (t : Pid) : Life → List Stop
  | .insn x => [trapAt t x]
  | .call x new => trapAt t x :: new.map (cloneAt t x)
  | .sequence x l => [⟨t, true, 0, sigTrap, 0#32, x, true, some l⟩]
  | .stray x => [trapAt t x, signalAt t x sigStkflt]
  | .ignored x s => [trapAt t x, signalAt t x s]
  | .handled x s => [trapAt t x, signalAt t x s]

/-- The instructions executed. -/
def Life.executed : Life → List Insn
  | .insn x => [x]
  | .call x _ => [x]
  | .sequence _ l => l
  | .stray x => [x]
  | .ignored x _ => [x]
  | .handled _ _ => []

/-- Only atomic sequences begin with a load-reserve. -/
def Life.Sound : Life → Prop
  | .sequence x _ => isLarx x.2 = true
  | .insn x | .call x _ | .stray x | .ignored x _ | .handled x _ => isLarx x.2 = false

/-- No signal arrives. -/
def Life.Quiet : Life → Prop
  | .ignored _ _ | .handled _ _ => False
  | _ => True

/-- The stop is the delivery of a signal to a thread (and not the end of a single step). -/
def Stop.Delivery (e : Stop) : Prop := e.stopped = true ∧ e.event = 0 ∧ ¬ (e.sig = sigTrap ∧ e.trace = true) ∧ e.sig ≠ 0

/-- The signal is passed on: the thread is resumed once, with the signal. -/
def PassedOn (e : Stop) (acts : List Act) : Prop :=
  Act.cont e.pid e.sig ∈ acts ∨ Act.step e.pid e.sig ∈ acts

end Ptr
