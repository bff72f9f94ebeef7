import Verif.Ptracer.SpecSession
import Verif.Ptracer.Loop

/-!
# The tracer behind attaching

Model of `main` of ptracer/main.c:392-567 behind `capture_all_threads` or `do_exec`, with `fast_forward` (ptracer/perf_events.c:121-236),
`release_all_non_tracing_threads`, `detach_all_threads` (ptracer/ptrace.c:236-261) and the requests of `step_over_atomic` (ptracer/single_step.c:190-311),
against the threads of SpecAttach.lean: here the stops are not an input, as they are in Loop.lean, but what the threads do.

Left out: the checkpoint (ptracer/main.c:412-413), which is the subject of C97; what the tracer writes (see C75 and C76); requests that fail although the thread is stopped.
-/

namespace Ptr.Attach

/-- Where the tracer is. -/
inductive Phase where
  /-- `fast_forward` starts the threads, ptracer/perf_events.c:132-138; the threads to come -/
  | starting (l : List Pid)
  /-- the loop of `fast_forward`, ptracer/perf_events.c:140-207 -/
  | forward
  /-- `release_all_non_tracing_threads`, ptracer/ptrace.c:236-248, the entries to come; behind them `PTRACE_SINGLESTEP`, ptracer/main.c:418-421 -/
  | release (t : Pid) (l : List Pid)
  /-- the main loop, ptracer/main.c:423-564 -/
  | trace (t : Pid)
  /-- `step_over_atomic` waits for the thread, ptracer/single_step.c:262-280 -/
  | atomic (t : Pid)
  /-- `exit` -/
  | ended (code : Nat)
  /-- a null pointer is used -/
  | crashed
  deriving DecidableEq, Repr

structure Config where
  /-- the program is not started by the tracer: `child_pid` is not 0, ptracer/main.c:392 and 415 -/
  attached : Bool
  /-- the id of the process -/
  leader : Pid
  deriving DecidableEq, Repr

structure Session where
  sys : System
  phase : Phase
  /-- the used part of `pids` -/
  table : List Pid
  /-- the signals that a request of the tracer has suppressed -/
  lost : List Nat
  deriving DecidableEq, Repr

/-- `exit`. -/
def Session.over (w : Session) (code : Nat) : Session := { w with sys := w.sys.abandon, phase := .ended code }

/-- The tracer uses a null pointer and is ended by that. -/
def Session.crash (w : Session) : Session := { w with sys := w.sys.abandon, phase := .crashed }

/-- A request with signal 0. -/
def Session.letGo (w : Session) (t : Thread) : Session := { w with sys := w.sys.letGo t, lost := w.lost ++ t.st.held }

/-- A request with a signal. -/
def Session.pass (w : Session) (t : Thread) (sig : Nat) : Session := { w with sys := w.sys.cont t sig }

/-- `PTRACE_DETACH`. -/
def Session.detach (w : Session) (t : Thread) : Session := { w with sys := w.sys.detach t, lost := w.lost ++ t.st.held }

/-- `fast_forward` has found the thread to be traced, ptracer/perf_events.c:201-202 and 209-236, and then ptracer/main.c:415-416. -/
def Session.choose (c : Config) (w : Session) (t : Thread) : Session :=
  { w with
    sys := { w.sys with threads := upd t.id (fun t => { t with st := .captured }) w.sys.threads }
    lost := w.lost ++ t.st.held
    phase := .release t.id (if c.attached then w.table else []) }

/-- What `fast_forward` does when it is told of a stop, ptracer/perf_events.c:157-206. -/
def Session.forwardTold (c : Config) (w : Session) (t : Thread) : Session :=
  match t.st with
  | .trapped (.clone q) =>
    match addPid w.table q with
    | none => w.crash
    | some l => { w with table := l }.letGo t
  | .trapped .exit => if t.id ∈ w.table then { w with table := removePid w.table t.id }.detach t else w.crash
  | .trapped (.signal s) =>
    if s = sigStkflt then if t.id ∈ w.table then w.choose c t else w.crash
    else if s = sigTrap then w.letGo t
    else w.pass t s
  | .trapped .stop => w.letGo t
  | .running | .stopped | .captured => w

/-- What the tracer can find out about the thread it traces, and what its counter says, at a stop. -/
structure Look where
  /-- the next instruction begins an atomic sequence, ptracer/main.c:526 -/
  larx : Bool
  /-- no instruction is left to be traced, ptracer/main.c:551 -/
  last : Bool
  /-- the code in the signal information is `TRAP_TRACE`, ptracer/main.c:544 -/
  trace : Bool
  deriving DecidableEq, Repr

/-- `detach_all_threads`, ptracer/ptrace.c:250-261, a request for each entry; it fails for threads that are not stopped, and that is not checked. -/
def Session.detachAll : List Pid → Session → Session
  | [], w => w
  | p :: l, w =>
    match w.sys.thread? p with
    | none => detachAll l w
    | some t => if t.st.held? then detachAll l (w.detach t) else detachAll l w

/-- What the main loop does at a stop of the traced thread, ptracer/main.c:519-563. -/
def Session.own (w : Session) (t : Thread) (x : Look) : Session :=
  if x.larx then { w.letGo t with phase := .atomic t.id }
  else if x.last then (w.detachAll w.table).over 0
  else
    match t.st with
    | .trapped (.signal s) => if s = sigTrap ∧ x.trace = true then w.letGo t else w.pass t s
    | _ => w.letGo t

/-- What the main loop does when it is told of a stop, ptracer/main.c:436-563. -/
def Session.traceTold (w : Session) (traced : Pid) (t : Thread) (x : Look) : Session :=
  match t.st with
  | .trapped (.clone q) => { w with table := addPid' w.table q }.letGo t
  | .trapped .exit => if t.id = traced then { w with table := removePid w.table t.id }.over 0 else { w with table := removePid w.table t.id }.detach t
  | .trapped (.signal s) =>
    if s = sigStkflt then w.letGo t
    else if t.id = traced then w.own t x
    else if s = sigIll then w.letGo t
    else w.pass t s
  | .trapped .stop => if t.id = traced then w.own t x else w.letGo t
  | .running | .stopped | .captured => w

/-- What `step_over_atomic` does when it is told of a stop, ptracer/single_step.c:267-311. -/
def Session.atomicTold (w : Session) (t : Thread) : Session :=
  match t.st with
  | .trapped (.signal s) => if s = sigIll then { w.letGo t with phase := .trace t.id } else w.over 1
  | .trapped _ => w.over 1
  | .running | .stopped | .captured => w

/-- `waitpid(-1, ...)` returns although no thread has stopped: a traced thread has exited (the one with the id of the process is reported when it is the
last one), or nothing is left of the program; ptracer/perf_events.c:145-155 and ptracer/main.c:431-440. -/
def Session.gone (c : Config) (w : Session) (p : Pid) : Session :=
  if p ∈ w.sys.zombies then if p = c.leader ∧ w.sys.threads ≠ [] then w else w.over 1
  else if w.sys.threads = [] then w.over 1 else w

/-- The tracer is told of a stop, or of the end, of thread `p`, and answers. -/
def Session.report (c : Config) (w : Session) (p : Pid) (x : Look) : Session :=
  match w.phase with
  | .forward =>
    match w.sys.thread? p with
    | none => w.gone c p
    | some t => w.forwardTold c t
  | .trace q =>
    match w.sys.thread? p with
    | none => w.gone c p
    | some t => w.traceTold q t x
  | .atomic q =>
    if p = q then
      match w.sys.thread? p with
      | none => w.over 1
      | some t => w.atomicTold t
    else w
  | .starting _ | .release _ _ | .ended _ | .crashed => w

/-- The next request of the loops that do not wait: ptracer/perf_events.c:132-138, ptracer/ptrace.c:241-247 and ptracer/main.c:418-421. -/
def Session.next (w : Session) : Session :=
  match w.phase with
  | .starting [] => { w with phase := .forward }
  | .starting (p :: l) =>
    match w.sys.thread? p with
    | none => w.over 1
    | some t => if t.st.held? then { w.letGo t with phase := .starting l } else w.over 1
  | .release q [] =>
    match w.sys.thread? q with
    | none => w.over 1
    | some t => if t.st.held? then { w.letGo t with phase := .trace q } else w.over 1
  | .release q (p :: l) =>
    if p = q then { w with phase := .release q l }
    else
      match w.sys.thread? p with
      | none => { w with phase := .release q l }
      | some t => if t.st.held? then { w.letGo t with phase := .release q l } else { w with phase := .release q l }
  | .forward | .trace _ | .atomic _ | .ended _ | .crashed => w

/-- The traced thread stops by itself: behind one instruction (main loop), or at a breakpoint (`step_over_atomic`). -/
def Session.own? : Phase → Option (Pid × Nat)
  | .trace t => some (t, sigTrap)
  | .atomic t => some (t, sigIll)
  | _ => none

def Session.stepped (w : Session) : Session :=
  match Session.own? w.phase with
  | none => w
  | some (q, s) =>
    match w.sys.thread? q with
    | none => w
    | some t =>
      if t.st = .running ∧ t.mustStop = false then
        { w with sys := { w.sys with threads := upd q (fun t => { t with st := .trapped (.signal s) }) w.sys.threads } }
      else w

inductive Turn where
  /-- something in the program or beside it -/
  | event (e : Event)
  /-- the traced thread has executed what it was told to -/
  | stepped
  /-- the tracer is told of a thread -/
  | report (p : Pid) (x : Look)
  /-- the next request of a loop that does not wait -/
  | next
  deriving DecidableEq, Repr

def Session.turn (c : Config) (w : Session) : Turn → Session
  | .event e => { w with sys := w.sys.event e }
  | .stepped => w.stepped
  | .report p x => w.report c p x
  | .next => w.next

def session (c : Config) : Session → List Turn → Session
  | w, [] => w
  | w, m :: l => session c (w.turn c m) l

/-- ptracer/main.c:392-416 behind attaching to the program or starting it, with the table made by that; `skip` tells that instructions are to be skipped. -/
def begin_ (c : Config) (skip : Bool) (k : System) (table : List Pid) : Session :=
  if skip = true ∨ c.attached = true ∧ table.length > 1 then ⟨k, .starting table, table, []⟩
  else ⟨k, .release c.leader (if c.attached then table else []), table, []⟩

end Ptr.Attach
