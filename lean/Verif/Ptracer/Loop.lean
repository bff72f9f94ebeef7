import Verif.Ptracer.SpecLoop
import Verif.Ptracer.Window

/-!
# The loops of the live tracer

Model of the main loop (`ptracer/main.c:417-567`) and of the loop of `fast_forward`
(`ptracer/perf_events.c:121-236`). A stop reported by `waitpid` is an input. Requests are assumed to succeed (otherwise
the program exits). Interrupted waits are repeated and not seen here.
-/

namespace Ptr

/-- The variables of the loop: the table of threads, the counters. -/
structure Loop where
  pids : Pids
  win : Win
  deriving DecidableEq, Repr

/-- `ptrace_continue` used on the thread of the stop, ptracer/main.c:437-439. -/
def resume (t p : Pid) : Act := if p = t then .step p 0 else .cont p 0

/-- `add_pid` whose result is ignored, ptracer/main.c:451. -/
def addPid' (l : Pids) (p : Pid) : Pids := (addPid l p).getD l

/-- The signal that is delivered to the traced thread, ptracer/main.c:530-548. -/
def passSig (e : Stop) : Nat := if e.sig = sigTrap ∧ e.trace = true then 0 else e.sig

/-- One iteration of the main loop with `t` the traced thread; the last component tells that the program
ends. `step_over_atomic` is represented by what it reports (see `SingleStep.lean`); it resumes the thread itself. -/
def loopStep (t : Pid) (s : Loop) (e : Stop) : Loop × List Act × Bool :=
  if e.stopped = false then (s, [.exit 1], true)                                   -- main.c:432-435
  else if e.event = evClone ∨ e.event = evVfork ∨ e.event = evFork then            -- main.c:441-459
    ({ s with pids := addPid' s.pids e.msg }, [resume t e.pid], false)
  else if e.event = evExit then                                                    -- main.c:461-476
    if e.pid = t then ({ s with pids := removePid s.pids e.pid }, [.exit 0], true)
    else ({ s with pids := removePid s.pids e.pid }, [.detach e.pid], false)
  else if e.sig = sigStkflt then (s, [resume t e.pid], false)                      -- main.c:478-489
  else if e.pid ≠ t then                                                           -- main.c:491-513
    (s, [.cont e.pid (if e.sig = sigIll then 0 else e.sig)], false)
  else if isLarx e.at_.2 = true then                                               -- main.c:521-522
    match e.atomic with
    | none => (s, [.exit 1], true)
    | some l =>
      ({ s with win := (printAll s.win l).1 }, (printAll s.win l).2.map .record ++ [.step t 0], false)
  else                                                                             -- main.c:523-563
    let w := printInsn s.win
    let rcd := if w.2 = true then [Act.record e.at_] else []
    if w.1.left = 0#64 then ({ s with win := w.1 }, rcd ++ s.pids.map .detach ++ [.exit 0], true)
    else ({ s with win := w.1 }, rcd ++ [.step t (passSig e)], false)

/-- The main loop on a list of stops: what the tracer does. -/
def loopRun (t : Pid) : Loop → List Stop → List Act
  | _, [] => []
  | s, e :: l =>
    let r := loopStep t s e
    if r.2.2 = true then r.2.1 else r.2.1 ++ loopRun t r.1 l

/-- The variables at the end of the list of stops. -/
def loopEnd (t : Pid) : Loop → List Stop → Loop
  | s, [] => s
  | s, e :: l =>
    let r := loopStep t s e
    if r.2.2 = true then r.1 else loopEnd t r.1 l

/-- What an iteration of `fast_forward` leads to. -/
inductive Forward where
  /-- the table of threads, what was requested -/
  | go (pids : Pids) (acts : List Act)
  /-- this thread is going to be traced -/
  | chosen (p : Pid)
  | exit
  /-- a null pointer is used -/
  | crash
  deriving DecidableEq, Repr

/-- One iteration of the loop of `fast_forward`, ptracer/perf_events.c:141-207. `setup_insn_counter` uses the result
of `add_pid`, `destroy_insn_counter` that of `find_pid`, both without a check. The test at line 189
(`WSTOPSIG(status == 0)`) is never true: that branch is left out. -/
def forwardStep (pids : Pids) (e : Stop) : Forward :=
  if e.stopped = false then .exit
  else if e.event = evClone ∨ e.event = evVfork ∨ e.event = evFork then
    match addPid pids e.msg with
    | none => .crash
    | some q => .go q [.cont e.pid 0]
  else if e.event = evExit then
    match findPid pids e.pid with
    | none => .crash
    | some _ => .go (removePid pids e.pid) [.detach e.pid]
  else if e.sig = sigStkflt then
    match findPid pids e.pid with
    | none => .crash
    | some _ => .chosen e.pid
  else .go pids [.cont e.pid (if e.sig ≠ sigTrap then e.sig else 0)]

/-- The loop of `fast_forward` on a list of stops. -/
def forwardRun : Pids → List Stop → Forward × List Act
  | pids, [] => (.go pids [], [])
  | pids, e :: l =>
    match forwardStep pids e with
    | .go q acts =>
      let r := forwardRun q l
      (r.1, acts ++ r.2)
    | r => (r, [])

end Ptr
