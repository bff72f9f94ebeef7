import Verif.Ptracer.SpecAttach

/-!
# Attaching to all threads of a program

Model of `capture_all_threads` and `wait_for_group_stop` of ptracer/ptrace.c against the threads of SpecAttach.lean.  The tracer makes one request at a time
and anything can happen between two of them.
-/

namespace Ptr.Attach

/-- What `capture_all_threads` does next, ptracer/ptrace.c:136-234. -/
inductive Pc where
  /-- lines 143-147 -/
  | begin
  /-- lines 149-153 -/
  | stop
  /-- line 155 -/
  | wait
  /-- lines 157-188 -/
  | list
  /-- lines 190-201, the threads to come -/
  | seize (l : List Pid)
  /-- lines 203-209 -/
  | await (l : List Pid)
  /-- lines 211-217 -/
  | interrupt (l : List Pid)
  /-- lines 219-226 -/
  | resume
  /-- line 228 -/
  | returned
  /-- `exit(1)` -/
  | failed
  deriving DecidableEq, Repr

structure World where
  sys : System
  pc : Pc
  /-- the used part of `pids` -/
  table : List Pid
  deriving DecidableEq, Repr

/-- `exit(1)`, lines 118, 130, 146, 152, 225 and 233: the tracer ends. -/
def World.fail (w : World) : World := { w with sys := w.sys.abandon, pc := .failed }

/-- One round of the loop of `wait_for_group_stop`, ptracer/ptrace.c:111-133, with what is next behind the loop.  `waitpid` waits: nothing happens before
the thread has stopped for the tracer or has exited; the thread with the id of the process is reported as exited only when it is the last one.  A signal
(`EINTR`) makes the call of `waitpid` again and is left out.  The request of line 128 is made before anything else happens to the thread, so it is part
of the same step; its signal is `WSTOPSIG`, which is `SIGTRAP` for the events. -/
def World.waitFor (w : World) (leader p : Pid) (next : Pc) : World :=
  match w.sys.thread? p with
  | some t =>
    match t.st with
    | .trapped .stop => { w with sys := { w.sys with threads := upd p (fun t => { t with st := .captured }) w.sys.threads }, pc := next }
    | .trapped (.signal s) => { w with sys := w.sys.cont t s }
    | .trapped (.clone _) => { w with sys := w.sys.cont t sigTrap }
    | .trapped .exit => { w with sys := w.sys.cont t sigTrap }
    | .running | .stopped | .captured => w
  | none =>
    if p ∈ w.sys.zombies then
      if p = leader ∧ w.sys.threads ≠ [] then w else { w with sys := { w.sys with zombies := w.sys.zombies.erase p } }
    else w.fail

/-- The next request of `capture_all_threads(leader)`, ptracer/ptrace.c:136-234. -/
def World.step (leader : Pid) (w : World) : World :=
  match w.pc with
  | .begin =>
    match w.sys.seize leader with
    | none => w.fail
    | some k => { w with sys := k, pc := .stop }
  | .stop => { w with sys := w.sys.send sigStop none, pc := .wait }
  | .wait => w.waitFor leader leader .list
  | .list =>
    -- lines 167-186; the entry with index `MAX_PIDS - 1` is stored, and is an error
    let w := { w with table := w.sys.ids.take maxPids }
    if w.sys.ids.length ≥ maxPids then w.fail else { w with pc := .seize w.table }
  | .seize [] => { w with pc := .await w.table }
  | .seize (p :: l) =>
    if p = leader then { w with pc := .seize l }
    else
      match w.sys.seize p with
      | none => w.fail
      | some k => { w with sys := k, pc := .seize l }
  | .await [] => { w with pc := .interrupt w.table }
  | .await (p :: l) => if p = leader then { w with pc := .await l } else w.waitFor leader p (.await l)
  | .interrupt [] => { w with pc := .resume }
  | .interrupt (p :: l) =>
    -- the thread is stopped already and stays so
    match w.sys.thread? p with
    | none => w.fail
    | some t => if t.seized then { w with pc := .interrupt l } else w.fail
  | .resume => { w with sys := w.sys.send sigCont none, pc := .returned }
  | .returned => w
  | .failed => w

/-- What happens next: something in the program or beside it, or the next request of the tracer. -/
inductive Move where
  | event (e : Event)
  | tracer
  deriving DecidableEq, Repr

/-- Events and requests, in the order given. -/
def run (leader : Pid) : World → List Move → World
  | w, [] => w
  | w, .event e :: l => run leader { w with sys := w.sys.event e } l
  | w, .tracer :: l => run leader (w.step leader) l

/-- The call of `capture_all_threads`, with an empty table (`nr_pids` is 0 until then, ptracer/main.c:393). -/
def start (k : System) : World := ⟨k, .begin, []⟩

end Ptr.Attach
