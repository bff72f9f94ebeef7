import Verif.Ptracer.SpecLaunch

/-!
# Starting a program under the tracer

Model of `do_exec` of ptracer/ptrace.c, the side of the tracer; the side of the child is in SpecLaunch.lean (its own code is
`kill(getpid(), SIGSTOP); execvp(); exit(1)`, ptracer/ptrace.c:280-284).  The tracer makes one request at a time.
-/

namespace Ptr.Launch

/-- What `do_exec` does next. -/
inductive Pc where
  /-- ptracer/ptrace.c:288-298 -/
  | waitStop
  /-- lines 300-304 -/
  | seize
  /-- lines 306-318 -/
  | waitEvent
  /-- lines 320-321 -/
  | cont
  /-- lines 323-335 -/
  | waitExec
  /-- line 340 -/
  | returned
  /-- line 344 -/
  | failed
  deriving DecidableEq, Repr

structure World where
  child : Process
  pc : Pc
  /-- the used part of `pids` -/
  table : Pids
  deriving DecidableEq, Repr

/-- `err_parent`, lines 342-344. -/
def World.fail (w : World) : World := { w with child := w.child.send .kill, pc := .failed }

/-- The next request of `do_exec`, ptracer/ptrace.c:285-340, for the child `p`.  `waitpid` waits: the first call (with `WSTOPPED`, which is `WUNTRACED`)
for a stop of a process that is not traced or for its end, the others for a stop for the tracer or the end.  A signal (`EINTR`) repeats the call and is left
out; `waitpid` does not fail otherwise, since there is a child. -/
def World.step (p : Pid) (w : World) : World :=
  match w.pc with
  | .waitStop =>
    match w.child.st with
    | .stopped s => if s = .stop then { w with pc := .seize } else w.fail
    | .dead => w.fail
    | _ => w
  | .seize => if w.child.st = .dead then w.fail else { w with child := { w.child with traced := true }, pc := .waitEvent }
  | .waitEvent =>
    match w.child.st with
    | .trapped r =>
      if r = .stop .stop then { w with child := { w.child with st := .captured false }, pc := .cont } else w.fail
    | .dead => w.fail
    | _ => w
  | .cont =>
    -- the result is not looked at
    match w.child.st with
    | .captured b => { w with child := { w.child with st := if b then .trapped .resumed else .running }, pc := .waitExec }
    | _ => { w with pc := .waitExec }
  | .waitExec =>
    match w.child.st with
    | .trapped r =>
      if r = .exec then { child := { w.child with st := .captured false }, pc := .returned, table := w.table ++ [p] } else w.fail
    | .dead => w.fail
    | _ => w
  | .returned => w
  | .failed => w

/-- What happens next: something with the child, or the next request of the tracer. -/
inductive Move where
  | event (e : Event)
  | tracer
  deriving DecidableEq, Repr

def move (found : Bool) (p : Pid) (w : World) : Move → World
  | .event e => { w with child := w.child.event found e }
  | .tracer => w.step p

/-- Events and requests, in the order given. -/
def run (found : Bool) (p : Pid) (w : World) (l : List Move) : World := l.foldl (move found p) w

/-- Behind `fork`, with an empty table (`nr_pids` is 0 until then, ptracer/main.c:399). -/
def start : World := ⟨.born, .waitStop, []⟩

end Ptr.Launch
