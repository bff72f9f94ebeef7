import Verif.Ptracer.Pids

/-!
# A program that is started under a tracer

What Linux does with a process that is about to execute a program, as far as `ptrace(2)`, `signal(7)` and `wait(2)` document it.  What happens to the process
comes in any order (`Event`); nothing here mentions the requests the tracer makes.

Left out: handlers of signals, further processes and threads.
-/

namespace Ptr.Launch

/-- Signals, by what they do by default. -/
inductive Signal where
  /-- `SIGSTOP` -/
  | stop
  /-- a stop signal that can be ignored, as `SIGTSTP` -/
  | tstp
  | cont
  | kill
  /-- ends the process, as `SIGINT` -/
  | fatal
  /-- does nothing, as `SIGWINCH` -/
  | harmless
  deriving DecidableEq, Repr

/-- Why a process that is traced has stopped. -/
inductive Report where
  /-- `PTRACE_EVENT_STOP` with a stop signal: it is stopped by job control -/
  | stop (s : Signal)
  /-- `PTRACE_EVENT_STOP` with `SIGTRAP`: it was stopped by job control and has been continued -/
  | resumed
  | signal (s : Signal)
  /-- `PTRACE_EVENT_EXEC` -/
  | exec
  /-- `PTRACE_EVENT_EXIT` -/
  | exit
  deriving DecidableEq, Repr

inductive St where
  | running
  /-- stopped by job control, and not aware of being traced -/
  | stopped (s : Signal)
  /-- stopped for the tracer, which has not asked yet -/
  | trapped (r : Report)
  /-- stopped for the tracer, which has been told; `resumed`: it has been continued meanwhile and will report that -/
  | captured (resumed : Bool)
  | dead
  deriving DecidableEq, Repr

/-- Where the process is. -/
inductive Stage where
  /-- behind `fork` -/
  | forked
  /-- it has sent `SIGSTOP` to itself, and does not get on before this has been dealt with -/
  | calling
  /-- before it executes the program -/
  | ready
  /-- the program could not be executed -/
  | ending
  /-- in the program -/
  | program
  deriving DecidableEq, Repr

structure Process where
  stage : Stage
  st : St
  traced : Bool
  pending : List Signal
  /-- how many programs it has begun to execute -/
  programs : Nat
  /-- how many instructions of programs it has executed -/
  insns : Nat
  deriving DecidableEq, Repr

/-- Behind `fork`. -/
def Process.born : Process := ⟨.forked, .running, false, [], 0, 0⟩

inductive Event where
  /-- the process goes on: it reaches its next stage, or executes an instruction of the program -/
  | advance
  /-- the program executes another one -/
  | again
  /-- the program ends -/
  | leave
  /-- the process takes a signal -/
  | take (s : Signal)
  /-- the stopped process notices that it is traced -/
  | notice
  /-- somebody sends a signal -/
  | send (s : Signal)
  deriving DecidableEq, Repr

/-- A program is executed. -/
def Process.exec (c : Process) : Process := { c with stage := .program, programs := c.programs + 1, st := if c.traced then .trapped .exec else .running }

/-- The process exits. -/
def Process.exit (c : Process) : Process := { c with st := if c.traced then .trapped .exit else .dead }

/-- A signal is delivered to the process. -/
def Process.deliver (c : Process) : Signal → Process
  | .stop => { c with st := .stopped .stop }
  | .tstp => { c with st := .stopped .tstp }
  | .kill | .fatal => { c with st := .dead }
  | .cont | .harmless => c

/-- `SIGCONT` has its effect when it is sent. -/
def St.resume (traced : Bool) : St → St
  | .stopped _ => if traced then .trapped .resumed else .running
  | .trapped (.stop _) => .trapped .resumed
  | .captured _ => .captured true
  | st => st

/-- A signal waits only once. -/
def add (s : Signal) (l : List Signal) : List Signal := if s ∈ l then l else l ++ [s]

/-- A signal is sent: `SIGCONT` and the stop signals remove each other. -/
def Process.send (c : Process) (s : Signal) : Process :=
  if c.st = .dead then c
  else
    match s with
    | .kill => { c with st := .dead }
    | .cont => { c with st := c.st.resume c.traced, pending := add .cont (c.pending.filter fun s => s ≠ .stop ∧ s ≠ .tstp) }
    | .stop | .tstp => { c with pending := add s (c.pending.filter (· ≠ .cont)) }
    | .fatal | .harmless => { c with pending := add s c.pending }

/-- What happens; `found`: there is a program that can be executed. -/
def Process.event (found : Bool) (c : Process) : Event → Process
  | .send s => c.send s
  | .take s =>
    if c.st = .running ∧ s ∈ c.pending then
      if c.traced then { c with pending := c.pending.erase s, st := .trapped (.signal s) } else { c with pending := c.pending.erase s }.deliver s
    else c
  | .notice =>
    match c.st with
    | .stopped s => if c.traced then { c with st := .trapped (.stop s) } else c
    | _ => c
  | .advance =>
    if c.st = .running then
      match c.stage with
      | .forked => { c with stage := .calling, pending := add .stop (c.pending.filter (· ≠ .cont)) }
      | .calling => if .stop ∈ c.pending then c else { c with stage := .ready }
      | .ready => if found then c.exec else { c with stage := .ending }
      | .ending => c.exit
      | .program => { c with insns := c.insns + 1 }
    else c
  | .again => if c.st = .running ∧ c.stage = .program then c.exec else c
  | .leave => if c.st = .running ∧ c.stage = .program then c.exit else c

end Ptr.Launch
