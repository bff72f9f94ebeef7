import Verif.Ptracer.SpecLoop

/-!
# The threads of a program that is being attached to

What Linux does with the threads of a process while a tracer attaches to it, as far as `ptrace(2)` and `signal(7)` document it: which threads there are,
which of them run, which signals wait for them, and what happens at a request of the tracer.  The events of the program and of other processes come in any
order (`Event`); nothing here mentions the tracer's own functions.

Left out: other processes than this one, `SIGKILL`, `exec`, and what a signal does when it is delivered (only `SIGSTOP` and `SIGCONT` are special here;
the other signals are counted when they reach the program).
-/

namespace Ptr.Attach

def sigCont : Nat := 18

/-- Why a thread that is traced has stopped. -/
inductive Report where
  /-- `PTRACE_EVENT_STOP`: the process is stopped, or the thread is new -/
  | stop
  /-- a signal is about to be delivered -/
  | signal (s : Nat)
  /-- `PTRACE_EVENT_CLONE` -/
  | clone (new : Pid)
  /-- `PTRACE_EVENT_EXIT` -/
  | exit
  deriving DecidableEq, Repr

inductive St where
  | running
  /-- stopped with its process, and not traced (or not yet aware of being traced) -/
  | stopped
  /-- stopped for the tracer, which has not asked yet -/
  | trapped (r : Report)
  /-- stopped for the tracer, which has been told of `PTRACE_EVENT_STOP` -/
  | captured
  deriving DecidableEq, Repr

structure Thread where
  id : Pid
  /-- `PTRACE_SEIZE` was successful -/
  seized : Bool
  /-- the process is being stopped and this thread has to stop as well before it goes on -/
  mustStop : Bool
  st : St
  /-- the signals that wait for this thread -/
  pending : List Nat
  deriving DecidableEq, Repr

structure System where
  /-- the threads that are alive -/
  threads : List Thread
  /-- the signals that wait for any thread of the process -/
  shared : List Nat
  /-- the process is stopped, or being stopped -/
  job : Bool
  /-- traced threads that have exited and of which the tracer has not been told -/
  zombies : List Pid
  /-- the signals sent to the process and its threads -/
  sent : List Nat
  /-- the signals that have reached the program, and the thread -/
  delivered : List (Pid × Nat)
  /-- the signals that waited for a thread that exited -/
  dropped : List Nat
  deriving DecidableEq, Repr

/-- Change one thread. -/
def upd (p : Pid) (f : Thread → Thread) (l : List Thread) : List Thread := l.map fun t => if t.id = p then f t else t

/-- A thread that is alive. -/
def System.thread? (k : System) (p : Pid) : Option Thread := k.threads.find? fun t => t.id = p

/-- The ids in `/proc/PID/task`. -/
def System.ids (k : System) : List Pid := k.threads.map (·.id)

/-- The process is stopped: every thread that is not stopped yet has to. -/
def System.groupStop (k : System) : System :=
  { k with job := true, threads := k.threads.map fun t => if t.st = .stopped then t else { t with mustStop := true } }

/-- A signal is delivered to a thread. -/
def System.deliver (k : System) (p : Pid) (s : Nat) : System :=
  if s = sigStop then k.groupStop else { k with delivered := k.delivered ++ [(p, s)] }

/-- What `SIGCONT` does to a thread when it is sent: a stopped thread goes on; a thread that is traced reports that. -/
def Thread.resume (t : Thread) : Thread :=
  { t with
    mustStop := false
    pending := t.pending.filter (· ≠ sigStop)
    st := match t.st with
      | .running | .stopped => if t.seized then .trapped .stop else .running
      | s => s }

/-- What a signal does when it is sent: `SIGCONT` has its effect at once and removes `SIGSTOP`s that wait; `SIGSTOP` removes `SIGCONT`s that wait. -/
def System.generate (k : System) (s : Nat) : System :=
  if s = sigCont then { k with job := false, shared := k.shared.filter (· ≠ sigStop), threads := k.threads.map Thread.resume }
  else if s = sigStop then
    { k with shared := k.shared.filter (· ≠ sigCont), threads := k.threads.map fun t => { t with pending := t.pending.filter (· ≠ sigCont) } }
  else k

/-- A signal waits: for the process, or for a thread of it if there is this thread. -/
def System.queue (k : System) (s : Nat) : Option Pid → System
  | none => { k with sent := k.sent ++ [s], shared := k.shared ++ [s] }
  | some p => if p ∈ k.ids then { k with sent := k.sent ++ [s], threads := upd p (fun t => { t with pending := t.pending ++ [s] }) k.threads } else k

/-- A signal is sent. -/
def System.send (k : System) (s : Nat) (to : Option Pid) : System := (k.generate s).queue s to

/-- A thread ends. -/
def System.die (k : System) (t : Thread) : System :=
  { k with
    threads := k.threads.filter fun u => u.id ≠ t.id
    dropped := k.dropped ++ t.pending
    zombies := if t.seized then k.zombies ++ [t.id] else k.zombies }

/-- What can happen beside the requests of the tracer; a thread that is stopped does nothing. -/
inductive Event where
  /-- somebody sends a signal -/
  | send (s : Nat) (to : Option Pid)
  /-- a running thread takes a signal that waits for it (`own`) or for the process -/
  | take (p : Pid) (own : Bool) (s : Nat)
  /-- a running thread stops with its process -/
  | halt (p : Pid)
  /-- a stopped thread notices that it is traced -/
  | notice (p : Pid)
  /-- a running thread makes a new thread; not while its process is being stopped: `fork(2)` is restarted then -/
  | clone (p q : Pid)
  /-- a running thread exits -/
  | exit (p : Pid)
  deriving DecidableEq, Repr

/-- A signal is about to be delivered to a thread: the tracer is asked first. -/
def System.taken (k : System) (t : Thread) (s : Nat) : System :=
  if t.seized then { k with threads := upd t.id (fun t => { t with st := .trapped (.signal s) }) k.threads } else k.deliver t.id s

def System.event (k : System) : Event → System
  | .send s to => k.send s to
  | .take p own s =>
    match k.thread? p with
    | none => k
    | some t =>
      if t.st = .running ∧ t.mustStop = false then
        if own then
          if s ∈ t.pending then
            { k with threads := upd p (fun t => { t with pending := t.pending.erase s }) k.threads }.taken t s
          else k
        else if s ∈ k.shared then { k with shared := k.shared.erase s }.taken t s
        else k
      else k
  | .halt p =>
    match k.thread? p with
    | none => k
    | some t =>
      if t.st = .running ∧ t.mustStop = true then
        { k with threads := upd p (fun t => { t with mustStop := false, st := if t.seized then .trapped .stop else .stopped }) k.threads }
      else k
  | .notice p =>
    match k.thread? p with
    | none => k
    | some t =>
      if t.st = .stopped ∧ t.seized = true then { k with threads := upd p (fun t => { t with st := .trapped .stop }) k.threads } else k
  | .clone p q =>
    match k.thread? p with
    | none => k
    | some t =>
      if t.st = .running ∧ t.mustStop = false ∧ q ∉ k.ids ∧ q ∉ k.zombies then
        if t.seized then
          { k with threads := upd p (fun t => { t with st := .trapped (.clone q) }) k.threads ++ [⟨q, true, false, .trapped .stop, []⟩] }
        else { k with threads := k.threads ++ [⟨q, false, false, .running, []⟩] }
      else k
  | .exit p =>
    match k.thread? p with
    | none => k
    | some t =>
      if t.st = .running then
        if t.seized then { k with threads := upd p (fun t => { t with st := .trapped .exit }) k.threads } else k.die t
      else k

/-- `PTRACE_SEIZE`; `none`: it fails, since there is no such thread or it is traced already. -/
def System.seize (k : System) (p : Pid) : Option System :=
  match k.thread? p with
  | none => none
  | some t => if t.seized then none else some { k with threads := upd p (fun t => { t with seized := true }) k.threads }

/-- `PTRACE_CONT` of a thread that has stopped for the tracer, with the signal given if it stopped because of one. -/
def System.cont (k : System) (t : Thread) (sig : Nat) : System :=
  match t.st with
  | .trapped (.signal _) => { k with threads := upd t.id (fun t => { t with st := .running }) k.threads }.deliver t.id sig
  | .trapped .exit => k.die t
  | _ => { k with threads := upd t.id (fun t => { t with st := .running }) k.threads }

/-- What a thread does when its tracer ends: it stays stopped if the process is; a signal that was about to be delivered is still. -/
def Thread.abandon (job : Bool) (t : Thread) : Thread :=
  if t.seized then
    match t.st with
    | .trapped (.signal s) => { t with seized := false, st := if job then .stopped else .running, pending := s :: t.pending }
    | .trapped _ | .captured => { t with seized := false, st := if job then .stopped else .running }
    | _ => { t with seized := false }
  else t

/-- The tracer ends. -/
def System.abandon (k : System) : System :=
  { k with
    dropped := k.dropped ++ ((k.threads.filter fun t => t.st = .trapped .exit).flatMap (·.pending))
    threads := (k.threads.filter fun t => t.st ≠ .trapped .exit).map (Thread.abandon k.job)
    zombies := [] }

/-- A process to which no tracer is attached, and to which the signals that wait have been sent. -/
def System.Untraced (k : System) : Prop :=
  k.ids.Nodup ∧ k.zombies = [] ∧ k.delivered = [] ∧ k.dropped = [] ∧
  k.sent = k.shared ++ k.threads.flatMap (·.pending) ∧
  (∀ t ∈ k.threads, t.seized = false ∧ (t.st = .running ∨ t.st = .stopped)) ∧
  (if k.job then ∀ t ∈ k.threads, t.mustStop = true ∨ t.st = .stopped else ∀ t ∈ k.threads, t.mustStop = false ∧ t.st = .running)

/-- No thread of the process can go on before somebody sends `SIGCONT`: each of them is stopped or has to stop first. -/
def System.Halted (k : System) : Prop := k.job = true ∧ ∀ t ∈ k.threads, t.st = .stopped ∨ t.st = .running ∧ t.mustStop = true

/-- How often a signal waits. -/
def System.waiting (k : System) (s : Nat) : Nat := k.shared.count s + (k.threads.flatMap (·.pending)).count s

/-- How often a signal has reached the program. -/
def System.reached (k : System) (s : Nat) : Nat := (k.delivered.map (·.2)).count s

end Ptr.Attach
