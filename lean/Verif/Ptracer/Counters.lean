import Verif.Ptracer.Loop

/-!
# The performance counters of skipping, and the limit of open files

Model of `fast_forward` (ptracer/perf_events.c) with the counters it opens, one for each thread, and of
`setrlimit_open_files` (ptracer/main.c:52-71).
-/

namespace Ptr.Cnt
open Ptr

/-- A counter of user instructions: the thread it counts, the number of instructions after which it sends SIGSTKFLT, the thread that gets it, whether it counts. -/
structure Counter where
  tid : Pid
  period : BitVec 64
  owner : Option Pid
  enabled : Bool
  deriving DecidableEq, Repr

/-- The descriptors of the process: other files, and counters. -/
structure Sys where
  files : List Nat
  counters : List (Nat × Counter)
  deriving DecidableEq, Repr

/-- What the system answers: the descriptor of the new counter or a failure, and whether the requests for it succeed. -/
structure Ans where
  fd : Option Nat
  fcntl : Bool
  ioctl : Bool
  deriving DecidableEq, Repr

/-- The kind of request that changes a counter: it fails for a descriptor that is none of a counter. -/
def change (s : Sys) (fd : Nat) (f : Counter → Counter) : Sys :=
  { s with counters := s.counters.map fun x => if x.1 = fd then (fd, f x.2) else x }

/-- `setup_insn_counter` with `setup_sigio`, ptracer/perf_events.c:36-98; `none`: exit(1).  The counter is not made `disabled`, so it counts from the beginning; the
thread is stopped then. -/
def setup (s : Sys) (p : Pid) (period : BitVec 64) (a : Ans) : Option (Nat × Sys) :=
  match a.fd with
  | none => none
  | some fd =>
    let s₁ : Sys := { s with counters := (fd, ⟨p, period, none, true⟩) :: s.counters }
    if a.fcntl = false then none
    else
      let s₂ := change s₁ fd fun c => { c with owner := some p }
      if a.ioctl = false then none
      else some (fd, change s₂ fd fun c => { c with enabled := true })

/-- `destroy_insn_counter`, ptracer/perf_events.c:100-108; `none`: exit(1), when the descriptor is not that of a counter. -/
def teardown (s : Sys) (fd : Nat) : Option Sys :=
  if s.counters.any (·.1 == fd) then some { s with counters := s.counters.filter (·.1 != fd) } else none

/-- The table of threads, struct pid of ptracer/pids.h:9-12: the id and `perf_fd`. -/
abbrev Table := List (Pid × Nat)

/-- ptracer/perf_events.c:128-129: a counter for each thread. -/
def setupAll (period : BitVec 64) : Sys → List (Pid × Ans) → Option (Table × Sys)
  | s, [] => some ([], s)
  | s, (p, a) :: l =>
    match setup s p period a with
    | none => none
    | some (fd, s') =>
      match setupAll period s' l with
      | none => none
      | some (t, s'') => some ((p, fd) :: t, s'')

/-- ptracer/perf_events.c:228-229: all of them are closed. -/
def teardownAll : Sys → Table → Option Sys
  | s, [] => some s
  | s, x :: t =>
    match teardown s x.2 with
    | none => none
    | some s' => teardownAll s' t

/-- What an iteration leads to. -/
inductive Out where
  | go (t : Table) (s : Sys)
  | chosen (t : Table) (s : Sys) (p : Pid) (fd : Nat)
  | exit
  | crash
  deriving DecidableEq, Repr

/-- One iteration of the loop of `fast_forward`, ptracer/perf_events.c:141-207, as `forwardStep`, with the counters.  `a` is used if a counter is made. -/
def step (period : BitVec 64) (t : Table) (s : Sys) (e : Stop) (a : Ans) : Out :=
  if e.stopped = false then .exit
  else if e.event = evClone ∨ e.event = evVfork ∨ e.event = evFork then
    if t.length = maxPids then .crash
    else match setup s e.msg period a with
      | none => .exit
      | some (fd, s') => .go (t ++ [(e.msg, fd)]) s'
  else if e.event = evExit then
    match t.find? (·.1 == e.pid) with
    | none => .crash
    | some x => match teardown s x.2 with
      | none => .exit
      | some s' => .go (t.eraseP (·.1 == e.pid)) s'
  else if e.sig = sigStkflt then
    match t.find? (·.1 == e.pid) with
    | none => .crash
    | some x => .chosen t s e.pid x.2
  else .go t s

/-- The loop on a list of stops. -/
def run (period : BitVec 64) : Table → Sys → List (Stop × Ans) → Out
  | t, s, [] => .go t s
  | t, s, (e, a) :: l =>
    match step period t s e a with
    | .go t' s' => run period t' s' l
    | r => r

/-- What `fast_forward` returns: the thread to be traced, the instructions still to be skipped, and the descriptors. -/
structure Res where
  pid : Pid
  left : BitVec 64
  sys : Sys
  deriving DecidableEq, Repr

/-- `fast_forward`, ptracer/perf_events.c:121-236.  `before` is the table with the answers to the first requests.  `count` is what is in the variable after `read`: what
the counter with that descriptor says or, when the read fails (only a message is printed), what was in memory.  `none`: the tracer has ended or is still waiting. -/
def forward (skip : BitVec 64) (s : Sys) (before : List (Pid × Ans)) (stops : List (Stop × Ans)) (count : Nat → BitVec 64) : Option Res :=
  match setupAll (ffPeriod skip) s before with
  | none => none
  | some (t, s₁) =>
    match run (ffPeriod skip) t s₁ stops with
    | .chosen t' s₂ p fd =>
      match teardownAll s₂ t' with
      | none => none
      | some s₃ => some ⟨p, fastForward skip (count fd), s₃⟩
    | _ => none

/-- `NR_FILES`, ptracer/main.c:28. -/
def nrFiles : Nat := 16384

/-- The limits of open files, and the largest hard limit that the system lets a process set (fs.nr_open). -/
structure Limit where
  soft : Nat
  hard : Nat
  deriving DecidableEq, Repr

/-- `setrlimit` with the same hard limit: the soft limit must not be larger, nor the hard limit larger than the system allows. -/
def setLimit (nrOpen : Nat) (l : Limit) (new : Nat) : Option Limit :=
  if new ≤ l.hard ∧ l.hard ≤ nrOpen then some { l with soft := new } else none

/-- A turn of the loop of `setrlimit_open_files`, ptracer/main.c:62-70: the limit is set, or the number to try next. -/
def turn (nrOpen : Nat) (l : Limit) (new : Nat) : Limit ⊕ Nat :=
  match setLimit nrOpen l new with
  | some l' => .inl l'
  | none => .inr (new / 2)

/-- Up to `n` turns; `none`: not yet done. -/
def turns (nrOpen : Nat) (l : Limit) : Nat → Nat → Option Limit
  | 0, _ => none
  | n + 1, new => match turn nrOpen l new with
    | .inl l' => some l'
    | .inr new' => turns nrOpen l n new'

/-- `setrlimit_open_files`, ptracer/main.c:52-71, with at most `n` turns. -/
def raise (nrOpen : Nat) (l : Limit) (n : Nat) : Option Limit :=
  if l.soft > nrFiles then some l else turns nrOpen l n nrFiles

end Ptr.Cnt
