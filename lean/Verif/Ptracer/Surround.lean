import Verif.Ptracer.Counters

/-!
# Signals, limits and files of the tracer and of the program it starts

Model of what `main` of ptracer/main.c does to its own process before `do_exec` (ptracer/ptrace.c:263-346), of `ascii_open` (ptracer/ascii.c:261-268), and of
`ignore_signals` and `dont_ignore_signals` (ptracer/single_step.c:173-194).
-/

namespace Ptr.Sur
open Ptr Ptr.Cnt

/-- What happens on a signal. -/
inductive Handler where
  | default
  | ignore
  | function (address : Nat)
  deriving DecidableEq, Repr

/-- struct sigaction. -/
structure Action where
  handler : Handler
  flags : Nat
  deriving DecidableEq, Repr

/-- Signal numbers: SIGTRAP and SIGCHLD. -/
def sigTrapNo : Nat := 5
def sigChld : Nat := 17

/-- `NSIG` of the C library. -/
def nsig : Nat := 65

/-- An open file: the descriptor, what it is, and whether it is closed by `execve`. -/
structure File where
  fd : Nat
  name : Nat
  cloexec : Bool
  deriving DecidableEq, Repr

/-- A process, as far as `execve` hands it on. -/
structure Proc where
  actions : Nat → Action
  limit : Limit
  files : List File

/-- An action is set. -/
def setAction (f : Nat → Action) (i : Nat) (a : Action) : Nat → Action := fun j => if j = i then a else f j

/-- `ignore_sigchld`, ptracer/main.c:38-46. -/
def ignoreSigchld (p : Proc) : Proc := { p with actions := setAction p.actions sigChld ⟨.ignore, 0⟩ }

/-- A file is opened without O_CLOEXEC: the trace (qtlib/qtwriter.c:63, in `qtwriter_open`) or the log (`fopen` in `ascii_open`). -/
def openFile (p : Proc) (fd name : Nat) : Proc := { p with files := ⟨fd, name, false⟩ :: p.files }

/-- ptracer/main.c:376-390, up to `do_exec`.  `trace` and `log`: the file names given and the answers of `open`; a trace that cannot be opened goes unnoticed, a log
that cannot is exit(1) (`none`).  The loop of `setrlimit_open_files` has `n` turns at most. -/
def prepare (nrOpen n : Nat) (trace log : Option (Nat × Option Nat)) (p : Proc) : Option Proc :=
  let p₁ := match trace with
    | some (name, some fd) => openFile p fd name
    | _ => p
  let p₂ : Option Proc := match log with
    | none => some p₁
    | some (_, none) => none
    | some (name, some fd) => some (openFile p₁ fd name)
  match p₂ with
  | none => none
  | some p₂ =>
    let p₃ := ignoreSigchld p₂
    match raise nrOpen p₃.limit n with
    | none => none
    | some l => some { p₃ with limit := l }

/-- `ignore_signals`, ptracer/single_step.c:175-186, as a loop over the signals; `refuses i`: `sigaction` fails for `i` (0, SIGKILL, SIGSTOP and those the C library keeps
for itself), and changes nothing.  The second array is `old_sigaction`. -/
def ignoreSignals (refuses : Nat → Bool) (s : (Nat → Action) × (Nat → Action)) : (Nat → Action) × (Nat → Action) :=
  (List.range nsig).foldl (fun s i => if i ≠ sigTrapNo ∧ refuses i = false then (setAction s.1 i ⟨.ignore, 0⟩, setAction s.2 i (s.1 i)) else s) s

/-- `dont_ignore_signals`, ptracer/single_step.c:188-194. -/
def restoreSignals (refuses : Nat → Bool) (s : (Nat → Action) × (Nat → Action)) : (Nat → Action) × (Nat → Action) :=
  (List.range nsig).foldl (fun s i => if i ≠ sigTrapNo ∧ refuses i = false then (setAction s.1 i (s.2 i), s.2) else s) s

end Ptr.Sur
