import Verif.Ptracer.Attach
import Verif.Cmd.Model

/-! # Process ids as text: the threads in `/proc/<pid>/task`, and the checkpoint -/

namespace Ptr.Tasks
open Ptr.Attach
open Cmd (Arg digits)

/-- What the loop over the directory leaves behind: the table, and whether it went to `err`. -/
structure Read where
  table : List Pid
  failed : Bool
  deriving DecidableEq, Repr

/-- ptracer/ptrace.c:167-187: the loop over the directory entries, with the table so far.  `strtoul` sets `errno` if the number does not fit in
64 bits; the table has 64 bits for an id of which 32 are used later (`PTRACE_SEIZE`, line 198, takes a `pid_t`).  `cap` is `MAX_PIDS`. -/
def tasks (cap : Nat) : List Pid → List Arg → Read
  | t, [] => ⟨t, false⟩
  | t, d :: l =>
    if (d.head?.map Char.isDigit) = some true then
      if digits 0 d ≥ 2 ^ 64 ∨ d.all Char.isDigit = false then ⟨t, true⟩
      else if t.length + 1 ≥ cap then ⟨t ++ [BitVec.ofNat 32 (digits 0 d)], true⟩
      else tasks cap (t ++ [BitVec.ofNat 32 (digits 0 d)]) l
    else tasks cap t l

/-- What `do_checkpoint` does. -/
inductive Act where
  | detach (pid : Nat)
  /-- The program is replaced. -/
  | exec (args : List Arg)
  /-- `qtwriter_close`. -/
  | close
  | exit (code : Nat)
  deriving DecidableEq, Repr

/-- ptracer/main.c:89-91: `snprintf` into seven characters, one of which is the end of the string. -/
def pidText (pid : Nat) : Arg := (Nat.toDigits 10 pid).take 6

/-- ptracer/main.c:87-106 `do_checkpoint`.  Whether the process can be detached from and `sudo` be started is given. -/
def checkpoint (pid : Nat) (dir : Arg) (detaches starts qtrace : Bool) : List Act :=
  if detaches = false then [.detach pid, .exit 1]
  else
    let e := Act.exec (["sudo", "criu", "dump", "-j", "-s", "-t"].map String.toList ++ [pidText pid, "-D".toList, dir])
    if starts then [.detach pid, e]
    else [.detach pid, e] ++ (if qtrace then [.close] else []) ++ [.exit 0]

end Ptr.Tasks
