/-!
# The table of traced processes

Model of `ptracer/pids.c`. A process id is a 32-bit `pid_t`; the table stores it sign-extended to 64 bits
and compares the extensions, which is comparing the ids. The file descriptor kept beside it is left out.
-/

namespace Ptr

abbrev Pid := BitVec 32

/-- `MAX_PIDS`, ptracer/pids.h:7. -/
def maxPids : Nat := 30000

/-- The used part of the array `pids`, ptracer/pids.c:7-8. -/
abbrev Pids := List Pid

/-- `add_pid`, ptracer/pids.c:20-33; `none`: the table is full, NULL is returned and nothing stored. -/
def addPid (t : Pids) (p : Pid) : Option Pids :=
  if t.length = maxPids then none else some (t ++ [p])

/-- `find_pid`, ptracer/pids.c:35-50: the index of the first entry with this id, or NULL. -/
def findPid (t : Pids) (p : Pid) : Option Nat := t.findIdx? (· == p)

/-- `remove_pid`, ptracer/pids.c:52-71: the entries after the first match are shifted down; without a
match nothing is done. -/
def removePid (t : Pids) (p : Pid) : Pids :=
  match findPid t p with
  | none => t
  | some i => t.take i ++ t.drop (i + 1)

inductive PidOp where
  | add (p : Pid)
  | remove (p : Pid)
  deriving DecidableEq, Repr

def stepPids (t : Pids) : PidOp → Option Pids
  | .add p => addPid t p
  | .remove p => some (removePid t p)

/-- A history of operations on the initially empty table; `none` if an add was refused. -/
def runPids (ops : List PidOp) : Option Pids :=
  ops.foldlM stepPids []

end Ptr
