/-!
# Skipping and limiting the instructions recorded by the live tracer

Model of the use of `nr_insns_skip` and `nr_insns_left` in `ptracer/main.c` and of `fast_forward` in
`ptracer/perf_events.c`. An instruction is an element of an arbitrary type; what `print_insn` writes about
it is not modelled here.
-/

namespace Ptr

/-- `nr_insns_skip` and `nr_insns_left`, ptracer/main.c:73-74. -/
structure Win where
  skip : BitVec 64
  left : BitVec 64
  deriving DecidableEq, Repr

/-- The counting part of `print_insn`, ptracer/main.c:225-241: the new counters and whether the
instruction is recorded. -/
def printInsn (s : Win) : Win × Bool :=
  if s.skip ≠ 0#64 then ({ s with skip := s.skip - 1#64 }, false)
  else if s.left ≠ -1#64 then
    if s.left = 0#64 then (s, false) else ({ s with left := s.left - 1#64 }, true)
  else (s, true)

/-- A run of calls of `print_insn`: the counters afterwards and what was recorded. -/
def printAll {α : Type} : Win → List α → Win × List α
  | s, [] => (s, [])
  | s, x :: t =>
    let (s1, r) := printInsn s
    let (s2, out) := printAll s1 t
    (s2, if r then x :: out else out)

/-- One iteration of the main loop that records instructions: an instruction stepped over singly, or the
instructions reported for an atomic sequence (ptracer/main.c:526-563). -/
inductive Chunk (α : Type) where
  | single (x : α)
  | atomic (l : List α)

def Chunk.insns {α : Type} : Chunk α → List α
  | .single x => [x]
  | .atomic l => l

/-- The main loop: after a singly stepped instruction the tracer exits if nothing is left to record
(ptracer/main.c:551-556); after an atomic sequence it does not check. The result is what is recorded. -/
def mainLoop {α : Type} : Win → List (Chunk α) → List α
  | _, [] => []
  | s, .single x :: t =>
    let (s1, r) := printInsn s
    let out := if r then [x] else []
    if s1.left = 0#64 then out else out ++ mainLoop s1 t
  | s, .atomic l :: t =>
    let (s1, out) := printAll s l
    out ++ mainLoop s1 t

/-- The sample period handed to the performance counters, `*nr_insns - SLACK` in unsigned arithmetic,
ptracer/perf_events.c:129. -/
def ffPeriod (skip : BitVec 64) : BitVec 64 := skip - 200#64

/-- `fast_forward` when the counter of the chosen thread reads `count` (ptracer/perf_events.c:217-223). -/
def fastForward (skip count : BitVec 64) : BitVec 64 := if count > skip then 0#64 else skip - count

/-- The skip count after the options have been read: attaching to a process with several threads forces
a skip of a million, ptracer/main.c:392-398. -/
def startSkip (skip : BitVec 64) (attach : Bool) (threads : Nat) : BitVec 64 :=
  if attach = true ∧ skip = 0#64 ∧ threads > 1 then 1000000#64 else skip

/-- The whole run (ptracer/main.c:410-567) when `count` instructions are executed during the fast forward;
without a skip there is no fast forward. `chunks` are the iterations of the main loop thereafter. -/
def tracerRun {α : Type} (skip limit count : BitVec 64) (chunks : List (Chunk α)) : List α :=
  if skip = 0#64 then mainLoop ⟨skip, limit⟩ chunks else mainLoop ⟨fastForward skip count, limit⟩ chunks

end Ptr
