import Verif.Ptracer.Counters
/-!
# The question for the number of a new thread

Model of `ptrace(PTRACE_GETEVENTMSG, …)` in the loop of `fast_forward` (ptracer/perf_events.c) and in the main loop
(ptracer/main.c).
-/
namespace Ptr.Cnt
open Ptr

/-- The request: 0 and the number of the new thread, or -1 and the variable keeps what was in memory (it is declared without a value, perf_events.c:142).  It fails
if the thread that reported has been killed in the meantime. -/
def ask (answer : Option Pid) (memory : Pid) : Int × Pid :=
  match answer with
  | some p => (0, p)
  | none => (-1, memory)

/-- An event that tells of a new thread. -/
def newThread (e : Stop) : Prop := e.event = evClone ∨ e.event = evVfork ∨ e.event = evFork

instance (e : Stop) : Decidable (newThread e) := inferInstanceAs (Decidable (_ ∨ _ ∨ _))

/-- An iteration of `fast_forward`, perf_events.c:156-174, with the question: the program ends if it returns 1. -/
def stepAsked (period : BitVec 64) (t : Table) (s : Sys) (e : Stop) (a : Ans) (answer : Option Pid) (memory : Pid) : Out :=
  if e.stopped = true ∧ newThread e then
    if (ask answer memory).1 = 1 then .exit else step period t s { e with msg := (ask answer memory).2 } a
  else step period t s e a

/-- The question of the main loop, main.c:451-457: the program ends (`none`) if it returns -1; the number that is added otherwise. -/
def mainAsked (answer : Option Pid) (memory : Pid) : Option Pid :=
  if (ask answer memory).1 = -1 then none else some (ask answer memory).2

end Ptr.Cnt
