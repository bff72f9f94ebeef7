import Verif.Ptracer.SpecAttach

/-!
# Requests of a tracer that is attached

What Linux does with a thread of SpecAttach.lean at the requests a tracer makes behind attaching: the thread goes on without the signal it stopped for, or is
not traced any longer.
-/

namespace Ptr.Attach

/-- The signal a stopped thread was about to get. -/
def St.held : St → List Nat
  | .trapped (.signal s) => [s]
  | _ => []

/-- A request for this thread is possible: it is stopped for the tracer. -/
def St.held? : St → Bool
  | .trapped _ | .captured => true
  | .running | .stopped => false

/-- `PTRACE_CONT` or `PTRACE_SINGLESTEP` with signal 0 of a thread that has stopped for the tracer: it goes on, or exits if it was about to; a signal it
stopped for is suppressed. -/
def System.letGo (k : System) (t : Thread) : System :=
  match t.st with
  | .trapped .exit => k.die t
  | _ => { k with threads := upd t.id (fun t => { t with st := .running }) k.threads }

/-- `PTRACE_DETACH` with signal 0 of a thread that has stopped for the tracer: the same, and it is not traced any longer; it stops again if its process is
stopped. -/
def System.detach (k : System) (t : Thread) : System :=
  match t.st with
  | .trapped .exit => k.die { t with seized := false }
  | _ => { k with threads := upd t.id (fun t => { t with seized := false, st := if k.job then .stopped else .running }) k.threads }

/-- A process of which all threads are traced and stopped for the tracer, and of which nothing has been suppressed so far. -/
def System.Attached (k : System) : Prop :=
  k.ids.Nodup ∧ k.zombies = [] ∧ (∀ t ∈ k.threads, t.seized = true ∧ t.st = .captured ∧ t.mustStop = false) ∧
  ∀ s, s ≠ sigStop → s ≠ sigCont → k.sent.count s = k.reached s + k.waiting s + k.dropped.count s

end Ptr.Attach
