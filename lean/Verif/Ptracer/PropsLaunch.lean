import Verif.Ptracer.LaunchLemmas

/-! # Properties of starting a program under the tracer -/

namespace Ptr.Launch

/-- C86.  Whatever happens meanwhile, as long as nobody else sends `SIGCONT` to the new process (`C86_cont_refuted`): when the tracer has started the
program, the process is traced, it has executed this program and no other, it has not executed one instruction of it, and it is the only entry of the table;
it is stopped for the tracer unless it has been killed since. -/
theorem C86_launch_partial (found : Bool) (p : Pid) (l : List Move) (hc : Move.event (.send .cont) ∉ l) (hr : (run found p start l).pc = .returned) :
    let w := run found p start l
    w.table = [p] ∧ w.child.traced = true ∧ w.child.stage = .program ∧ w.child.programs = 1 ∧ w.child.insns = 0 ∧
      (w.child.st = .captured false ∨ w.child.st = .dead) := by
  have h := run_safe found p l hc
  unfold Safe at h
  rw [hr] at h
  exact ⟨h.1, h.2.2.2.2.1, h.2.2.2.1, h.2.1, h.2.2.1, h.2.2.2.2.2⟩

/-- C86.  Nor before that, nor if it fails, is any instruction of the program executed. -/
theorem C86_nothing_executed_partial (found : Bool) (p : Pid) (l : List Move) (hc : Move.event (.send .cont) ∉ l) :
    (run found p start l).child.insns = 0 := by
  have h := run_safe found p l hc
  unfold Safe at h
  split at h
  · exact h.2.2.1
  · exact h.2.2.1
  · exact h.2.2.1
  · exact h.2.2.1
  · exact h.2.1
  · exact h.2.2.1
  · exact h.2.1

/-- C86.  When the start fails, for whatever reason, no process is left and the table is empty. -/
theorem C86_failed (found : Bool) (p : Pid) (l : List Move) (hf : (run found p start l).pc = .failed) :
    (run found p start l).child.st = .dead ∧ (run found p start l).table = [] := by
  have h := run_any found p l
  unfold Any at h
  rw [hf] at h
  exact ⟨h.2, by simpa using h.1⟩

/-- C86.  As long as nobody sends a signal to the new process, the start does not fail if the program can be executed, and is not successful if it cannot. -/
theorem C86_outcome_partial (found : Bool) (p : Pid) (l : List Move) (hs : ∀ s, Move.event (.send s) ∉ l) :
    ((run found p start l).pc = .failed → found = false) ∧ ((run found p start l).pc = .returned → found = true) := by
  have h := run_alone found p l hs
  unfold Alone at h
  constructor <;> intro hp <;> rw [hp] at h <;> exact h.1

/-- C86.  Whatever has happened so far, signals from elsewhere included, the tracer does not wait for something that cannot come: if the process goes on for a
while the tracer gets to the end. -/
theorem C86_completes (found : Bool) (p : Pid) (l : List Move) :
    ∃ l', (∀ s, Move.event (.send s) ∉ l') ∧ ((run found p start (l ++ l')).pc = .returned ∨ (run found p start (l ++ l')).pc = .failed) := by
  obtain ⟨l', hl', h⟩ := can_end found p _ (run_any found p l)
  exact ⟨l', fun s hm => hl' _ hm, by rw [run_append]; exact h⟩

/-- C86.  In particular a program that can be executed can be started when nobody sends a signal. -/
theorem C86_starts (p : Pid) (l : List Move) (hs : ∀ s, Move.event (.send s) ∉ l) :
    ∃ l', (∀ s, Move.event (.send s) ∉ l') ∧ (run true p start (l ++ l')).pc = .returned := by
  obtain ⟨l', hl', h⟩ := C86_completes true p l
  refine ⟨l', hl', h.resolve_right fun hf => ?_⟩
  have := (C86_outcome_partial true p (l ++ l') (fun s hm => (List.mem_append.mp hm).elim (hs s) (hl' s))).1 hf
  cases this

/-- The moves up to the request that lets the process go on to the program. -/
def untilExec : List Move := [.event .advance, .event (.take .stop), .tracer, .tracer, .event .notice, .tracer, .tracer]

/-- C86, refuted: signals that have no effect on a program have none while it is started.  One that arrives at the new process before it executes the program,
as `SIGWINCH` when the window of the terminal changes its size, makes the tracer kill the process and exit, though it would have had no effect without the
tracer. -/
theorem C86_harmless_refuted (p : Pid) :
    (run true p start (untilExec ++ [.event (.send .harmless), .event (.take .harmless), .tracer])).pc = .failed ∧
    (run true p start (untilExec ++ [.event (.send .harmless), .event (.take .harmless), .tracer])).child.st = .dead ∧
    ∀ c : Process, c.traced = false → (c.event true (.send .harmless)).event true (.take .harmless) = { c with pending := ((c.event true (.send .harmless)).event true (.take .harmless)).pending } := by
  refine ⟨rfl, rfl, fun c hc => ?_⟩
  obtain ⟨stage, st, traced, pending, programs, insns⟩ := c
  simp only [Process.event, Process.send]
  split <;> split <;> simp_all [Process.deliver]

theorem run_advance (found : Bool) (p : Pid) (pc : Pc) (table : Pids) (traced : Bool) (pending : List Signal) (programs : Nat) : ∀ (n m : Nat),
    run found p ⟨⟨.program, .running, traced, pending, programs, m⟩, pc, table⟩ (List.replicate n (.event .advance)) =
      ⟨⟨.program, .running, traced, pending, programs, m + n⟩, pc, table⟩
  | 0, _ => rfl
  | n + 1, m => by
    rw [List.replicate_succ, run_cons]
    have := run_advance found p pc table traced pending programs n (m + 1)
    rw [show m + (n + 1) = m + 1 + n by omega]
    exact this

/-- C86, refuted without the condition on `SIGCONT`: the program can execute any number of instructions without being traced, and the tracer can return from
the start of another program than the one that was asked for. -/
theorem C86_cont_refuted (p : Pid) :
    (∀ n, ∃ l, (run true p start l).pc = .waitStop ∧ (run true p start l).child.traced = false ∧ (run true p start l).child.insns = n) ∧
    (∀ n, ∃ l, (run true p start l).pc = .returned ∧ (run true p start l).child.programs = 2 ∧ (run true p start l).child.insns = n) := by
  constructor
  · intro n
    refine ⟨[.event .advance, .event (.take .stop), .event (.send .cont), .event .advance, .event .advance] ++ List.replicate n (.event .advance), ?_⟩
    rw [run_append]
    have e : run true p start [.event .advance, .event (.take .stop), .event (.send .cont), .event .advance, .event .advance] =
      ⟨⟨.program, .running, false, [.cont], 1, 0⟩, .waitStop, []⟩ := rfl
    rw [e, run_advance]
    exact ⟨rfl, rfl, Nat.zero_add n⟩
  · intro n
    refine ⟨[.event .advance, .event (.take .stop), .event (.send .cont), .event .advance, .event .advance] ++ List.replicate n (.event .advance) ++
      [.event (.take .cont), .event (.send .stop), .event (.take .stop), .tracer, .tracer, .event .notice, .tracer, .tracer, .event .again, .tracer], ?_⟩
    rw [run_append, run_append]
    have e : run true p start [.event .advance, .event (.take .stop), .event (.send .cont), .event .advance, .event .advance] =
      ⟨⟨.program, .running, false, [.cont], 1, 0⟩, .waitStop, []⟩ := rfl
    rw [e, run_advance, Nat.zero_add]
    have e' : run true p ⟨⟨.program, .running, false, [.cont], 1, n⟩, .waitStop, []⟩
        [.event (.take .cont), .event (.send .stop), .event (.take .stop), .tracer, .tracer, .event .notice, .tracer, .tracer, .event .again, .tracer] =
      ⟨⟨.program, .captured false, true, [], 2, n⟩, .returned, [p]⟩ := by
      simp [run, move, Process.event, Process.send, Process.deliver, add, World.step, Process.exec]
    rw [e']
    exact ⟨rfl, rfl, rfl⟩

/-- Both outcomes occur; a fatal signal before the process has been seized makes the start fail as well. -/
example : (run true 7#32 start (untilExec ++ [.event .advance, .event .advance, .tracer])).pc = .returned ∧
    (run false 7#32 start (untilExec ++ [.event .advance, .event .advance, .event .advance, .tracer])).pc = .failed ∧
    (run true 7#32 start [.event (.send .fatal), .event (.take .fatal), .tracer]).pc = .failed := by decide

/-- Signals from elsewhere do not always disturb it: this one waits when the tracer returns. -/
example : (run true 7#32 start (untilExec ++ [.event .advance, .event .advance, .event (.send .harmless), .tracer])).pc = .returned ∧
    Move.event (.send .cont) ∉ untilExec ++ [.event .advance, .event .advance, .event (.send .harmless), .tracer] := by decide

end Ptr.Launch
