import Verif.Ptracer.AttachLive
import Verif.Ptracer.AttachSignals

/-! # Properties of attaching to a program -/

namespace Ptr.Attach

/-- C85.  Whatever the program does meanwhile and in whatever order: when the tracer has attached, every thread of the program, and nothing else, is in its
table once; each is traced and is stopped for the tracer, and none has still to stop; the process is not stopped any longer by `SIGSTOP`.  Provided that nobody else sends `SIGCONT`
(`C85_other_cont_refuted`). -/
theorem C85_attach_partial (k : System) (leader : Pid) (l : List Move) (h : k.Untraced) (hc : NoCont l)
    (hr : (run leader (start k) l).pc = .returned) :
    let w := run leader (start k) l
    w.table.Nodup ∧ (∀ p, p ∈ w.table ↔ ∃ t ∈ w.sys.threads, t.id = p) ∧ leader ∈ w.table ∧ w.sys.job = false ∧
      ∀ t ∈ w.sys.threads, t.seized = true ∧ t.st = .captured ∧ t.mustStop = false := by
  have ho := run_ok l _ (start_ok (leader := leader) h) hc
  intro w
  have hs := ho.set
  have he := ho.each
  rw [hr] at hs he
  refine ⟨hs.2.1, fun p => ⟨fun hp => ?_, fun ⟨t, ht, hp⟩ => ?_⟩, hs.2.2.1 _ hs.1, hs.2.2.2.2, he⟩
  · obtain ⟨t, ht, hid⟩ := List.mem_map.mp (hs.2.2.2.1 p hp)
    exact ⟨t, ht, hid⟩
  · exact hs.2.2.1 p (List.mem_map.mpr ⟨t, ht, hp⟩)

/-- C85.  No signal but `SIGSTOP` and `SIGCONT` is lost or doubled while the tracer attaches, whether or not it is successful: every one that was sent has
reached the program, still waits, is about to be delivered, or was for a thread that exited. -/
theorem C85_signals (k : System) (leader : Pid) (l : List Move) (h : k.Untraced) (s : Nat) (hs : s ≠ sigStop ∧ s ≠ sigCont) :
    let w := run leader (start k) l
    w.sys.sent.count s = w.sys.reached s + w.sys.waiting s + (w.sys.threads.countP fun t => t.st = .trapped (.signal s)) + w.sys.dropped.count s := by
  have := (run_kept hs.1 hs.2 leader l (start k) (start_kept (k := k) h)).kept
  rw [weigh_pending] at this
  unfold System.waiting
  dsimp only
  omega

/-- C85.  Afterwards none is held back by the tracer. -/
theorem C85_delivered_partial (k : System) (leader : Pid) (l : List Move) (h : k.Untraced) (hc : NoCont l)
    (hr : (run leader (start k) l).pc = .returned) (s : Nat) (hs : s ≠ sigStop ∧ s ≠ sigCont) :
    let w := run leader (start k) l
    w.sys.sent.count s = w.sys.reached s + w.sys.waiting s + w.sys.dropped.count s := by
  intro w
  have h1 := C85_signals k leader l h s hs
  have h2 := (C85_attach_partial k leader l h hc hr).2.2.2.2
  have h0 : (w.sys.threads.countP fun t => t.st = .trapped (.signal s)) = 0 := by
    rw [List.countP_eq_zero]
    intro t ht
    rw [(h2 t ht).2.1]
    simp
  have : w.sys.sent.count s = w.sys.reached s + w.sys.waiting s + (w.sys.threads.countP fun t => t.st = .trapped (.signal s)) + w.sys.dropped.count s := h1
  omega

/-- C85.  Attaching does not fail as long as no thread exits, the main thread makes no thread, nobody else sends `SIGCONT`, and there are less than
`MAX_PIDS` threads. -/
theorem C85_no_failure_partial (k : System) (leader : Pid) (l : List Move) (h : k.Untraced) (hl : leader ∈ k.ids) (hs : Steady leader l)
    (hn : k.ids.length + (l.map births).sum < 30000) : (run leader (start k) l).pc ≠ .failed := by
  have hcalm : Calm leader (start k) ((l.map births).sum) := by
    refine ⟨hl, fun t ht => ?_, trivial, hn, ?_, ?_⟩
    · rcases (h.2.2.2.2.2.1 t ht).2 with hst | hst <;> simp [start, CalmT, hst]
    · intro _ h; cases h
    · intro _ h; cases h
  have := (run_calm l _ (start_ok h) hcalm hs).set
  intro hf
  rw [hf] at this
  exact this

/-- C85.  Under the same conditions the tracer never waits for something that cannot come: however far it is, and whatever has happened so far, it gets to
the end once the threads go on for a while, without any further signal, thread or exit. -/
theorem C85_completes_partial (k : System) (leader : Pid) (l : List Move) (h : k.Untraced) (hl : leader ∈ k.ids) (hs : Steady leader l)
    (hn : k.ids.length + (l.map births).sum < 30000) :
    ∃ l', (∀ m ∈ l', m = .tracer ∨ ∃ p, (∃ own s, m = .event (.take p own s)) ∨ m = .event (.halt p) ∨ m = .event (.notice p)) ∧
      (run leader (start k) (l ++ l')).pc = .returned := by
  have hcalm : Calm leader (start k) ((l.map births).sum) := by
    refine ⟨hl, fun t ht => ?_, trivial, hn, ?_, ?_⟩
    · rcases (h.2.2.2.2.2.1 t ht).2 with hst | hst <;> simp [start, CalmT, hst]
    · intro _ h; cases h
    · intro _ h; cases h
  have ho := start_ok (leader := leader) h
  have ha : Alive leader (run leader (start k) l) :=
    ⟨run_ok l _ ho hs.cont, run_calm l _ ho hcalm hs, run_live l _ ho hcalm ⟨fun _ _ => trivial, trivial⟩ hs⟩
  obtain ⟨l', hl', hr⟩ := ha.ends
  refine ⟨l', fun m hm => ?_, by rw [run_append]; exact hr⟩
  have := hl' m hm
  match m, this with
  | .tracer, _ => exact .inl rfl
  | .event (.take p own s), _ => exact .inr ⟨p, .inl ⟨own, s, rfl⟩⟩
  | .event (.halt p), _ => exact .inr ⟨p, .inr (.inl rfl)⟩
  | .event (.notice p), _ => exact .inr ⟨p, .inr (.inr rfl)⟩

/-- C85, refuted: a failure has no effect on the program.  When it fails after it has listed the threads the tracer exits and leaves the program
stopped: no thread goes on before somebody sends `SIGCONT`.  That happens when the main thread makes a thread after it has been seized and before it
stops (the new thread is traced already, and seizing it again is an error), and when a thread exits before it is seized. -/
theorem C85_left_stopped_refuted :
    (∀ (k : System) (leader : Pid) (l : List Move), k.Untraced → NoCont l → (run leader (start k) l).pc = .failed → (run leader (start k) l).table ≠ [] →
      (run leader (start k) l).sys.Halted) ∧
    (∃ (k : System) (l : List Move), k.Untraced ∧ NoCont l ∧ k.job = false ∧ (∀ p, Move.event (.exit p) ∉ l) ∧
      (run 1#32 (start k) l).pc = .failed ∧ (run 1#32 (start k) l).sys.ids = [1#32, 2#32] ∧ (run 1#32 (start k) l).sys.Halted) ∧
    (∃ (k : System) (l : List Move), k.Untraced ∧ NoCont l ∧ k.job = false ∧ (∀ p q, Move.event (.clone p q) ∉ l) ∧
      (run 1#32 (start k) l).pc = .failed ∧ (run 1#32 (start k) l).sys.ids = [1#32] ∧ (run 1#32 (start k) l).sys.Halted) := by
  refine ⟨fun k leader l h hc hf ht => ?_, ?_, ?_⟩
  · have ho := run_ok l _ (start_ok (leader := leader) h) hc
    have hs := ho.set
    have he := ho.each
    rw [hf] at hs he
    have hj := hs ht
    refine ⟨hj, fun t ht => ?_⟩
    have hg := ho.good t ht
    rcases hg.1 (he t ht) with hr | hr
    · refine .inr ⟨hr, ?_⟩
      have := hg.2.2.2 hj
      rw [hr] at this
      simpa using this
    · exact .inl hr
  · refine ⟨⟨[⟨1#32, false, false, .running, []⟩], [], false, [], [], [], []⟩,
      [.tracer, .tracer, .event (.clone 1#32 2#32), .tracer, .event (.take 1#32 false sigStop), .tracer, .event (.halt 1#32), .tracer, .tracer, .tracer,
        .tracer], ?_, ?_, rfl, ?_, by decide, by decide, ?_⟩
    · unfold System.Untraced; decide
    · intro to; simp [sigCont, sigStop]
    · intro p; simp
    · unfold System.Halted; decide
  · refine ⟨⟨[⟨1#32, false, false, .running, []⟩, ⟨2#32, false, false, .running, []⟩], [], false, [], [], [], []⟩,
      [.tracer, .tracer, .event (.take 1#32 false sigStop), .tracer, .event (.halt 1#32), .tracer, .tracer, .event (.exit 2#32), .tracer, .tracer],
      ?_, ?_, rfl, ?_, by decide, by decide, ?_⟩
    · unfold System.Untraced; decide
    · intro to; simp [sigCont, sigStop]
    · intro p q; simp
    · unfold System.Halted; decide

/-- C85, refuted: attaching leaves the program as it was.  A program that was stopped goes on behind it, and the program gets a `SIGCONT` nobody else has
sent. -/
theorem C85_undisturbed_refuted :
    (∀ (k : System) (leader : Pid) (l : List Move), k.Untraced → NoCont l → (run leader (start k) l).pc = .returned →
      (run leader (start k) l).sys.job = false) ∧
    ∃ (k : System) (l : List Move), k.Untraced ∧ NoCont l ∧ k.job = true ∧ sigCont ∉ k.sent ∧ (∀ t ∈ k.threads, t.st = .stopped) ∧
      (run 1#32 (start k) l).pc = .returned ∧ (run 1#32 (start k) l).sys.job = false ∧ (run 1#32 (start k) l).sys.shared = [sigCont] := by
  refine ⟨fun k leader l h hc hr => (C85_attach_partial k leader l h hc hr).2.2.2.1, ?_⟩
  refine ⟨⟨[⟨1#32, false, false, .stopped, []⟩, ⟨2#32, false, false, .stopped, []⟩], [], true, [], [], [], []⟩,
    [.tracer, .tracer, .event (.notice 1#32), .tracer, .tracer, .tracer, .tracer, .tracer, .event (.notice 2#32), .tracer, .tracer, .tracer,
      .tracer, .tracer, .tracer, .tracer], ?_, ?_, rfl, by decide, by decide, by decide, by decide, by decide⟩
  · unfold System.Untraced; decide
  · intro to; simp

/-- C85, refuted: without the condition that nobody else sends `SIGCONT`.  The program goes on while the tracer attaches, makes a thread, and the tracer
returns without this thread in its table and without tracing it. -/
theorem C85_other_cont_refuted : ∃ (k : System) (l : List Move), k.Untraced ∧ (run 1#32 (start k) l).pc = .returned ∧
    (run 1#32 (start k) l).table = [1#32, 2#32] ∧ ⟨3#32, false, false, .running, []⟩ ∈ (run 1#32 (start k) l).sys.threads := by
  refine ⟨⟨[⟨1#32, false, false, .running, []⟩, ⟨2#32, false, false, .running, []⟩], [], false, [], [], [], []⟩,
    [.tracer, .tracer, .event (.take 1#32 false sigStop), .tracer, .event (.halt 1#32), .tracer, .tracer, .event (.send sigCont none),
      .event (.clone 2#32 3#32), .tracer, .tracer, .tracer, .event (.send sigCont none), .tracer, .tracer, .tracer, .tracer, .tracer, .tracer, .tracer, .tracer],
    ?_, by decide, by decide, by decide⟩
  unfold System.Untraced; decide

/-- Two threads, one of which makes a third; signals arrive for the process and for a thread and are passed on. -/
def exampleSystem : System := ⟨[⟨1#32, false, false, .running, [10]⟩, ⟨2#32, false, false, .running, []⟩], [12], false, [], [12, 10], [], []⟩

def exampleMoves : List Move :=
  [.tracer, .event (.take 1#32 true 10), .tracer, .tracer, .event (.clone 2#32 3#32), .event (.send 14 (some 3#32)), .event (.take 1#32 false 12), .tracer,
    .event (.take 1#32 false sigStop), .tracer, .event (.halt 2#32), .event (.halt 1#32), .tracer, .tracer, .tracer, .tracer, .tracer, .tracer,
    .event (.halt 3#32), .event (.notice 2#32), .tracer, .tracer, .tracer, .tracer, .tracer, .tracer, .tracer, .tracer, .tracer, .tracer]

example : exampleSystem.Untraced := by unfold System.Untraced; decide

example : (run 1#32 (start exampleSystem) exampleMoves).pc = .returned ∧ (run 1#32 (start exampleSystem) exampleMoves).table = [1#32, 2#32, 3#32] ∧
    (run 1#32 (start exampleSystem) exampleMoves).sys.delivered = [(1#32, 10), (1#32, 12)] ∧
    (run 1#32 (start exampleSystem) exampleMoves).sys.waiting 14 = 1 := by decide

example : Steady 1#32 exampleMoves := ⟨fun to => by simp [exampleMoves, sigCont], fun p => by simp [exampleMoves], fun q => by simp [exampleMoves]⟩

end Ptr.Attach
