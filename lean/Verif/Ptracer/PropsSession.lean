import Verif.Ptracer.AttachReady
import Verif.Ptracer.SessionSignals

/-! # Properties of the tracer behind attaching to a program or starting it -/

namespace Ptr.Attach

/-- C87.  Attaching (C85), whatever the program does meanwhile, gives what the theorems below begin with. -/
theorem C87_ready_partial (k : System) (leader : Pid) (l : List Move) (h : k.Untraced) (hc : NoCont l) (hr : (run leader (start k) l).pc = .returned) :
    Ready ⟨true, leader⟩ (run leader (start k) l).sys (run leader (start k) l).table := attach_ready k leader l h hc hr

/-- C87.  As long as the tracer is there every thread of the program is traced, and so is every new one.  Whenever the tracer waits for threads, none is left
stopped by it: a thread is running, or is stopped with its process, or waits for the tracer to be told of it.  The thread that is being traced is
alive. -/
theorem C87_traced {c : Config} {k : System} {table : List Pid} (h : Ready c k table) (skip : Bool) (l : List Turn) :
    let w := session c (begin_ c skip k table) l
    ((∀ n, w.phase ≠ .ended n) → w.phase ≠ .crashed → ∀ t ∈ w.sys.threads, t.seized = true) ∧
    (w.phase = .forward ∨ (∃ q, w.phase = .trace q ∨ w.phase = .atomic q) → ∀ t ∈ w.sys.threads, t.st ≠ .captured) ∧
    ∀ q, w.phase = .trace q ∨ w.phase = .atomic q → ∃ t ∈ w.sys.threads, t.id = q := by
  intro w
  have ho : w.Ok c := session_ok l _ (begin_ok h skip)
  have hk := ho.kin
  refine ⟨fun h1 h2 t ht => ?_, fun hp t ht hs => ?_, fun q hp => ?_⟩
  · rw [(hk.each t ht).1]
    cases hp : w.phase with
    | ended n => exact absurd hp (h1 n)
    | crashed => exact absurd hp h2
    | _ => rfl
  · have := (hk.each t ht).2.2.2.2 hs
    rcases hp with hp | ⟨q, hp | hp⟩ <;> rw [hp] at this <;> exact this
  · refine List.mem_map.mp (hk.alive q ?_)
    rcases hp with hp | hp <;> rw [hp] <;> exact rfl

/-- C87.  Every stop the tracer is told of is answered at once: the thread runs or is gone, or is held as the one to be traced, or the tracer has ended. -/
theorem C87_answered {c : Config} {k : System} {table : List Pid} (h : Ready c k table) (skip : Bool) (l : List Turn) (p : Pid) (x : Look) :
    let w := session c (begin_ c skip k table) l
    let w' := w.turn c (.report p x)
    (∃ t ∈ w.sys.threads, t.id = p ∧ ∃ r, t.st = .trapped r) → w.phase = .forward ∨ (∃ q, w.phase = .trace q) ∨ w.phase = .atomic p →
    (∃ n, w'.phase = .ended n) ∨ w'.phase = .crashed ∨ p ∉ w'.sys.ids ∨ (∃ t ∈ w'.sys.threads, t.id = p ∧ t.st = .running) ∨
      (∃ l, w'.phase = .release p l) ∧ ∃ t ∈ w'.sys.threads, t.id = p ∧ t.st = .captured := by
  rintro w w' ⟨t, ht, rfl, r, hr⟩ hp
  have ho : w.Ok c := session_ok l _ (begin_ok h skip)
  exact report_answered c w t.id x (thread?_mem ho.kin.nodup ht) hr hp

/-- C87.  However the tracer ends, it leaves no thread traced or stopped: each runs, unless the process is stopped by a signal. -/
theorem C87_left {c : Config} {k : System} {table : List Pid} (h : Ready c k table) (skip : Bool) (l : List Turn) :
    let w := session c (begin_ c skip k table) l
    (∃ n, w.phase = .ended n) ∨ w.phase = .crashed →
    ∀ t ∈ w.sys.threads, t.seized = false ∧ (t.st = .running ∨ t.st = .stopped ∧ w.sys.job = true) := by
  intro w hp t ht
  have ho : w.Ok c := session_ok l _ (begin_ok h skip)
  obtain ⟨h1, h2, -, h4, -⟩ := ho.kin.each t ht
  have hs : t.seized = false := by
    rw [h1]
    rcases hp with ⟨n, hp⟩ | hp <;> rw [hp] <;> rfl
  refine ⟨hs, ?_⟩
  rcases h2 hs with h | h
  · exact .inl h
  · exact .inr ⟨h, h4 h⟩

/-- C87.  Every signal that was sent has reached the program, waits, is about to be delivered, was for a thread that has exited, or was suppressed by a request
of the tracer; for all signals but `SIGSTOP` and `SIGCONT`, and those by which the traced thread stops. -/
theorem C87_signals {c : Config} {k : System} {table : List Pid} (h : Ready c k table) (skip : Bool) (l : List Turn) (s : Nat)
    (hs : s ∉ [sigStop, sigCont, sigTrap, sigIll]) :
    let w := session c (begin_ c skip k table) l
    w.sys.sent.count s =
      w.sys.reached s + w.sys.waiting s + (w.sys.threads.countP fun t => t.st = .trapped (.signal s)) + w.sys.dropped.count s + w.lost.count s := by
  simp only [List.mem_cons, List.not_mem_nil, or_false, not_or] at hs
  obtain ⟨h1, h2, h3, h4⟩ := hs
  have := (session_kept h3 h4 h1 h2 c l _ (begin_kept h h1 h2 skip)).kept
  rw [weigh_pending] at this
  unfold System.waiting
  dsimp only
  omega

/-- C87.  Where a signal is suppressed: when the other threads are released behind skipping, at an atomic sequence, and when the tracer detaches. -/
theorem C87_lost {c : Config} {k : System} {table : List Pid} (h : Ready c k table) (skip : Bool) (l : List Turn) (m : Turn) (s : Nat)
    (hs : s ∉ [sigTrap, sigIll, sigStkflt]) :
    let w := session c (begin_ c skip k table) l
    (w.turn c m).lost.count s ≠ w.lost.count s →
    (c.attached = true ∧ m = .next ∧ ∃ q l, w.phase = .release q l) ∨
    ∃ q x, m = .report q x ∧ w.phase = .trace q ∧ (x.larx = true ∨ x.last = true) := by
  simp only [List.mem_cons, List.not_mem_nil, or_false, not_or] at hs
  exact lost_where hs.1 hs.2.1 hs.2.2 (session_ok l _ (begin_ok h skip)) m

/-- C87.  So a program that was started by the tracer gets all its signals as long as it has no atomic sequences and the tracer does not come to its end. -/
theorem C87_kept_partial {c : Config} {k : System} {table : List Pid} (h : Ready c k table) (hc : c.attached = false) (skip : Bool) (l : List Turn)
    (hl : ∀ p x, Turn.report p x ∈ l → x.larx = false ∧ x.last = false) (s : Nat) (hs : s ∉ [sigStop, sigCont, sigTrap, sigIll, sigStkflt]) :
    let w := session c (begin_ c skip k table) l
    w.sys.sent.count s = w.sys.reached s + w.sys.waiting s + (w.sys.threads.countP fun t => t.st = .trapped (.signal s)) + w.sys.dropped.count s := by
  intro w
  have h1 := C87_signals h skip l s (fun hm => hs (by simp only [List.mem_cons, List.not_mem_nil, or_false] at hm ⊢; grind))
  have h2 : ∀ (l : List Turn) (w : Session), w.Ok c → (∀ p x, Turn.report p x ∈ l → x.larx = false ∧ x.last = false) →
      (session c w l).lost.count s = w.lost.count s := by
    intro l
    induction l with
    | nil => intros; rfl
    | cons m l ih =>
      intro w ho hl
      have he := ih _ (turn_ok ho m) fun p x hm => hl p x (List.mem_cons_of_mem _ hm)
      refine Eq.trans he ?_
      by_cases hd : (w.turn c m).lost.count s = w.lost.count s
      · exact hd
      · simp only [List.mem_cons, List.not_mem_nil, or_false, not_or] at hs
        rcases lost_where hs.2.2.1 hs.2.2.2.1 hs.2.2.2.2 ho m hd with ⟨h, -⟩ | ⟨q, x, rfl, -, hx⟩
        · rw [hc] at h; cases h
        · have := hl q x List.mem_cons_self
          rw [this.1, this.2] at hx
          rcases hx with hx | hx <;> cases hx
  have h3 := h2 l _ (begin_ok h skip) hl
  have h4 : (begin_ c skip k table).lost = [] := by unfold begin_; split <;> rfl
  rw [h4] at h3
  have h5 : w.lost.count s = 0 := h3
  have h6 : w.sys.sent.count s = w.sys.reached s + w.sys.waiting s + (w.sys.threads.countP fun t => t.st = .trapped (.signal s)) + w.sys.dropped.count s +
    w.lost.count s := h1
  omega

/-- C87.  The tracer ends with status 0 only when it is told of the traced thread and enough has been traced or the thread exits; otherwise with 1. -/
theorem C87_status (c : Config) (w : Session) (m : Turn) (n : Nat) (hn : ∀ k, w.phase ≠ .ended k) (he : (w.turn c m).phase = .ended n) :
    n = 1 ∨ n = 0 ∧ ∃ q x, m = .report q x ∧ w.phase = .trace q ∧ ∃ t ∈ w.sys.threads, t.id = q ∧ (x.last = true ∨ t.st = .trapped .exit) := by
  have hgone : ∀ p, (w.gone c p).phase = .ended n → n = 1 := by
    intro p h
    unfold Session.gone at h
    split at h
    · split at h
      · exact absurd h (hn n)
      · exact (Phase.ended.inj h).symm
    · split at h
      · exact (Phase.ended.inj h).symm
      · exact absurd h (hn n)
  cases m with
  | event e => exact absurd he (hn n)
  | stepped =>
    have : (w.turn c .stepped).phase = w.phase := by
      show w.stepped.phase = w.phase
      unfold Session.stepped
      repeat' split
      all_goals rfl
    exact absurd (this ▸ he) (hn n)
  | next =>
    left
    have he : w.next.phase = .ended n := he
    unfold Session.next at he
    repeat' split at he
    all_goals first
      | exact (Phase.ended.inj he).symm
      | exact absurd he (hn n)
      | exact absurd he (by simp)
  | report p x =>
    have he : (w.report c p x).phase = .ended n := he
    unfold Session.report at he
    split at he
    · split at he
      · exact .inl (hgone _ he)
      · left
        unfold Session.forwardTold at he
        repeat' split at he
        all_goals first
          | exact absurd he (hn n)
          | exact absurd he (by simp [Session.choose, Session.crash])
    · rename_i q hq
      split at he
      · exact .inl (hgone _ he)
      · rename_i t ht
        obtain ⟨h1, h2⟩ := thread?_some ht
        have hown : (w.own t x).phase = .ended n → n = 0 ∧ x.last = true := by
          intro h
          unfold Session.own at h
          repeat' split at h
          all_goals first
            | exact absurd h (hn n)
            | exact absurd h (by simp)
            | exact ⟨(Phase.ended.inj h).symm, by assumption⟩
        unfold Session.traceTold at he
        repeat' split at he
        all_goals first
          | exact absurd he (hn n)
          | exact .inr ⟨(hown he).1, p, x, rfl, by rw [hq]; congr 1; rw [← h2]; symm; assumption, t, h1, h2, .inl (hown he).2⟩
          | exact .inr ⟨(Phase.ended.inj he).symm, p, x, rfl, by rw [hq]; congr 1; rw [← h2]; symm; assumption, t, h1, h2, .inr (by assumption)⟩
    · split at he
      · split at he
        · exact .inl (Phase.ended.inj he).symm
        · left
          unfold Session.atomicTold at he
          repeat' split at he
          all_goals first
            | exact (Phase.ended.inj he).symm
            | exact absurd he (hn n)
            | exact absurd he (by simp)
      · exact absurd he (hn n)
    all_goals exact absurd he (hn n)

/-- C87.  A program that was started by the tracer is not left before its end, except in an atomic sequence: the tracer does not fail while it starts the
threads or traces one of them, and while it skips instructions it does so only when the program has ended. -/
theorem C87_end_partial {c : Config} {k : System} {table : List Pid} (h : Ready c k table) (hc : c.attached = false) (skip : Bool) (l : List Turn) (m : Turn) :
    let w := session c (begin_ c skip k table) l
    (w.turn c m).phase = .ended 1 → w.phase = .ended 1 ∨ w.phase = .forward ∧ w.sys.threads = [] ∨ ∃ q, w.phase = .atomic q := by
  intro w he
  have ho : w.Ok c := session_ok l _ (begin_ok h skip)
  have hz := ho.zombies (.inl hc)
  have hk := ho.kin
  have hgone : ∀ p, (w.gone c p).phase = .ended 1 → w.phase ≠ .ended 1 → w.sys.threads = [] := by
    intro p hg hne
    unfold Session.gone at hg
    rw [hz, if_neg (by simp)] at hg
    split at hg
    · assumption
    · exact absurd hg hne
  cases m with
  | event e => exact .inl he
  | stepped =>
    left
    have he : w.stepped.phase = .ended 1 := he
    unfold Session.stepped at he
    split at he
    · exact he
    · split at he
      · exact he
      · split at he <;> exact he
  | next =>
    have he : w.next.phase = .ended 1 := he
    unfold Session.next at he
    cases hp : w.phase with
    | starting l =>
      rw [hp] at he hk
      cases l with
      | nil => cases he
      | cons p l =>
        dsimp only at he
        obtain ⟨t, ht, hid, hs⟩ := hk.held p List.mem_cons_self
        have := thread?_mem hk.nodup ht
        rw [hid] at this
        rw [this] at he
        dsimp only at he
        rw [hs, if_pos (show St.captured.held? = true from rfl)] at he
        cases he
    | release q l =>
      rw [hp] at he hk
      have hli := ho.list
      rw [hp] at hli
      rw [hli hc] at he
      dsimp only at he
      obtain ⟨t, ht, hid, hs⟩ := hk.held q rfl
      have := thread?_mem hk.nodup ht
      rw [hid] at this
      rw [this] at he
      dsimp only at he
      rw [hs, if_pos (show St.captured.held? = true from rfl)] at he
      cases he
    | forward => rw [hp] at he; simp only at he; rw [hp] at he; cases he
    | trace q => rw [hp] at he; simp only at he; rw [hp] at he; cases he
    | atomic q => exact .inr (.inr ⟨q, rfl⟩)
    | ended n => rw [hp] at he; simp only at he; rw [hp] at he; exact .inl he
    | crashed => rw [hp] at he; simp only at he; rw [hp] at he; cases he
  | report p x =>
    have he : (w.report c p x).phase = .ended 1 := he
    unfold Session.report at he
    cases hp : w.phase with
    | forward =>
      refine .inr (.inl ⟨rfl, ?_⟩)
      rw [hp] at he
      dsimp only at he
      cases ht : w.sys.thread? p with
      | none => rw [ht] at he; exact hgone p he (by rw [hp]; exact nofun)
      | some t =>
        rw [ht] at he
        dsimp only at he
        unfold Session.forwardTold at he
        exfalso
        cases hs : t.st with
        | trapped r =>
          rw [hs] at he
          cases r with
          | clone q =>
            dsimp only at he
            cases hq : addPid w.table q with
            | none => rw [hq] at he; cases he
            | some l => rw [hq] at he; simp only [Session.letGo, hp] at he; cases he
          | exit =>
            dsimp only at he
            split at he
            · simp only [Session.detach, hp] at he; cases he
            · cases he
          | signal y =>
            dsimp only at he
            split at he
            · split at he
              · cases he
              · cases he
            · split at he
              · simp only [Session.letGo, hp] at he; cases he
              · simp only [Session.pass, hp] at he; cases he
          | stop => simp only [Session.letGo, hp] at he; cases he
        | running => rw [hs] at he; simp only [hp] at he; cases he
        | stopped => rw [hs] at he; simp only [hp] at he; cases he
        | captured => rw [hs] at he; simp only [hp] at he; cases he
    | trace q =>
      rw [hp] at he hk
      dsimp only at he
      exfalso
      obtain ⟨u, hu, -⟩ := List.mem_map.mp (hk.alive q rfl)
      cases ht : w.sys.thread? p with
      | none =>
        rw [ht] at he
        have := hgone p he (by rw [hp]; exact nofun)
        rw [this] at hu
        cases hu
      | some t =>
        rw [ht] at he
        dsimp only at he
        have hown : (w.own t x).phase = .ended 1 → False := by
          intro ho
          unfold Session.own at ho
          split at ho
          · cases ho
          · split at ho
            · cases ho
            · split at ho
              · split at ho
                · simp only [Session.letGo, hp] at ho; cases ho
                · simp only [Session.pass, hp] at ho; cases ho
              · simp only [Session.letGo, hp] at ho; cases ho
        unfold Session.traceTold at he
        cases hs : t.st with
        | trapped r =>
          rw [hs] at he
          cases r with
          | clone q => simp only [Session.letGo, hp] at he; cases he
          | exit =>
            dsimp only at he
            split at he
            · cases he
            · simp only [Session.detach, hp] at he; cases he
          | signal y =>
            dsimp only at he
            split at he
            · simp only [Session.letGo, hp] at he; cases he
            · split at he
              · exact hown he
              · split at he
                · simp only [Session.letGo, hp] at he; cases he
                · simp only [Session.pass, hp] at he; cases he
          | stop =>
            dsimp only at he
            split at he
            · exact hown he
            · simp only [Session.letGo, hp] at he; cases he
        | running => rw [hs] at he; simp only [hp] at he; cases he
        | stopped => rw [hs] at he; simp only [hp] at he; cases he
        | captured => rw [hs] at he; simp only [hp] at he; cases he
    | atomic q => exact .inr (.inr ⟨q, rfl⟩)
    | starting l => rw [hp] at he; simp only at he; rw [hp] at he; cases he
    | release q l => rw [hp] at he; simp only at he; rw [hp] at he; cases he
    | ended n => rw [hp] at he; simp only at he; rw [hp] at he; exact .inl he
    | crashed => rw [hp] at he; simp only at he; rw [hp] at he; cases he

/-- One thread that has been started, and two that have been attached to. -/
def one : System := ⟨[⟨1#32, true, false, .captured, []⟩], [], false, [], [], [], []⟩
def two : System := ⟨[⟨1#32, true, false, .captured, []⟩, ⟨2#32, true, false, .captured, []⟩], [], false, [], [], [], []⟩

theorem one_ready : Ready ⟨false, 1#32⟩ one [1#32] :=
  ⟨⟨by decide, rfl, by decide, fun _ _ _ => by simp [one, System.reached, System.waiting]⟩, by decide, by simp [one, System.ids], by simp, fun _ => rfl⟩

theorem two_ready : Ready ⟨true, 1#32⟩ two [1#32, 2#32] :=
  ⟨⟨by decide, rfl, by decide, fun _ _ _ => by simp [two, System.reached, System.waiting]⟩, by decide, by simp [two, System.ids], by simp, nofun⟩

def plain : Look := ⟨false, false, true⟩

/-- C87, refuted: the program gets every signal.  Suppressed are: a signal a thread has stopped for when another thread is chosen for tracing; the signal the
traced thread has stopped for when its next instruction begins an atomic sequence, or when enough has been traced. -/
theorem C87_signals_refuted :
    (∃ l, (session ⟨true, 1#32⟩ (begin_ ⟨true, 1#32⟩ false two [1#32, 2#32]) l).phase = .trace 1#32 ∧
      (session ⟨true, 1#32⟩ (begin_ ⟨true, 1#32⟩ false two [1#32, 2#32]) l).lost = [sigStkflt, 10]) ∧
    (∃ l, (session ⟨false, 1#32⟩ (begin_ ⟨false, 1#32⟩ false one [1#32]) l).phase = .atomic 1#32 ∧
      (session ⟨false, 1#32⟩ (begin_ ⟨false, 1#32⟩ false one [1#32]) l).lost = [14]) ∧
    (∃ l, (session ⟨false, 1#32⟩ (begin_ ⟨false, 1#32⟩ false one [1#32]) l).phase = .ended 0 ∧
      (session ⟨false, 1#32⟩ (begin_ ⟨false, 1#32⟩ false one [1#32]) l).lost = [14]) :=
  ⟨⟨[.next, .next, .next, .event (.send 10 (some 2#32)), .event (.take 2#32 true 10), .event (.send 16 (some 1#32)), .event (.take 1#32 true 16),
      .report 1#32 plain, .next, .next, .next], by decide, by decide⟩,
    ⟨[.next, .event (.send 14 (some 1#32)), .event (.take 1#32 true 14), .report 1#32 ⟨true, false, false⟩], by decide, by decide⟩,
    ⟨[.next, .event (.send 14 (some 1#32)), .event (.take 1#32 true 14), .report 1#32 ⟨false, true, false⟩], by decide, by decide⟩⟩

/-- C87, refuted: the tracer ends when enough has been traced, or the traced thread exits.  It fails although the program goes on: when a thread exits while
another one is chosen for tracing; when a signal arrives in an atomic sequence. -/
theorem C87_end_refuted :
    (∃ l, (session ⟨true, 1#32⟩ (begin_ ⟨true, 1#32⟩ false two [1#32, 2#32]) l).phase = .ended 1 ∧
      (session ⟨true, 1#32⟩ (begin_ ⟨true, 1#32⟩ false two [1#32, 2#32]) l).sys.ids = [1#32]) ∧
    (∃ l, (session ⟨false, 1#32⟩ (begin_ ⟨false, 1#32⟩ false one [1#32]) l).phase = .ended 1 ∧
      (session ⟨false, 1#32⟩ (begin_ ⟨false, 1#32⟩ false one [1#32]) l).sys.ids = [1#32]) :=
  ⟨⟨[.next, .next, .next, .event (.exit 2#32), .event (.send 16 (some 1#32)), .event (.take 1#32 true 16), .report 1#32 plain, .next, .next, .next,
      .report 2#32 plain], by decide, by decide⟩,
    ⟨[.next, .stepped, .report 1#32 ⟨true, false, true⟩, .event (.send 14 (some 1#32)), .event (.take 1#32 true 14), .report 1#32 plain],
      by decide, by decide⟩⟩

/-- C87, refuted: skipping instructions does not end the tracer.  A new thread that exits before the tracer is told of its creation makes it use a null
pointer. -/
theorem C87_crash_refuted : ∃ l, (session ⟨false, 1#32⟩ (begin_ ⟨false, 1#32⟩ true one [1#32]) l).phase = .crashed :=
  ⟨[.next, .next, .event (.clone 1#32 2#32), .report 2#32 plain, .event (.exit 2#32), .report 2#32 plain], by decide⟩

/-- C87, refuted: the tracer knows all threads.  When a thread has made a thread while another one is chosen for tracing, the new one is traced and is not in
the table. -/
theorem C87_table_refuted : ∃ l, (session ⟨true, 1#32⟩ (begin_ ⟨true, 1#32⟩ false two [1#32, 2#32]) l).phase = .trace 1#32 ∧
    (session ⟨true, 1#32⟩ (begin_ ⟨true, 1#32⟩ false two [1#32, 2#32]) l).table = [1#32, 2#32] ∧
    ⟨3#32, true, false, .running, []⟩ ∈ (session ⟨true, 1#32⟩ (begin_ ⟨true, 1#32⟩ false two [1#32, 2#32]) l).sys.threads ∧
    ∀ t ∈ (session ⟨true, 1#32⟩ (begin_ ⟨true, 1#32⟩ false two [1#32, 2#32]) l).sys.threads, t.st = .running :=
  ⟨[.next, .next, .next, .event (.clone 2#32 3#32), .event (.send 16 (some 1#32)), .event (.take 1#32 true 16), .report 1#32 plain, .next, .next, .next,
    .report 3#32 plain], by decide, by decide, by decide, by decide⟩

/-- A program with a second thread that is made while instructions are skipped; a signal for each thread; the second one exits, the first is traced through an
atomic sequence to its end. -/
def exampleTurns : List Turn :=
  [.next, .next, .event (.clone 1#32 2#32), .report 1#32 plain, .report 2#32 plain, .event (.send 10 (some 2#32)), .event (.take 2#32 true 10),
    .report 2#32 plain, .event (.send 16 (some 1#32)), .event (.take 1#32 true 16), .report 1#32 plain, .next, .stepped, .report 1#32 plain,
    .event (.send 12 none), .event (.take 1#32 false 12), .report 1#32 plain, .event (.exit 2#32), .report 2#32 plain, .stepped,
    .report 1#32 ⟨true, false, true⟩, .stepped, .report 1#32 plain, .event (.exit 1#32), .report 1#32 plain]

example : (session ⟨false, 1#32⟩ (begin_ ⟨false, 1#32⟩ true one [1#32]) exampleTurns).phase = .ended 0 ∧
    (session ⟨false, 1#32⟩ (begin_ ⟨false, 1#32⟩ true one [1#32]) exampleTurns).sys.delivered = [(2#32, 10), (1#32, 12)] ∧
    (session ⟨false, 1#32⟩ (begin_ ⟨false, 1#32⟩ true one [1#32]) exampleTurns).lost = [sigStkflt, sigTrap, sigTrap, sigIll] := by decide

example : (session ⟨false, 1#32⟩ (begin_ ⟨false, 1#32⟩ true one [1#32]) (exampleTurns.take 18)).table = [1#32, 2#32] ∧
    (session ⟨false, 1#32⟩ (begin_ ⟨false, 1#32⟩ true one [1#32]) (exampleTurns.take 18)).phase = .trace 1#32 := by decide

end Ptr.Attach
