import Verif.Ptracer.Loop
import Verif.Ptracer.PropsWindow
import Verif.Ptracer.PropsPids

/-!
# C75, C76, C77: the loops of the live tracer

C75: what is recorded is what the traced thread executes. C76: signals reach the program. C77: the table of
threads.
-/

namespace Ptr

theorem recorded_append (a b : List Act) : recorded (a ++ b) = recorded a ++ recorded b := List.filterMap_append

theorem recorded_map (l : List Insn) : recorded (l.map .record) = l := by
  induction l with
  | nil => rfl
  | cons x l ih => exact congrArg (x :: ·) ih

theorem recorded_detach (l : Pids) : recorded (l.map .detach) = [] := by
  induction l with
  | nil => rfl
  | cons x l ih => exact ih

theorem recorded_resume (t p : Pid) : recorded [resume t p] = [] := by
  unfold resume; split <;> rfl

/-- A stop of another thread is answered with one request for that thread; nothing is recorded, the counters stay
and the tracer goes on. -/
theorem other_stop (t : Pid) (s : Loop) (e : Stop) (hp : e.pid ≠ t) (he : e.stopped = true) :
    (loopStep t s e).1.win = s.win ∧ (loopStep t s e).2.2 = false ∧
      ((∃ sig, (loopStep t s e).2.1 = [.cont e.pid sig]) ∨ (loopStep t s e).2.1 = [.detach e.pid]) := by
  unfold loopStep
  rw [if_neg (by rw [he]; decide)]
  have hr : resume t e.pid = .cont e.pid 0 := if_neg hp
  by_cases h1 : e.event = evClone ∨ e.event = evVfork ∨ e.event = evFork
  · rw [if_pos h1, hr]; exact ⟨rfl, rfl, .inl ⟨0, rfl⟩⟩
  · rw [if_neg h1]
    by_cases h2 : e.event = evExit
    · rw [if_pos h2, if_neg hp]; exact ⟨rfl, rfl, .inr rfl⟩
    · rw [if_neg h2]
      by_cases h3 : e.sig = sigStkflt
      · rw [if_pos h3, hr]; exact ⟨rfl, rfl, .inl ⟨0, rfl⟩⟩
      · rw [if_neg h3, if_pos hp]; exact ⟨rfl, rfl, .inl ⟨_, rfl⟩⟩

/-- What a stop of the traced thread does depends on the table of threads only for the detaching at the end. -/
theorem own_stop (t : Pid) (s s' : Loop) (e : Stop) (hw : s.win = s'.win) :
    (loopStep t s e).1.win = (loopStep t s' e).1.win ∧ (loopStep t s e).2.2 = (loopStep t s' e).2.2 ∧
      recorded (loopStep t s e).2.1 = recorded (loopStep t s' e).2.1 := by
  obtain ⟨q, w⟩ := s
  obtain ⟨q', w'⟩ := s'
  dsimp only at hw
  subst hw
  unfold loopStep
  dsimp only
  split
  · exact ⟨rfl, rfl, rfl⟩
  · split
    · exact ⟨rfl, rfl, rfl⟩
    · split
      · split
        · exact ⟨rfl, rfl, rfl⟩
        · exact ⟨rfl, rfl, rfl⟩
      · split
        · exact ⟨rfl, rfl, rfl⟩
        · split
          · exact ⟨rfl, rfl, rfl⟩
          · split
            · cases e.atomic with
              | none => exact ⟨rfl, rfl, rfl⟩
              | some l => exact ⟨rfl, rfl, rfl⟩
            · split
              · refine ⟨rfl, rfl, ?_⟩
                simp only [recorded_append, recorded_detach]
              · exact ⟨rfl, rfl, rfl⟩

/-- **C75, schedules.** What is recorded depends only on the stops of the traced thread: stops of the other threads, in
any number and anywhere in between, change nothing. -/
theorem C75_schedule (t : Pid) : ∀ (evs : List Stop) (s s' : Loop), s.win = s'.win →
    (∀ e ∈ evs, e.pid ≠ t → e.stopped = true) →
    recorded (loopRun t s evs) = recorded (loopRun t s' (evs.filter fun e => decide (e.pid = t)))
  | [], _, _, _, _ => rfl
  | e :: evs, s, s', hw, h => by
    have ht : ∀ e ∈ evs, e.pid ≠ t → e.stopped = true := fun e he => h e (List.mem_cons_of_mem _ he)
    by_cases hp : e.pid = t
    · rw [List.filter_cons_of_pos (by simpa using hp)]
      obtain ⟨h1, h2, h3⟩ := own_stop t s s' e hw
      unfold loopRun
      dsimp only
      rw [h2]
      by_cases hx : (loopStep t s' e).2.2 = true
      · rw [if_pos hx, if_pos hx, h3]
      · rw [if_neg hx, if_neg hx, recorded_append, recorded_append, h3, C75_schedule t evs _ _ h1 ht]
    · rw [List.filter_cons_of_neg (by simpa using hp)]
      obtain ⟨h1, h2, h3⟩ := other_stop t s e hp (h e List.mem_cons_self hp)
      have e1 : loopRun t s (e :: evs) = if (loopStep t s e).2.2 = true then (loopStep t s e).2.1
        else (loopStep t s e).2.1 ++ loopRun t (loopStep t s e).1 evs := rfl
      rw [e1, if_neg (by rw [h2]; decide), recorded_append]
      have h4 : recorded (loopStep t s e).2.1 = [] := by
        rcases h3 with ⟨sig, h3⟩ | h3 <;> rw [h3] <;> rfl
      rw [h4, List.nil_append]
      exact C75_schedule t evs _ _ (h1.trans hw) ht

/-- Every stop of a thread other than the traced one is answered with one request to resume or release that thread,
and the tracer goes on. -/
theorem C75_answered (t : Pid) (s : Loop) (e : Stop) (hp : e.pid ≠ t) (he : e.stopped = true) :
    (loopStep t s e).2.2 = false ∧
      ((∃ sig, (loopStep t s e).2.1 = [.cont e.pid sig]) ∨ (loopStep t s e).2.1 = [.detach e.pid]) :=
  (other_stop t s e hp he).2

theorem loopRun_cons (t : Pid) (s : Loop) (e : Stop) (l : List Stop) :
    loopRun t s (e :: l) = if (loopStep t s e).2.2 = true then (loopStep t s e).2.1
      else (loopStep t s e).2.1 ++ loopRun t (loopStep t s e).1 l := rfl

/-- A single step to an ordinary instruction. -/
theorem trap_step (t : Pid) (s : Loop) (x : Insn) (hx : isLarx x.2 = false) (l : List Stop) :
    recorded (loopRun t s (trapAt t x :: l)) = (if (printInsn s.win).2 = true then [x] else []) ++
      (if (printInsn s.win).1.left = 0#64 then [] else recorded (loopRun t { s with win := (printInsn s.win).1 } l)) := by
  have e : loopStep t s (trapAt t x) =
      (if (printInsn s.win).1.left = 0#64 then
        ({ s with win := (printInsn s.win).1 }, (if (printInsn s.win).2 = true then [Act.record x] else []) ++
          s.pids.map .detach ++ [.exit 0], true)
      else ({ s with win := (printInsn s.win).1 }, (if (printInsn s.win).2 = true then [Act.record x] else []) ++
          [.step t 0], false)) := by
    unfold loopStep
    rw [if_neg (by simp [trapAt]), if_neg (by simp [trapAt, evClone, evVfork, evFork]), if_neg (by simp [trapAt, evExit]),
      if_neg (by simp [trapAt, sigTrap, sigStkflt]), if_neg (by simp [trapAt]),
      if_neg (by rw [show (trapAt t x).at_ = x from rfl, hx]; decide)]
    rfl
  have hr : recorded (if (printInsn s.win).2 = true then [Act.record x] else []) =
      if (printInsn s.win).2 = true then [x] else [] := by split <;> rfl
  rw [loopRun_cons, e]
  by_cases h : (printInsn s.win).1.left = 0#64
  · rw [if_pos h, if_pos h, if_pos rfl, recorded_append, recorded_append, hr, recorded_detach]
    show _ ++ [] ++ [] = _
    rw [List.append_nil, List.append_nil]
  · rw [if_neg h, if_neg h, if_neg (by simp), recorded_append, recorded_append, hr]
    show _ ++ [] ++ _ = _
    rw [List.append_nil]

/-- A stop that is answered without recording anything. -/
theorem silent_step (t : Pid) (s : Loop) (e : Stop) (l : List Stop) (he : e.pid = t) (hs : e.stopped = true)
    (h : e.event = evClone ∨ (e.event = 0 ∧ e.sig = sigStkflt)) :
    ∃ s' : Loop, s'.win = s.win ∧ recorded (loopRun t s (e :: l)) = recorded (loopRun t s' l) := by
  have : ∃ s' : Loop, s'.win = s.win ∧ loopStep t s e = (s', [resume t e.pid], false) := by
    unfold loopStep
    rw [if_neg (by rw [hs]; decide)]
    rcases h with h | ⟨h, h'⟩
    · rw [if_pos (.inl h)]; exact ⟨{ s with pids := addPid' s.pids e.msg }, rfl, rfl⟩
    · rw [if_neg (by rw [h]; decide), if_neg (by rw [h]; decide), if_pos h']; exact ⟨_, rfl, rfl⟩
  obtain ⟨s', hw, e1⟩ := this
  refine ⟨s', hw, ?_⟩
  rw [loopRun_cons, e1, if_neg (by simp), recorded_append, recorded_resume]
  rfl

theorem silent_clones (t : Pid) (x : Insn) (l : List Stop) : ∀ (new : List Pid) (s : Loop),
    ∃ s' : Loop, s'.win = s.win ∧ recorded (loopRun t s (new.map (cloneAt t x) ++ l)) = recorded (loopRun t s' l)
  | [], s => ⟨s, rfl, rfl⟩
  | p :: new, s => by
    obtain ⟨s1, h1, h2⟩ := silent_step t s (cloneAt t x p) (new.map (cloneAt t x) ++ l) rfl rfl (.inl rfl)
    obtain ⟨s2, h3, h4⟩ := silent_clones t x l new s1
    exact ⟨s2, h3.trans h1, by rw [List.map_cons, List.cons_append, h2, h4]⟩

theorem lives_recorded (t : Pid) : ∀ (lives : List Life) (s : Loop), (∀ x ∈ lives, x.Sound ∧ x.Quiet) →
    recorded (loopRun t s (lives.flatMap (Life.stops t))) = want s.win (lives.flatMap Life.executed)
  | [], s, _ => by simp [want, loopRun, recorded]
  | x :: lives, s, h => by
    have ih := fun s => lives_recorded t lives s fun y hy => h y (List.mem_cons_of_mem _ hy)
    obtain ⟨hs, hq⟩ := h x List.mem_cons_self
    rw [List.flatMap_cons, List.flatMap_cons]
    have fin : ∀ (y : Insn) (hy : isLarx y.2 = false) (extra : List Stop),
        (∀ s : Loop, ∃ s' : Loop, s'.win = s.win ∧
          recorded (loopRun t s (extra ++ lives.flatMap (Life.stops t))) =
            recorded (loopRun t s' (lives.flatMap (Life.stops t)))) →
        recorded (loopRun t s (trapAt t y :: extra ++ lives.flatMap (Life.stops t))) =
          want s.win (y :: lives.flatMap Life.executed) := by
      intro y hy extra hex
      rw [List.cons_append, trap_step t s y hy, want_cons]
      congr 1
      by_cases h0 : (printInsn s.win).1.left = 0#64
      · rw [if_pos h0, left_zero _ h0]
      · rw [if_neg h0]
        obtain ⟨s', hw, hr⟩ := hex { s with win := (printInsn s.win).1 }
        rw [hr, ih, hw]
    cases x with
    | insn y => exact fin y hs [] fun s => ⟨s, rfl, rfl⟩
    | call y new => exact fin y hs _ fun s => silent_clones t y _ new s
    | stray y =>
      exact fin y hs [signalAt t y sigStkflt] fun s => silent_step t s (signalAt t y sigStkflt) _ rfl rfl (.inr ⟨rfl, rfl⟩)
    | sequence y l =>
      show recorded (loopRun t s (⟨t, true, 0, sigTrap, 0#32, y, true, some l⟩ :: lives.flatMap (Life.stops t))) =
        want s.win (l ++ _)
      have hs : isLarx y.2 = true := hs
      have e : loopStep t s ⟨t, true, 0, sigTrap, 0#32, y, true, some l⟩ =
          ({ s with win := (printAll s.win l).1 }, (printAll s.win l).2.map .record ++ [.step t 0], false) := by
        unfold loopStep
        rw [if_neg (by simp), if_neg (by simp [evClone, evVfork, evFork]), if_neg (by simp [evExit]),
          if_neg (by simp [sigTrap, sigStkflt]), if_neg (by simp), if_pos hs]
      rw [loopRun_cons, e, if_neg (by simp), recorded_append, recorded_append, recorded_map, printAll_want, ih]
      show _ ++ [] ++ _ = _
      rw [List.append_nil]
    | ignored y z => exact absurd hq (by simp [Life.Quiet])
    | handled y z => exact absurd hq (by simp [Life.Quiet])

/-- **C75 (partial).** For every schedule — the stops of the traced thread's life with any stops of other threads in
between — the tracer records the instructions the traced thread executes, each once and in order, from the
first behind the skip count up to the limit (`want`, see C46).

The full property has no hypothesis `Quiet`: it is missing when signals arrive at the traced thread
(`C75_handled_refuted`, `C75_ignored_refuted`). What is reported for an atomic sequence is part of the life; whether
that is what was executed is C61. -/
theorem C75_recorded_partial (t : Pid) (s : Loop) (lives : List Life) (evs : List Stop)
    (hl : ∀ x ∈ lives, x.Sound ∧ x.Quiet) (hown : (evs.filter fun e => decide (e.pid = t)) = lives.flatMap (Life.stops t))
    (hoth : ∀ e ∈ evs, e.pid ≠ t → e.stopped = true) :
    recorded (loopRun t s evs) = want s.win (lives.flatMap Life.executed) := by
  rw [C75_schedule t evs s s rfl hoth, hown, lives_recorded t lives s hl]

/-! ### A schedule -/

def exNop : Word := 0x60000000#32
def exX (n : Nat) : Insn := (BitVec.ofNat 64 (0x10000000 + 4 * n), exNop)
/-- A load-reserve, a store-conditional and the instruction behind them. -/
def exSeq : List Insn := [(0x10001000#64, 0x7c001828#32), (0x10001004#64, 0x7c00192d#32), (0x10001008#64, exNop)]

def exLives : List Life :=
  [.insn (exX 0), .call (0x10000004#64, 0x44000002#32) [11#32], .sequence (0x10001000#64, 0x7c001828#32) exSeq, .stray (exX 3),
    .insn (exX 4)]

/-- Stops of the threads 11 and 12: a new thread begins, a breakpoint, a signal, the exit. -/
def exOther (n : Nat) (p : Pid) : Stop :=
  ⟨p, true, if n = 0 then evStop else if n = 3 then evExit else 0, if n = 1 then sigIll else if n = 2 then 10 else sigTrap,
    0#32, exX 77, false, none⟩

def exEvs : List Stop :=
  let own := exLives.flatMap (Life.stops 7#32)
  own.take 2 ++ [exOther 1 12#32] ++ (own.drop 2).take 1 ++ [exOther 0 11#32, exOther 2 11#32, exOther 3 12#32] ++ own.drop 3

example : (∀ x ∈ exLives, x.Sound ∧ x.Quiet) ∧
    (exEvs.filter fun e => decide (e.pid = 7#32)) = exLives.flatMap (Life.stops 7#32) ∧
    (∀ e ∈ exEvs, e.pid ≠ 7#32 → e.stopped = true) ∧ exEvs.length = 11 ∧
    recorded (loopRun 7#32 ⟨[7#32, 12#32], ⟨1#64, 4#64⟩⟩ exEvs) =
      [(0x10000004#64, 0x44000002#32), (0x10001000#64, 0x7c001828#32), (0x10001004#64, 0x7c00192d#32), (0x10001008#64, exNop)] := by
  refine ⟨?_, by decide +kernel, by decide +kernel, by decide +kernel, by decide +kernel⟩
  intro x hx
  simp only [exLives, List.mem_cons, List.not_mem_nil, or_false] at hx
  rcases hx with rfl | rfl | rfl | rfl | rfl <;> exact ⟨by show isLarx _ = _; decide, trivial⟩

/-- **C75 refuted: a signal with a handler.** The thread is stopped at instruction 1 when the signal arrives, executes
its handler (here one instruction) and then instruction 1. Instruction 1 is recorded three times. -/
theorem C75_handled_refuted : ∃ lives : List Life, (∀ x ∈ lives, x.Sound) ∧
    recorded (loopRun 7#32 ⟨[7#32], ⟨0, -1⟩⟩ (lives.flatMap (Life.stops 7#32))) = [exX 0, exX 1, exX 1, exX 100, exX 1, exX 2] ∧
    lives.flatMap Life.executed = [exX 0, exX 100, exX 1, exX 2] := by
  refine ⟨[.insn (exX 0), .handled (exX 1) 10, .insn (exX 100), .insn (exX 1), .insn (exX 2)], ?_, by decide +kernel, rfl⟩
  intro x hx
  simp only [List.mem_cons, List.not_mem_nil, or_false] at hx
  rcases hx with rfl | rfl | rfl | rfl | rfl <;> (show isLarx _ = _; decide)

/-- **C75 refuted: a signal without handler**, for example one sent at the exit of a child. -/
theorem C75_ignored_refuted : ∃ lives : List Life, (∀ x ∈ lives, x.Sound) ∧
    recorded (loopRun 7#32 ⟨[7#32], ⟨0, -1⟩⟩ (lives.flatMap (Life.stops 7#32))) = [exX 0, exX 1, exX 1, exX 2] ∧
    lives.flatMap Life.executed = [exX 0, exX 1, exX 2] := by
  refine ⟨[.insn (exX 0), .ignored (exX 1) 17, .insn (exX 2)], ?_, by decide +kernel, rfl⟩
  intro x hx
  simp only [List.mem_cons, List.not_mem_nil, or_false] at hx
  rcases hx with rfl | rfl | rfl <;> (show isLarx _ = _; decide)

/-! ### C76 -/

/-- **C76 (partial), other threads.** A signal for a thread that is not being traced is passed on, unless it is
SIGILL or SIGSTKFLT. -/
theorem C76_others_partial (t : Pid) (s : Loop) (e : Stop) (h : e.Delivery) (hp : e.pid ≠ t) (h1 : e.sig ≠ sigIll)
    (h2 : e.sig ≠ sigStkflt) : PassedOn e (loopStep t s e).2.1 := by
  obtain ⟨hs, hev, _, _⟩ := h
  unfold loopStep
  rw [if_neg (by rw [hs]; decide), if_neg (by rw [hev]; decide), if_neg (by rw [hev]; decide), if_neg h2, if_pos hp, if_neg h1]
  exact .inl List.mem_cons_self

/-- **C76 (partial), the traced thread.** A signal for the traced thread is passed on, unless it is SIGSTKFLT, the
next instruction begins an atomic sequence, or the limit is reached and the thread is released. -/
theorem C76_traced_partial (t : Pid) (s : Loop) (e : Stop) (h : e.Delivery) (hp : e.pid = t) (h1 : isLarx e.at_.2 = false)
    (h2 : e.sig ≠ sigStkflt) (h3 : (printInsn s.win).1.left ≠ 0#64) : PassedOn e (loopStep t s e).2.1 := by
  obtain ⟨hs, hev, htr, _⟩ := h
  unfold loopStep
  rw [if_neg (by rw [hs]; decide), if_neg (by rw [hev]; decide), if_neg (by rw [hev]; decide), if_neg h2,
    if_neg (by simpa using hp), if_neg (by rw [h1]; decide)]
  dsimp only
  rw [if_neg h3]
  refine .inr (List.mem_append_right _ ?_)
  have : passSig e = e.sig := if_neg htr
  rw [this, hp]
  exact List.mem_cons_self

/-- **C76 (partial), before the traced thread is chosen.** While the tracer skips instructions, signals are passed on,
unless they are SIGTRAP or SIGSTKFLT. -/
theorem C76_forward_partial (pids : Pids) (e : Stop) (h : e.Delivery) (h1 : e.sig ≠ sigTrap) (h2 : e.sig ≠ sigStkflt) :
    forwardStep pids e = .go pids [.cont e.pid e.sig] := by
  obtain ⟨hs, hev, _, _⟩ := h
  unfold forwardStep
  rw [if_neg (by rw [hs]; decide), if_neg (by rw [hev]; decide), if_neg (by rw [hev]; decide), if_neg h2, if_pos h1]

/-- **C76, nothing invented.** A thread is resumed with a signal only if it was stopped with that signal. -/
theorem C76_genuine (t : Pid) (s : Loop) (e : Stop) (p : Pid) (sig : Nat)
    (h : Act.cont p sig ∈ (loopStep t s e).2.1 ∨ Act.step p sig ∈ (loopStep t s e).2.1) (h0 : sig ≠ 0) :
    p = e.pid ∧ sig = e.sig := by
  have hres : ∀ q, (Act.cont p sig ∈ [resume t q] ∨ Act.step p sig ∈ [resume t q]) → False := by
    intro q hq
    unfold resume at hq
    split at hq <;> simp at hq
    · exact h0 hq.2
    · exact h0 hq.2
  have hrec : ∀ l : List Insn, ¬ (Act.cont p sig ∈ l.map Act.record) ∧ ¬ (Act.step p sig ∈ l.map Act.record) := by
    intro l; simp
  have hdet : ∀ l : Pids, ¬ (Act.cont p sig ∈ l.map Act.detach) ∧ ¬ (Act.step p sig ∈ l.map Act.detach) := by
    intro l; simp
  unfold loopStep at h
  split at h
  · simp at h
  · split at h
    · exact (hres _ h).elim
    · split at h
      · split at h <;> simp at h
      · split at h
        · exact (hres _ h).elim
        · split at h
          · simp only [List.mem_singleton, reduceCtorEq, or_false, Act.cont.injEq] at h
            obtain ⟨hp, hs⟩ := h
            split at hs
            · exact absurd hs h0
            · exact ⟨hp, hs⟩
          · next hpt =>
            have hpt : e.pid = t := by simpa using hpt
            split at h
            · cases ha : e.atomic with
              | none => rw [ha] at h; simp at h
              | some l =>
                rw [ha] at h
                simp [h0] at h
            · dsimp only at h
              split at h
              · simp only [List.mem_append, (hdet _).1, (hdet _).2] at h
                split at h <;> simp at h
              · have : p = t ∧ sig = passSig e := by
                  split at h <;> simpa using h
                refine ⟨this.1.trans hpt.symm, ?_⟩
                rw [this.2]
                unfold passSig
                split
                · next hh =>
                  have := this.2
                  unfold passSig at this
                  rw [if_pos hh] at this
                  exact absurd this h0
                · rfl

/-- A signal for thread 7 before an atomic sequence. -/
def exLost : Stop := ⟨7#32, true, 0, 10, 0#32, (0x10001000#64, 0x7c001828#32), false, some exSeq⟩

/-- **C76 refuted.** The tracer swallows: a signal that arrives at the traced thread in front of an atomic sequence; an
illegal instruction of another thread; SIGSTKFLT; and, while skipping, the traps of the program. -/
theorem C76_refuted :
    (exLost.Delivery ∧ (loopStep 7#32 ⟨[7#32], ⟨0, -1⟩⟩ exLost).2.2 = false ∧
      ¬ PassedOn exLost (loopStep 7#32 ⟨[7#32], ⟨0, -1⟩⟩ exLost).2.1) ∧
    (∀ sig ∈ [sigIll, sigStkflt], (signalAt 12#32 (exX 0) sig).Delivery ∧
      (loopStep 7#32 ⟨[7#32, 12#32], ⟨0, -1⟩⟩ (signalAt 12#32 (exX 0) sig)).2.1 = [.cont 12#32 0]) ∧
    ((signalAt 12#32 (exX 0) sigTrap).Delivery ∧
      forwardStep [7#32, 12#32] (signalAt 12#32 (exX 0) sigTrap) = .go [7#32, 12#32] [.cont 12#32 0]) := by
  refine ⟨⟨?_, by decide +kernel, ?_⟩, ?_, ?_, by decide +kernel⟩
  · exact ⟨rfl, rfl, by decide, by decide⟩
  · unfold PassedOn; decide +kernel
  · intro sig hsig
    simp only [List.mem_cons, List.not_mem_nil, or_false] at hsig
    rcases hsig with rfl | rfl <;> exact ⟨⟨rfl, rfl, by decide, by decide⟩, by decide +kernel⟩
  · exact ⟨rfl, rfl, by decide, by decide⟩

/-- **C76 refuted: job control.** When the program is stopped by SIGSTOP its threads report a group stop, which a
tracer must answer by leaving them stopped. The tracer lets them run on. -/
theorem C76_stop_refuted (e : Stop) (h : e.stopped = true ∧ e.event = evStop ∧ e.sig = sigStop) (t : Pid) (s : Loop) (hp : e.pid ≠ t) :
    (loopStep t s e).2.1 = [.cont e.pid sigStop] ∧ Act.listen e.pid ∉ (loopStep t s e).2.1 := by
  obtain ⟨hs, hev, hsig⟩ := h
  have : (loopStep t s e).2.1 = [.cont e.pid sigStop] := by
    unfold loopStep
    rw [if_neg (by rw [hs]; decide), if_neg (by rw [hev]; decide), if_neg (by rw [hev]; decide), if_neg (by rw [hsig]; decide),
      if_pos hp, if_neg (by rw [hsig]; decide), hsig]
  rw [this]
  exact ⟨rfl, by simp⟩

example : ∃ e : Stop, e.Delivery ∧ e.pid ≠ 7#32 ∧ e.sig ≠ sigIll ∧ e.sig ≠ sigStkflt :=
  ⟨signalAt 12#32 (exX 0) 10, ⟨rfl, rfl, by decide, by decide⟩, by decide, by decide, by decide⟩

example : ∃ (e : Stop) (s : Loop), e.Delivery ∧ e.pid = 7#32 ∧ isLarx e.at_.2 = false ∧ e.sig ≠ sigStkflt ∧
    (printInsn s.win).1.left ≠ 0#64 :=
  ⟨signalAt 7#32 (exX 0) 10, ⟨[7#32], ⟨3, 9⟩⟩, ⟨rfl, rfl, by decide, by decide⟩, by decide, by decide, by decide, by decide⟩

/-! ### C77 -/

/-- The report of a new thread. -/
def Stop.born (e : Stop) : Option Pid :=
  if e.event = evClone ∨ e.event = evVfork ∨ e.event = evFork then some e.msg else none

/-- The report of the exit of a thread. -/
def Stop.died (e : Stop) : Option Pid := if e.event = evExit then some e.pid else none

/-- After the reports, the thread lives: it was there or is new, and has not exited. -/
def Lives (init : List Pid) (evs : List Stop) (p : Pid) : Prop :=
  (p ∈ init ∨ ∃ e ∈ evs, e.born = some p) ∧ ∀ e ∈ evs, e.died ≠ some p

/-- The reports come in the order of the events: new threads have new ids, and the exit of a thread is reported once,
after the thread is known. -/
def Ordered (init : List Pid) (evs : List Stop) : Prop := ∀ pre e post, evs = pre ++ e :: post →
  (∀ p, e.born = some p → p ∉ init ∧ ∀ f ∈ pre, f.born ≠ some p) ∧
  (∀ p, e.died = some p → (p ∈ init ∨ ∃ f ∈ pre, f.born = some p) ∧ ∀ f ∈ pre, f.died ≠ some p)

/-- The table after the reports. -/
def tableAfter (init : Pids) (evs : List Stop) : Pids :=
  evs.foldl (fun l e =>
    if e.event = evClone ∨ e.event = evVfork ∨ e.event = evFork then addPid' l e.msg
    else if e.event = evExit then removePid l e.pid else l) init

theorem tableAfter_snoc (init : Pids) (evs : List Stop) (e : Stop) : tableAfter init (evs ++ [e]) =
    if e.event = evClone ∨ e.event = evVfork ∨ e.event = evFork then addPid' (tableAfter init evs) e.msg
    else if e.event = evExit then removePid (tableAfter init evs) e.pid else tableAfter init evs := by
  unfold tableAfter
  rw [List.foldl_append]
  rfl

/-- The main loop has this table as long as it goes on. -/
theorem loop_table (t : Pid) : ∀ (evs : List Stop) (s : Loop), (∀ c, Act.exit c ∉ loopRun t s evs) →
    (loopEnd t s evs).pids = tableAfter s.pids evs
  | [], _, _ => rfl
  | e :: evs, s, h => by
    have e1 : loopEnd t s (e :: evs) = if (loopStep t s e).2.2 = true then (loopStep t s e).1
      else loopEnd t (loopStep t s e).1 evs := rfl
    have hno : (loopStep t s e).2.2 = false ∧ (loopStep t s e).1.pids = tableAfter s.pids [e] := by
      have h' : ∀ c, Act.exit c ∉ (loopStep t s e).2.1 := by
        intro c hc
        apply h c
        rw [loopRun_cons]
        split
        · exact hc
        · exact List.mem_append_left _ hc
      unfold loopStep at h' ⊢
      show _ ∧ _ = if _ then _ else if _ then _ else _
      split
      · next h1 => rw [if_pos h1] at h'; exact absurd List.mem_cons_self (h' 1)
      · next h1 =>
        rw [if_neg h1] at h'
        split
        · exact ⟨rfl, rfl⟩
        · next h2 =>
          rw [if_neg h2] at h'
          split
          · next h3 =>
            rw [if_pos h3] at h'
            split
            · next h4 => rw [if_pos h4] at h'; exact absurd List.mem_cons_self (h' 0)
            · exact ⟨rfl, rfl⟩
          · next h3 =>
            rw [if_neg h3] at h'
            split
            · exact ⟨rfl, rfl⟩
            · next h4 =>
              rw [if_neg h4] at h'
              split
              · exact ⟨rfl, rfl⟩
              · next h5 =>
                rw [if_neg h5] at h'
                split
                · next h6 =>
                  rw [if_pos h6] at h'
                  cases ha : e.atomic with
                  | none => rw [ha] at h'; exact absurd List.mem_cons_self (h' 1)
                  | some l => exact ⟨rfl, rfl⟩
                · next h6 =>
                  rw [if_neg h6] at h'
                  dsimp only at h' ⊢
                  split
                  · next h7 =>
                    rw [if_pos h7] at h'
                    exact absurd (List.mem_append_right _ List.mem_cons_self) (h' 0)
                  · exact ⟨rfl, rfl⟩
    rw [e1, if_neg (by rw [hno.1]; decide)]
    rw [loopRun_cons, if_neg (by rw [hno.1]; decide)] at h
    rw [loop_table t evs _ fun c hc => h c (List.mem_append_right _ hc), hno.2]
    unfold tableAfter
    rw [← List.foldl_append]
    rfl

theorem ordered_prefix {init : List Pid} {evs : List Stop} {e : Stop} (h : Ordered init (evs ++ [e])) : Ordered init evs := by
  intro pre f post hf
  exact h pre f (post ++ [e]) (by rw [hf]; simp)

/-- Number of new threads. -/
def births (evs : List Stop) : Nat := (evs.filter fun e => e.born.isSome).length

theorem births_snoc (evs : List Stop) (e : Stop) : births (evs ++ [e]) = births evs + if e.born.isSome then 1 else 0 := by
  unfold births
  rw [List.filter_append, List.length_append]
  by_cases h : e.born.isSome = true
  · rw [if_pos h, List.filter_cons_of_pos (p := fun e : Stop => e.born.isSome) h]; rfl
  · rw [if_neg h, List.filter_cons_of_neg (p := fun e : Stop => e.born.isSome) h]; rfl

/-- The table holds the threads that live. -/
theorem table_lives (init : Pids) (hn : init.Nodup) : ∀ (evs : List Stop), Ordered init evs →
    init.length + births evs ≤ maxPids →
    (tableAfter init evs).Nodup ∧ (tableAfter init evs).length ≤ init.length + births evs ∧
      (∀ p, p ∈ tableAfter init evs ↔ Lives init evs p) := by
  intro evs
  induction evs using snocInd with
  | h0 =>
    intro _ _
    refine ⟨hn, Nat.le_refl _, fun p => ⟨fun h => ⟨.inl h, fun e he => by cases he⟩, ?_⟩⟩
    rintro ⟨h | ⟨e, he, _⟩, _⟩
    · exact h
    · cases he
  | h1 evs e ih =>
    intro ho hc
    rw [births_snoc] at hc
    obtain ⟨i1, i2, i3⟩ := ih (ordered_prefix ho) (by omega)
    obtain ⟨o1, o2⟩ := ho evs e [] rfl
    rw [tableAfter_snoc, births_snoc]
    by_cases hb : e.event = evClone ∨ e.event = evVfork ∨ e.event = evFork
    · have hborn : e.born = some e.msg := if_pos hb
      have hdied : e.died = none := by
        unfold Stop.died
        rw [if_neg]
        intro h
        rw [h] at hb
        revert hb; decide
      rw [if_pos hb]
      rw [hborn] at hc ⊢
      simp only [Option.isSome_some, if_true] at hc ⊢
      have hadd : addPid' (tableAfter init evs) e.msg = tableAfter init evs ++ [e.msg] := by
        unfold addPid' addPid
        rw [if_neg (by omega)]
        rfl
      rw [hadd]
      have hfresh : e.msg ∉ tableAfter init evs := by
        intro hm
        obtain ⟨h | ⟨f, hf, hfb⟩, _⟩ := (i3 _).1 hm
        · exact (o1 _ hborn).1 h
        · exact (o1 _ hborn).2 f hf hfb
      refine ⟨?_, by rw [List.length_append, List.length_singleton]; omega, fun p => ?_⟩
      · rw [List.nodup_append]
        refine ⟨i1, by simp, ?_⟩
        intro a ha b hb' hab
        rw [List.mem_singleton] at hb'
        exact hfresh (by rw [← hb', ← hab]; exact ha)
      · rw [List.mem_append, List.mem_singleton, i3]
        constructor
        · rintro (⟨h1, h2⟩ | rfl)
          · refine ⟨h1.imp id fun ⟨f, hf, hb⟩ => ⟨f, List.mem_append_left _ hf, hb⟩, fun f hf => ?_⟩
            rcases List.mem_append.1 hf with hf | hf
            · exact h2 f hf
            · rw [List.mem_singleton.1 hf, hdied]; exact Option.some_ne_none _ |>.symm
          · refine ⟨.inr ⟨e, List.mem_append_right _ List.mem_cons_self, hborn⟩, fun f hf => ?_⟩
            rcases List.mem_append.1 hf with hf | hf
            · intro hd
              obtain ⟨pre, post, hsplit⟩ := List.append_of_mem hf
              have := ((ho pre f (post ++ [e]) (by rw [hsplit]; simp)).2 _ hd).1
              rcases this with h | ⟨g, hg, hgb⟩
              · exact (o1 _ hborn).1 h
              · exact (o1 _ hborn).2 g (by rw [hsplit]; exact List.mem_append_left _ hg) hgb
            · rw [List.mem_singleton.1 hf, hdied]; exact Option.some_ne_none _ |>.symm
        · rintro ⟨h1, h2⟩
          by_cases hp : p = e.msg
          · exact .inr hp
          · refine .inl ⟨?_, fun f hf => h2 f (List.mem_append_left _ hf)⟩
            rcases h1 with h1 | ⟨f, hf, hfb⟩
            · exact .inl h1
            · rcases List.mem_append.1 hf with hf | hf
              · exact .inr ⟨f, hf, hfb⟩
              · rw [List.mem_singleton.1 hf, hborn] at hfb
                exact absurd (Option.some.inj hfb).symm hp
    · have hborn : e.born = none := if_neg hb
      rw [if_neg hb]
      rw [hborn] at hc ⊢
      simp only [Option.isSome_none, Bool.false_eq_true, if_false, Nat.add_zero] at hc ⊢
      have hL : ∀ p, Lives init (evs ++ [e]) p ↔ Lives init evs p ∧ e.died ≠ some p := by
        intro p
        constructor
        · rintro ⟨h1, h2⟩
          refine ⟨⟨?_, fun f hf => h2 f (List.mem_append_left _ hf)⟩, h2 e (List.mem_append_right _ List.mem_cons_self)⟩
          rcases h1 with h1 | ⟨f, hf, hfb⟩
          · exact .inl h1
          · rcases List.mem_append.1 hf with hf | hf
            · exact .inr ⟨f, hf, hfb⟩
            · rw [List.mem_singleton.1 hf, hborn] at hfb; cases hfb
        · rintro ⟨⟨h1, h2⟩, h3⟩
          refine ⟨h1.imp id fun ⟨f, hf, hb⟩ => ⟨f, List.mem_append_left _ hf, hb⟩, fun f hf => ?_⟩
          rcases List.mem_append.1 hf with hf | hf
          · exact h2 f hf
          · rw [List.mem_singleton.1 hf]; exact h3
      by_cases hx : e.event = evExit
      · have hdied : e.died = some e.pid := if_pos hx
        rw [if_pos hx, removePid_eq]
        refine ⟨i1.erase _, Nat.le_trans (List.length_erase_le) i2, fun p => ?_⟩
        rw [i1.mem_erase_iff, hL, i3, hdied]
        constructor
        · rintro ⟨h1, h2⟩; exact ⟨h2, fun h => h1 (Option.some.inj h).symm⟩
        · rintro ⟨h1, h2⟩; exact ⟨fun h => h2 (by rw [h]), h1⟩
      · have hdied : e.died = none := if_neg hx
        rw [if_neg hx]
        refine ⟨i1, i2, fun p => ?_⟩
        rw [hL, i3, hdied]
        exact ⟨fun h => ⟨h, by simp⟩, fun h => h.1⟩

/-- **C77 (partial), the main loop.** If the reports come in the order of the events and no more than the supported
number of threads is made, the table of the tracer has exactly the threads that live, once each.

Missing: the reports of a parent and its new thread come in any order (`C77_refuted`). -/
theorem C77_table_partial (t : Pid) (s : Loop) (evs : List Stop) (hn : s.pids.Nodup) (ho : Ordered s.pids evs)
    (hc : s.pids.length + births evs ≤ maxPids) (hx : ∀ c, Act.exit c ∉ loopRun t s evs) :
    (loopEnd t s evs).pids.Nodup ∧ ∀ p, p ∈ (loopEnd t s evs).pids ↔ Lives s.pids evs p := by
  rw [loop_table t evs s hx]
  exact ⟨(table_lives s.pids hn evs ho hc).1, (table_lives s.pids hn evs ho hc).2.2⟩

/-- When the limit is reached, every living thread is released. -/
theorem C77_released_partial (t : Pid) (s : Loop) (evs : List Stop) (e : Stop) (hn : s.pids.Nodup) (ho : Ordered s.pids evs)
    (hc : s.pids.length + births evs ≤ maxPids) (hx : ∀ c, Act.exit c ∉ loopRun t s evs) (hs : e = trapAt t e.at_)
    (hl : isLarx e.at_.2 = false) (h0 : (printInsn (loopEnd t s evs).win).1.left = 0#64) (p : Pid) (hp : Lives s.pids evs p) :
    Act.detach p ∈ loopRun t s (evs ++ [e]) := by
  have happ : ∀ (evs : List Stop) (s : Loop), (∀ c, Act.exit c ∉ loopRun t s evs) →
      loopRun t s (evs ++ [e]) = loopRun t s evs ++ loopRun t (loopEnd t s evs) [e] := by
    intro evs
    induction evs with
    | nil => intro s _; rfl
    | cons f evs ih =>
      intro s h
      rw [List.cons_append, loopRun_cons, loopRun_cons]
      have e1 : loopEnd t s (f :: evs) = if (loopStep t s f).2.2 = true then (loopStep t s f).1
        else loopEnd t (loopStep t s f).1 evs := rfl
      rw [loopRun_cons] at h
      by_cases hh : (loopStep t s f).2.2 = true
      · exfalso
        rw [if_pos hh] at h
        have : ∃ c, Act.exit c ∈ (loopStep t s f).2.1 := by
          revert hh
          unfold loopStep
          split
          · intro _; exact ⟨1, List.mem_cons_self⟩
          · split
            · intro hh; cases hh
            · split
              · split
                · intro _; exact ⟨0, List.mem_cons_self⟩
                · intro hh; cases hh
              · split
                · intro hh; cases hh
                · split
                  · intro hh; cases hh
                  · split
                    · cases f.atomic with
                      | none => intro _; exact ⟨1, List.mem_cons_self⟩
                      | some l => intro hh; cases hh
                    · dsimp only
                      split
                      · intro _; exact ⟨0, List.mem_append_right _ List.mem_cons_self⟩
                      · intro hh; cases hh
        obtain ⟨c, hcm⟩ := this
        exact h c hcm
      · rw [if_neg hh, if_neg hh, e1, if_neg hh, List.append_assoc]
        rw [if_neg hh] at h
        rw [ih _ fun c hcm => h c (List.mem_append_right _ hcm)]
  rw [happ evs s hx]
  apply List.mem_append_right
  have hm := ((C77_table_partial t s evs hn ho hc hx).2 p).2 hp
  rw [hs, loopRun_cons]
  generalize loopEnd t s evs = s' at *
  have e2 : loopStep t s' (trapAt t e.at_) =
      ({ s' with win := (printInsn s'.win).1 }, (if (printInsn s'.win).2 = true then [Act.record e.at_] else []) ++
          s'.pids.map .detach ++ [.exit 0], true) := by
    unfold loopStep
    rw [if_neg (by simp [trapAt]), if_neg (by simp [trapAt, evClone, evVfork, evFork]), if_neg (by simp [trapAt, evExit]),
      if_neg (by simp [trapAt, sigTrap, sigStkflt]), if_neg (by simp [trapAt]),
      if_neg (by rw [show (trapAt t e.at_).at_ = e.at_ from rfl, hl]; decide)]
    dsimp only
    rw [if_pos h0]
    rfl
  rw [e2, if_pos rfl]
  exact List.mem_append_left _ (List.mem_append_right _ (List.mem_map_of_mem hm))

/-- **C77 (partial), skipping.** Under the same conditions, and if only living threads have performance counters, the
tracer uses no null pointer while it skips, and its table has the threads that live. -/
theorem C77_forward_partial (init : Pids) (hn : init.Nodup) : ∀ (evs : List Stop), Ordered init evs →
    init.length + births evs ≤ maxPids →
    (∀ pre e post, evs = pre ++ e :: post → e.born = none → e.died = none → e.sig = sigStkflt → Lives init pre e.pid) →
    (forwardRun init evs).1 ≠ .crash ∧
      ∀ q acts, (forwardRun init evs).1 = .go q acts → ∀ p, p ∈ q ↔ Lives init evs p := by
  intro evs ho hc hk
  -- the run from the table after `pre`
  have main : ∀ (rest pre : List Stop), evs = pre ++ rest →
      (forwardRun (tableAfter init pre) rest).1 ≠ .crash ∧
        ∀ q acts, (forwardRun (tableAfter init pre) rest).1 = .go q acts → ∀ p, p ∈ q ↔ Lives init evs p := by
    intro rest
    induction rest with
    | nil =>
      intro pre hpre
      rw [List.append_nil] at hpre
      refine ⟨by simp [forwardRun], ?_⟩
      intro q acts h p
      have hq : tableAfter init pre = q := (Forward.go.inj h).1
      rw [← hq, ← hpre]
      exact (table_lives init hn evs ho hc).2.2 p
    | cons e rest ih =>
      intro pre hpre
      have hpre' : evs = (pre ++ [e]) ++ rest := by rw [hpre]; simp
      have hop : Ordered init pre := by
        intro a f b hf
        exact ho a f (b ++ e :: rest) (by rw [hpre, hf]; simp)
      have hsub : births pre + births (e :: rest) = births evs := by
        unfold births; rw [hpre, List.filter_append, List.length_append]
      obtain ⟨t1, t2, t3⟩ := table_lives init hn pre hop (by omega)
      obtain ⟨o1, o2⟩ := ho pre e rest hpre
      have e1 : forwardRun (tableAfter init pre) (e :: rest) = match forwardStep (tableAfter init pre) e with
        | .go q acts => ((forwardRun q rest).1, acts ++ (forwardRun q rest).2)
        | r => (r, []) := rfl
      have ih' := ih (pre ++ [e]) hpre'
      rw [tableAfter_snoc] at ih'
      have hstep : (∃ acts, forwardStep (tableAfter init pre) e = .go (tableAfter init (pre ++ [e])) acts) ∨
          forwardStep (tableAfter init pre) e = .exit ∨ forwardStep (tableAfter init pre) e = .chosen e.pid := by
        rw [tableAfter_snoc]
        unfold forwardStep
        by_cases h1 : e.stopped = false
        · rw [if_pos h1]; exact .inr (.inl rfl)
        · rw [if_neg h1]
          by_cases h2 : e.event = evClone ∨ e.event = evVfork ∨ e.event = evFork
          · have hb : births (e :: rest) = births rest + 1 := by
              unfold births
              rw [List.filter_cons_of_pos (by unfold Stop.born; rw [if_pos h2]; rfl)]
              rfl
            have ha : addPid (tableAfter init pre) e.msg = some (tableAfter init pre ++ [e.msg]) := by
              unfold addPid; rw [if_neg (by omega)]
            rw [if_pos h2, if_pos h2]
            unfold addPid'
            rw [ha]
            exact .inl ⟨_, rfl⟩
          · rw [if_neg h2, if_neg h2]
            by_cases h3 : e.event = evExit
            · rw [if_pos h3, if_pos h3]
              by_cases hm : e.pid ∈ tableAfter init pre
              · obtain ⟨k, hk⟩ := Option.isSome_iff_exists.1 (find_isSome.2 hm)
                rw [hk]
                exact .inl ⟨_, rfl⟩
              · -- a thread exits only once
                exfalso
                exact hm ((t3 _).2 (o2 _ (if_pos h3)))
            · rw [if_neg h3, if_neg h3]
              by_cases h4 : e.sig = sigStkflt
              · rw [if_pos h4]
                have hm := (t3 _).2 (hk pre e rest hpre (if_neg h2) (if_neg h3) h4)
                obtain ⟨k, hk⟩ := Option.isSome_iff_exists.1 (find_isSome.2 hm)
                rw [hk]
                exact .inr (.inr rfl)
              · rw [if_neg h4]; exact .inl ⟨_, rfl⟩
      rw [← tableAfter_snoc] at ih'
      rcases hstep with ⟨acts, h⟩ | h | h
      · rw [e1, h]
        exact ih'
      · rw [e1, h]
        exact ⟨by simp, fun q acts hh => by cases hh⟩
      · rw [e1, h]
        exact ⟨by simp, fun q acts hh => by cases hh⟩
  exact main evs [] rfl

/-- A thread makes another one, which gets a signal and exits; a third one is made. -/
def exTable : List Stop := [cloneAt 7#32 (exX 0) 11#32, exOther 0 11#32, exOther 2 11#32, exOther 3 11#32, cloneAt 7#32 (exX 0) 12#32]

theorem exTable_ordered : Ordered [7#32] exTable := by
  intro pre e post h
  match pre, h with
  | [], h =>
    simp only [exTable, List.nil_append, List.cons.injEq] at h
    obtain ⟨rfl, rfl⟩ := h
    refine ⟨fun p hp => ?_, fun p hp => by cases hp⟩
    cases hp
    exact ⟨by decide, fun f hf => by cases hf⟩
  | [_], h =>
    simp only [exTable, List.cons_append, List.nil_append, List.cons.injEq] at h
    obtain ⟨rfl, rfl, rfl⟩ := h; exact ⟨fun p hp => (by cases hp), fun p hp => (by cases hp)⟩
  | [_, _], h =>
    simp only [exTable, List.cons_append, List.nil_append, List.cons.injEq] at h
    obtain ⟨rfl, rfl, rfl, rfl⟩ := h; exact ⟨fun p hp => (by cases hp), fun p hp => (by cases hp)⟩
  | [_, _, _], h =>
    simp only [exTable, List.cons_append, List.nil_append, List.cons.injEq] at h
    obtain ⟨rfl, rfl, rfl, rfl, rfl⟩ := h
    refine ⟨fun p hp => (by cases hp), fun p hp => ?_⟩
    cases hp
    exact ⟨.inr ⟨_, List.mem_cons_self, rfl⟩, by decide⟩
  | [_, _, _, _], h =>
    simp only [exTable, List.cons_append, List.nil_append, List.cons.injEq] at h
    obtain ⟨rfl, rfl, rfl, rfl, rfl, _⟩ := h
    refine ⟨fun p hp => ?_, fun p hp => by cases hp⟩
    cases hp
    exact ⟨by decide, by decide⟩
  | _ :: _ :: _ :: _ :: _ :: _, h =>
    simp only [exTable, List.cons_append, List.cons.injEq] at h
    simp at h

example : Ordered [7#32] exTable ∧ [7#32].length + births exTable ≤ maxPids ∧
    (∀ c, Act.exit c ∉ loopRun 7#32 ⟨[7#32], ⟨0, -1⟩⟩ exTable) ∧ (loopEnd 7#32 ⟨[7#32], ⟨0, -1⟩⟩ exTable).pids = [7#32, 12#32] := by
  refine ⟨exTable_ordered, by decide, ?_, by decide +kernel⟩
  have : loopRun 7#32 ⟨[7#32], ⟨0, -1⟩⟩ exTable =
      [.step 7#32 0, .cont 11#32 5, .cont 11#32 10, .detach 11#32, .step 7#32 0] := by decide +kernel
  intro c
  rw [this]
  simp

/-- The conditions of `C77_forward_partial`, with a counter of the third thread signalling at the end. -/
example : Ordered [7#32] exTable ∧ [7#32].length + births exTable ≤ maxPids ∧ (∀ e ∈ exTable, e.sig ≠ sigStkflt) ∧
    (forwardRun [7#32] exTable).1 = .go [7#32, 12#32] [] ∧
    (forwardRun [7#32] (exTable ++ [signalAt 12#32 (exX 5) sigStkflt])).1 = .chosen 12#32 :=
  ⟨exTable_ordered, by decide, by decide, by decide +kernel, by decide +kernel⟩

/-- The limit of one instruction is reached with two living threads. -/
example : (printInsn (loopEnd 7#32 ⟨[7#32], ⟨0, 1⟩⟩ exTable).win).1.left = 0#64 ∧
    loopRun 7#32 ⟨[7#32], ⟨0, 1⟩⟩ (exTable ++ [trapAt 7#32 (exX 1)]) =
      [.step 7#32 0, .cont 11#32 5, .cont 11#32 10, .detach 11#32, .step 7#32 0, .record (exX 1), .detach 7#32, .detach 12#32,
        .exit 0] := by
  constructor <;> decide +kernel

/-- **C77 refuted.** A new thread can be seen, run and exit before the stop of its parent is reported. Then the main
loop keeps the dead thread in its table, and the loop that skips instructions uses a null pointer. -/
theorem C77_refuted :
    let evs := [exOther 0 11#32, exOther 3 11#32, cloneAt 7#32 (exX 0) 11#32]
    ¬ Lives [7#32] evs 11#32 ∧ 11#32 ∈ (loopEnd 7#32 ⟨[7#32], ⟨0, -1⟩⟩ evs).pids ∧ (forwardRun [7#32] evs).1 = .crash := by
  refine ⟨?_, by decide +kernel, by decide +kernel⟩
  rintro ⟨_, h⟩
  exact h (exOther 3 11#32) (List.mem_cons_of_mem _ List.mem_cons_self) rfl

/-- **C77 refuted: many threads.** When the table is full, the report of a new thread makes the tracer use a null
pointer while it skips. -/
theorem C77_full_refuted (pids : Pids) (h : pids.length = maxPids) (e : Stop) (hs : e.stopped = true) (he : e.event = evClone) :
    forwardStep pids e = .crash := by
  unfold forwardStep addPid
  rw [if_neg (by rw [hs]; decide), if_pos (.inl he), if_pos h]

end Ptr
