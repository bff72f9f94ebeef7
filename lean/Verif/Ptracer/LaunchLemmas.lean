import Verif.Ptracer.Launch

/-! # The invariants of starting a program -/

namespace Ptr.Launch

theorem mem_add {s t : Signal} {l : List Signal} : t ∈ add s l ↔ t = s ∨ t ∈ l := by
  unfold add
  split
  · constructor
    · exact .inr
    · rintro (rfl | h) <;> assumption
  · simp [or_comm]

theorem run_cons (found : Bool) (p : Pid) (w : World) (m : Move) (l : List Move) : run found p w (m :: l) = run found p (move found p w m) l := rfl

theorem run_append (found : Bool) (p : Pid) (w : World) (l l' : List Move) : run found p w (l ++ l') = run found p (run found p w l) l' :=
  List.foldl_append

/-- Induction over the moves, from the end. -/
theorem run_induction (found : Bool) (p : Pid) {P : World → Prop} {Q : Move → Prop} (h : ∀ w m, P w → Q m → P (move found p w m)) :
    ∀ (l : List Move) (w : World), P w → (∀ m ∈ l, Q m) → P (run found p w l)
  | [], _, hw, _ => hw
  | m :: l, w, hw, hl => run_induction found p h l _ (h w m hw (hl m List.mem_cons_self)) fun m hm => hl m (List.mem_cons_of_mem _ hm)

/-! ## While nobody sends `SIGCONT` -/

/-- Of the process before it is traced. -/
def Early (c : Process) : Prop :=
  c.programs = 0 ∧ c.insns = 0 ∧ c.traced = false ∧
    (c.st = .dead ∨ c.st = .stopped .tstp ∨ c.st = .stopped .stop ∧ (c.stage = .forked ∨ c.stage = .calling) ∨
      c.st = .running ∧ (c.stage = .forked ∨ c.stage = .calling ∧ .stop ∈ c.pending))

def Safe (p : Pid) (w : World) : Prop :=
  match w.pc with
  | .waitStop => w.table = [] ∧ Early w.child
  | .seize => w.table = [] ∧ w.child.programs = 0 ∧ w.child.insns = 0 ∧ w.child.stage ≠ .program ∧ w.child.traced = false ∧
      (w.child.st = .stopped .stop ∨ w.child.st = .dead)
  | .waitEvent => w.table = [] ∧ w.child.programs = 0 ∧ w.child.insns = 0 ∧ w.child.stage ≠ .program ∧ w.child.traced = true ∧
      (w.child.st = .stopped .stop ∨ w.child.st = .trapped (.stop .stop) ∨ w.child.st = .dead)
  | .cont => w.table = [] ∧ w.child.programs = 0 ∧ w.child.insns = 0 ∧ w.child.stage ≠ .program ∧ w.child.traced = true ∧
      (w.child.st = .captured false ∨ w.child.st = .dead)
  | .waitExec => w.table = [] ∧ w.child.insns = 0 ∧ w.child.traced = true ∧
      (w.child.programs = 0 ∧ w.child.stage ≠ .program ∧ w.child.st ≠ .trapped .exec ∨
        w.child.programs = 1 ∧ w.child.stage = .program ∧ (w.child.st = .trapped .exec ∨ w.child.st = .dead))
  | .returned => w.table = [p] ∧ w.child.programs = 1 ∧ w.child.insns = 0 ∧ w.child.stage = .program ∧ w.child.traced = true ∧
      (w.child.st = .captured false ∨ w.child.st = .dead)
  | .failed => w.table = [] ∧ w.child.insns = 0 ∧ w.child.st = .dead

theorem event_safe (found : Bool) (p : Pid) (w : World) (e : Event) (h : Safe p w) (hc : e ≠ .send .cont) :
    Safe p { w with child := w.child.event found e } := by
  obtain ⟨⟨stage, st, traced, pending, programs, insns⟩, pc, table⟩ := w
  have hm : ∀ t s : Signal, t ∈ add s pending ↔ t = s ∨ t ∈ pending := fun t s => mem_add
  cases pc <;> cases e with
  | send s =>
    cases s <;> cases st <;> simp_all [Safe, Early, Process.event, Process.send] <;> grind [mem_add]
  | take s =>
    cases s <;> cases st <;> simp_all [Safe, Early, Process.event, Process.deliver] <;> grind
  | notice => cases st <;> simp_all [Safe, Early, Process.event] <;> grind
  | advance => cases stage <;> simp_all [Safe, Early, Process.event, Process.exec, Process.exit] <;> grind [mem_add]
  | again => simp_all [Safe, Early, Process.event, Process.exec] <;> grind
  | leave => simp_all [Safe, Early, Process.event, Process.exit] <;> grind

theorem step_safe (p : Pid) (w : World) (h : Safe p w) : Safe p (w.step p) := by
  obtain ⟨⟨stage, st, traced, pending, programs, insns⟩, pc, table⟩ := w
  cases pc <;> cases st <;> simp_all [Safe, Early, World.step, World.fail, Process.send] <;> grind

theorem run_safe (found : Bool) (p : Pid) (l : List Move) (hc : Move.event (.send .cont) ∉ l) : Safe p (run found p start l) := by
  refine run_induction found p (P := Safe p) (Q := fun m => m ≠ .event (.send .cont)) ?_ l start ?_ ?_
  · intro w m h hm
    cases m with
    | tracer => exact step_safe p w h
    | event e => exact event_safe found p w e h fun he => hm (by rw [he])
  · simp [Safe, start, Early, Process.born]
  · intro m hm he
    exact hc (he ▸ hm)

/-! ## Always -/

/-- What is so at any time. -/
def Any (w : World) : Prop :=
  (w.pc = .returned ∨ w.table = []) ∧
  match w.pc with
  | .waitStop | .seize => w.child.traced = false ∧ (w.child.st = .running ∨ w.child.st = .dead ∨ ∃ s, w.child.st = .stopped s)
  | .waitEvent | .waitExec => w.child.traced = true ∧ ∀ b, w.child.st ≠ .captured b
  | .cont => w.child.traced = true
  | .returned => w.child.traced = true
  | .failed => w.child.st = .dead

theorem event_any (found : Bool) (w : World) (e : Event) (h : Any w) : Any { w with child := w.child.event found e } := by
  obtain ⟨⟨stage, st, traced, pending, programs, insns⟩, pc, table⟩ := w
  cases pc <;> cases e with
  | send s => cases s <;> cases st <;> simp_all [Any, Process.event, Process.send, St.resume] <;> grind
  | take s => cases s <;> cases st <;> simp_all [Any, Process.event, Process.deliver] <;> grind
  | notice => cases st <;> simp_all [Any, Process.event] <;> grind
  | advance => cases stage <;> simp_all [Any, Process.event, Process.exec, Process.exit] <;> grind
  | again => simp_all [Any, Process.event, Process.exec] <;> grind
  | leave => simp_all [Any, Process.event, Process.exit] <;> grind

theorem step_any (p : Pid) (w : World) (h : Any w) : Any (w.step p) := by
  obtain ⟨⟨stage, st, traced, pending, programs, insns⟩, pc, table⟩ := w
  cases pc <;> cases st <;> simp_all [Any, World.step, World.fail, Process.send] <;> grind

theorem any_run (found : Bool) (p : Pid) (l : List Move) (w : World) (h : Any w) : Any (run found p w l) := by
  refine run_induction found p (P := Any) (Q := fun _ => True) ?_ l w h fun _ _ => trivial
  intro w m h _
  cases m with
  | tracer => exact step_any p w h
  | event e => exact event_any found w e h

theorem run_any (found : Bool) (p : Pid) (l : List Move) : Any (run found p start l) := any_run found p l start (by simp [Any, start, Process.born])

/-! ## While nobody sends a signal -/

def Alone (found : Bool) (w : World) : Prop :=
  match w.pc with
  | .waitStop => w.child.traced = false ∧ (w.child.stage = .forked ∧ w.child.st = .running ∧ w.child.pending = [] ∨
      w.child.stage = .calling ∧ w.child.st = .running ∧ w.child.pending = [.stop] ∨
      w.child.stage = .calling ∧ w.child.st = .stopped .stop ∧ w.child.pending = [])
  | .seize => w.child.stage = .calling ∧ w.child.st = .stopped .stop ∧ w.child.pending = [] ∧ w.child.traced = false
  | .waitEvent => w.child.stage = .calling ∧ (w.child.st = .stopped .stop ∨ w.child.st = .trapped (.stop .stop)) ∧ w.child.pending = [] ∧
      w.child.traced = true
  | .cont => w.child.stage = .calling ∧ w.child.st = .captured false ∧ w.child.pending = [] ∧ w.child.traced = true
  | .waitExec => w.child.pending = [] ∧ w.child.traced = true ∧
      (w.child.st = .running ∧ (w.child.stage = .calling ∨ w.child.stage = .ready ∨ w.child.stage = .ending ∧ found = false) ∨
        w.child.st = .trapped .exec ∧ found = true ∨ w.child.st = .trapped .exit ∧ found = false)
  | .returned => found = true ∧ w.child.st = .captured false
  | .failed => found = false ∧ w.child.st = .dead

theorem event_alone (found : Bool) (w : World) (e : Event) (h : Alone found w) (hs : ∀ s, e ≠ .send s) : Alone found { w with child := w.child.event found e } := by
  obtain ⟨⟨stage, st, traced, pending, programs, insns⟩, pc, table⟩ := w
  cases pc <;> cases e with
  | send s => exact absurd rfl (hs s)
  | take s => cases s <;> cases st <;> simp_all [Alone, Process.event, Process.deliver] <;> grind
  | notice => cases st <;> simp_all [Alone, Process.event] <;> grind
  | advance => cases stage <;> cases st <;> simp_all [Alone, Process.event, Process.exec, Process.exit, add] <;> grind
  | again => cases st <;> simp_all [Alone, Process.event, Process.exec] <;> grind
  | leave => cases st <;> simp_all [Alone, Process.event, Process.exit] <;> grind

theorem step_alone (found : Bool) (p : Pid) (w : World) (h : Alone found w) : Alone found (w.step p) := by
  obtain ⟨⟨stage, st, traced, pending, programs, insns⟩, pc, table⟩ := w
  cases pc <;> cases st <;> simp_all [Alone, World.step, World.fail, Process.send] <;> grind

theorem run_alone (found : Bool) (p : Pid) (l : List Move) (hs : ∀ s, Move.event (.send s) ∉ l) : Alone found (run found p start l) := by
  refine run_induction found p (P := Alone found) (Q := fun m => ∀ s, m ≠ .event (.send s)) ?_ l start ?_ ?_
  · intro w m h hm
    cases m with
    | tracer => exact step_alone found p w h
    | event e => exact event_alone found w e h fun s he => hm s (by rw [he])
  · simp [Alone, start, Process.born]
  · intro m hm s he
    exact hs s (he ▸ hm)

/-! ## Getting to the end -/

/-- Moves without a signal from elsewhere. -/
def Own : Move → Prop
  | .event (.send _) => False
  | _ => True

def Can (found : Bool) (p : Pid) (P : World → Prop) (w : World) : Prop := ∃ l, (∀ m ∈ l, Own m) ∧ P (run found p w l)

section
variable {found : Bool} {p : Pid} {P : World → Prop} {w : World}

theorem Can.now (h : P w) : Can found p P w := ⟨[], by simp, h⟩

theorem Can.next (m : Move) (hm : Own m) (h : Can found p P (move found p w m)) : Can found p P w := by
  obtain ⟨l, hl, hp⟩ := h
  refine ⟨m :: l, ?_, hp⟩
  intro m' hm'
  rcases List.mem_cons.mp hm' with rfl | hm'
  · exact hm
  · exact hl m' hm'

theorem Can.trans {Q : World → Prop} (ha : Any w) (h : Can found p P w) (hq : ∀ w, Any w → P w → Can found p Q w) : Can found p Q w := by
  obtain ⟨l, hl, hp⟩ := h
  obtain ⟨l', hl', hp'⟩ := hq _ (any_run found p l w ha) hp
  refine ⟨l ++ l', ?_, by rw [run_append]; exact hp'⟩
  intro m hm
  rcases List.mem_append.mp hm with hm | hm
  · exact hl m hm
  · exact hl' m hm

end

/-- A running process gets to something the tracer is told. -/
theorem can_stop (found : Bool) (p : Pid) (w : World) (h : w.child.st = .running) :
    Can found p (fun v => v.pc = w.pc ∧ v.child.traced = w.child.traced ∧
      if w.child.traced then ∃ r, v.child.st = .trapped r else v.child.st = .dead ∨ ∃ s, v.child.st = .stopped s) w := by
  obtain ⟨⟨stage, st, traced, pending, programs, insns⟩, pc, table⟩ := w
  cases h
  have hprogram : ∀ pending programs insns, Can found p (fun v => v.pc = pc ∧ v.child.traced = traced ∧
      if traced then ∃ r, v.child.st = .trapped r else v.child.st = .dead ∨ ∃ s, v.child.st = .stopped s)
      ⟨⟨.program, .running, traced, pending, programs, insns⟩, pc, table⟩ := by
    intro pending programs insns
    refine Can.next (.event .leave) trivial (Can.now ?_)
    cases traced <;> simp [move, Process.event, Process.exit]
  have hending : ∀ pending programs insns, Can found p (fun v => v.pc = pc ∧ v.child.traced = traced ∧
      if traced then ∃ r, v.child.st = .trapped r else v.child.st = .dead ∨ ∃ s, v.child.st = .stopped s)
      ⟨⟨.ending, .running, traced, pending, programs, insns⟩, pc, table⟩ := by
    intro pending programs insns
    refine Can.next (.event .advance) trivial (Can.now ?_)
    cases traced <;> simp [move, Process.event, Process.exit]
  have hready : ∀ pending programs insns, Can found p (fun v => v.pc = pc ∧ v.child.traced = traced ∧
      if traced then ∃ r, v.child.st = .trapped r else v.child.st = .dead ∨ ∃ s, v.child.st = .stopped s)
      ⟨⟨.ready, .running, traced, pending, programs, insns⟩, pc, table⟩ := by
    intro pending programs insns
    refine Can.next (.event .advance) trivial ?_
    cases found with
    | false => exact hending pending programs insns
    | true =>
      cases traced with
      | true => exact Can.now (by simp [move, Process.event, Process.exec])
      | false => exact hprogram pending (programs + 1) insns
  have hcalling : ∀ pending programs insns, Can found p (fun v => v.pc = pc ∧ v.child.traced = traced ∧
      if traced then ∃ r, v.child.st = .trapped r else v.child.st = .dead ∨ ∃ s, v.child.st = .stopped s)
      ⟨⟨.calling, .running, traced, pending, programs, insns⟩, pc, table⟩ := by
    intro pending programs insns
    by_cases hs : Signal.stop ∈ pending
    · refine Can.next (.event (.take .stop)) trivial (Can.now ?_)
      cases traced <;> simp [move, Process.event, Process.deliver, hs]
    · refine Can.next (.event .advance) trivial ?_
      have := hready pending programs insns
      simpa [move, Process.event, hs] using this
  cases stage with
  | forked => exact Can.next (.event .advance) trivial (hcalling (add .stop (pending.filter (· ≠ .cont))) programs insns)
  | calling => exact hcalling pending programs insns
  | ready => exact hready pending programs insns
  | ending => exact hending pending programs insns
  | program => exact hprogram pending programs insns

def Over (w : World) : Prop := w.pc = .returned ∨ w.pc = .failed

theorem fail_over (w : World) : Over w.fail := .inr rfl

theorem can_waitExec (found : Bool) (p : Pid) (w : World) (h : Any w) (hpc : w.pc = .waitExec) : Can found p Over w := by
  have hend : ∀ w : World, w.pc = .waitExec → (w.child.st = .dead ∨ ∃ r, w.child.st = .trapped r) → Can found p Over w := by
    intro w hpc hst
    refine Can.next .tracer trivial (Can.now ?_)
    show Over (w.step p)
    unfold World.step
    rw [hpc]
    dsimp only
    rcases hst with hst | ⟨r, hst⟩ <;> rw [hst] <;> dsimp only
    · exact fail_over w
    · split
      · exact .inl rfl
      · exact fail_over w
  have h2 := h.2
  rw [hpc] at h2
  cases hst : w.child.st with
  | dead => exact hend w hpc (.inl hst)
  | trapped r => exact hend w hpc (.inr ⟨r, hst⟩)
  | captured b => exact absurd hst (h2.2 b)
  | stopped s =>
    refine Can.next (.event .notice) trivial (hend _ hpc (.inr ⟨.stop s, ?_⟩))
    simp [move, Process.event, hst, h2.1]
  | running =>
    refine (can_stop found p w hst).trans h fun v _ hv => hend v (hv.1.trans hpc) (.inr ?_)
    have := hv.2.2
    rwa [if_pos h2.1] at this

theorem can_cont (found : Bool) (p : Pid) (w : World) (h : Any w) (hpc : w.pc = .cont) : Can found p Over w := by
  refine Can.next .tracer trivial (can_waitExec found p _ (step_any p w h) ?_)
  show (w.step p).pc = _
  unfold World.step
  rw [hpc]
  dsimp only
  split <;> rfl

theorem can_waitEvent (found : Bool) (p : Pid) (w : World) (h : Any w) (hpc : w.pc = .waitEvent) : Can found p Over w := by
  have hend : ∀ w : World, Any w → w.pc = .waitEvent → (w.child.st = .dead ∨ ∃ r, w.child.st = .trapped r) → Can found p Over w := by
    intro w h hpc hst
    refine Can.next .tracer trivial ?_
    have h' := step_any p w h
    have : (w.step p).pc = .cont ∨ (w.step p).pc = .failed := by
      unfold World.step
      rw [hpc]
      dsimp only
      rcases hst with hst | ⟨r, hst⟩ <;> rw [hst] <;> dsimp only
      · exact .inr rfl
      · split
        · exact .inl rfl
        · exact .inr rfl
    rcases this with e | e
    · exact can_cont found p _ h' e
    · exact Can.now (.inr e)
  have h2 := h.2
  rw [hpc] at h2
  cases hst : w.child.st with
  | dead => exact hend w h hpc (.inl hst)
  | trapped r => exact hend w h hpc (.inr ⟨r, hst⟩)
  | captured b => exact absurd hst (h2.2 b)
  | stopped s =>
    refine Can.next (.event .notice) trivial (hend _ (event_any found w _ h) hpc (.inr ⟨.stop s, ?_⟩))
    simp [move, Process.event, hst, h2.1]
  | running =>
    refine (can_stop found p w hst).trans h fun v ha hv => hend v ha (hv.1.trans hpc) (.inr ?_)
    have := hv.2.2
    rwa [if_pos h2.1] at this

theorem can_seize (found : Bool) (p : Pid) (w : World) (h : Any w) (hpc : w.pc = .seize) : Can found p Over w := by
  refine Can.next .tracer trivial ?_
  have h' := step_any p w h
  have : (w.step p).pc = .waitEvent ∨ (w.step p).pc = .failed := by
    unfold World.step
    rw [hpc]
    dsimp only
    split
    · exact .inr rfl
    · exact .inl rfl
  rcases this with e | e
  · exact can_waitEvent found p _ h' e
  · exact Can.now (.inr e)

theorem can_waitStop (found : Bool) (p : Pid) (w : World) (h : Any w) (hpc : w.pc = .waitStop) : Can found p Over w := by
  have hend : ∀ w : World, Any w → w.pc = .waitStop → (w.child.st = .dead ∨ ∃ s, w.child.st = .stopped s) → Can found p Over w := by
    intro w h hpc hst
    refine Can.next .tracer trivial ?_
    have h' := step_any p w h
    have : (w.step p).pc = .seize ∨ (w.step p).pc = .failed := by
      unfold World.step
      rw [hpc]
      dsimp only
      rcases hst with hst | ⟨r, hst⟩ <;> rw [hst] <;> dsimp only
      · exact .inr rfl
      · split
        · exact .inl rfl
        · exact .inr rfl
    rcases this with e | e
    · exact can_seize found p _ h' e
    · exact Can.now (.inr e)
  have h2 := h.2
  rw [hpc] at h2
  rcases h2.2 with hst | hst | hst
  · refine (can_stop found p w hst).trans h fun v ha hv => hend v ha (hv.1.trans hpc) ?_
    have := hv.2.2
    rwa [if_neg (by simp [h2.1])] at this
  · exact hend w h hpc (.inl hst)
  · exact hend w h hpc (.inr hst)

theorem can_end (found : Bool) (p : Pid) (w : World) (h : Any w) : Can found p Over w := by
  cases hpc : w.pc with
  | waitStop => exact can_waitStop found p w h hpc
  | seize => exact can_seize found p w h hpc
  | waitEvent => exact can_waitEvent found p w h hpc
  | cont => exact can_cont found p w h hpc
  | waitExec => exact can_waitExec found p w h hpc
  | returned => exact Can.now (.inl hpc)
  | failed => exact Can.now (.inr hpc)

end Ptr.Launch
