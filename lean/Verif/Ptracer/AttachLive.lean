import Verif.Ptracer.AttachSafe

/-! # Attaching can always be completed -/

namespace Ptr.Attach

/-! ## No thread is captured by itself, and a thread that is stopped for the tracer stays so -/

/-- Captured threads were captured before; threads that are stopped for the tracer still are. -/
def Quiet (l l' : List Thread) : Prop :=
  (∀ u' ∈ l', u'.st = .captured → ∃ u ∈ l, u.id = u'.id ∧ u.st = .captured) ∧
  (∀ u ∈ l, ∀ r, u.st = .trapped r → ∃ u' ∈ l', u'.id = u.id ∧ u'.st = .trapped r)

theorem Quiet.refl (l : List Thread) : Quiet l l := ⟨fun u h hc => ⟨u, h, rfl, hc⟩, fun u h _ hr => ⟨u, h, rfl, hr⟩⟩

theorem Quiet.trans {l m n : List Thread} (h : Quiet l m) (h' : Quiet m n) : Quiet l n := by
  refine ⟨fun u hu hc => ?_, fun u hu r hr => ?_⟩
  · obtain ⟨v, hv, e1, e2⟩ := h'.1 u hu hc
    obtain ⟨w, hw, f1, f2⟩ := h.1 v hv e2
    exact ⟨w, hw, f1.trans e1, f2⟩
  · obtain ⟨v, hv, e1, e2⟩ := h.2 u hu r hr
    obtain ⟨w, hw, f1, f2⟩ := h'.2 v hv r e2
    exact ⟨w, hw, f1.trans e1, f2⟩

theorem Quiet.map (f : Thread → Thread) (l : List Thread) (hf : ∀ t ∈ l, (f t).id = t.id ∧ (f t).st = t.st) : Quiet l (l.map f) := by
  refine ⟨fun u hu hc => ?_, fun u hu r hr => ?_⟩
  · obtain ⟨t, ht, rfl⟩ := List.mem_map.mp hu
    exact ⟨t, ht, (hf t ht).1.symm, by rw [← (hf t ht).2]; exact hc⟩
  · exact ⟨f u, List.mem_map.mpr ⟨u, hu, rfl⟩, (hf u hu).1, by rw [(hf u hu).2]; exact hr⟩

/-- A thread that is not stopped for the tracer changes. -/
theorem Quiet.upd {l : List Thread} (hn : (l.map (·.id)).Nodup) {t : Thread} (ht : t ∈ l) {p : Pid} (hp : t.id = p) (f : Thread → Thread)
    (hid : ∀ t, (f t).id = t.id) (hst : (f t).st ≠ .captured) (hr : ∀ r, t.st ≠ .trapped r) : Quiet l (upd p f l) := by
  refine ⟨fun u hu hc => ?_, fun u hu r h => ?_⟩
  · obtain ⟨v, hv, rfl⟩ := List.mem_map.mp hu
    by_cases hvp : v.id = p
    · rw [if_pos hvp, eq_of_id hn hv ht (hvp.trans hp.symm)] at hc
      exact absurd hc hst
    · rw [if_neg hvp] at hc ⊢
      exact ⟨v, hv, rfl, hc⟩
  · refine ⟨u, List.mem_map.mpr ⟨u, hu, ?_⟩, rfl, h⟩
    rw [if_neg]
    intro hup
    rw [eq_of_id hn hu ht (hup.trans hp.symm)] at h
    exact hr r h

theorem groupStop_quiet (k : System) : Quiet k.threads k.groupStop.threads := by
  refine Quiet.map _ _ fun t _ => ?_
  split <;> exact ⟨rfl, rfl⟩

theorem deliver_quiet (k : System) (p : Pid) (s : Nat) : Quiet k.threads (k.deliver p s).threads := by
  unfold System.deliver
  split
  · exact groupStop_quiet k
  · exact Quiet.refl _

theorem send_quiet (k : System) (s : Nat) (hs : s ≠ sigCont) (to : Option Pid) : Quiet k.threads (k.send s to).threads := by
  refine Quiet.trans (m := (k.generate s).threads) ?_ ?_
  · unfold System.generate
    rw [if_neg hs]
    split
    · exact Quiet.map _ _ fun t _ => ⟨rfl, rfl⟩
    · exact Quiet.refl _
  · unfold System.send
    cases to with
    | none => exact Quiet.refl _
    | some p =>
      simp only [System.queue]
      split
      · refine Quiet.map _ _ fun t _ => ?_
        split <;> exact ⟨rfl, rfl⟩
      · exact Quiet.refl _

theorem taken_quiet {k : System} (hn : k.ids.Nodup) {t u : Thread} (ht : t ∈ k.threads) (hid : t.id = u.id) (hr : t.st = .running) (s : Nat) :
    Quiet k.threads (k.taken u s).threads := by
  unfold System.taken
  split
  · exact Quiet.upd hn ht hid _ (fun _ => rfl) (by simp) (by simp [hr])
  · exact deliver_quiet _ _ _

theorem Quiet.append {l : List Thread} {t : Thread} (h : t.st ≠ .captured) : Quiet l (l ++ [t]) := by
  refine ⟨fun u hu hc => ?_, fun u hu r hr => ⟨u, List.mem_append_left _ hu, rfl, hr⟩⟩
  rcases List.mem_append.mp hu with hu | hu
  · exact ⟨u, hu, rfl, hc⟩
  · rw [List.mem_singleton.mp hu] at hc; exact absurd hc h

theorem event_quiet {k : System} (hn : k.ids.Nodup) (e : Event) (hc : ∀ to, e ≠ .send sigCont to) (hx : ∀ p, e ≠ .exit p) :
    Quiet k.threads (k.event e).threads := by
  cases e with
  | send s to => exact send_quiet k s (fun hs => hc to (by rw [hs])) to
  | take p own s =>
    simp only [System.event]
    cases hp : k.thread? p with
    | none => exact Quiet.refl _
    | some t =>
      obtain ⟨ht, hid⟩ := thread?_some hp
      dsimp only
      split
      · rename_i hr
        split
        · split
          · have ht' : { t with pending := t.pending.erase s } ∈ Ptr.Attach.upd p (fun t => { t with pending := t.pending.erase s }) k.threads :=
              List.mem_map.mpr ⟨t, ht, by rw [if_pos hid]⟩
            refine Quiet.trans (m := Ptr.Attach.upd p (fun t => { t with pending := t.pending.erase s }) k.threads) ?_ ?_
            · refine Quiet.map _ _ fun t _ => ?_
              split <;> exact ⟨rfl, rfl⟩
            · refine taken_quiet (k := { k with threads := Ptr.Attach.upd p (fun t => { t with pending := t.pending.erase s }) k.threads }) ?_ ht' rfl hr.1 s
              show ((Ptr.Attach.upd p (fun t => { t with pending := t.pending.erase s }) k.threads).map (·.id)).Nodup
              rw [upd_ids p (fun t => { t with pending := t.pending.erase s }) fun _ => rfl]
              exact hn
          · exact Quiet.refl _
        · split
          · exact taken_quiet (k := { k with shared := k.shared.erase s }) hn ht rfl hr.1 s
          · exact Quiet.refl _
      · exact Quiet.refl _
  | halt p =>
    simp only [System.event]
    cases hp : k.thread? p with
    | none => exact Quiet.refl _
    | some t =>
      obtain ⟨ht, hid⟩ := thread?_some hp
      dsimp only
      split
      · rename_i hr
        refine Quiet.upd hn ht hid _ (fun _ => rfl) ?_ (by simp [hr.1])
        dsimp only
        split <;> simp
      · exact Quiet.refl _
  | notice p =>
    simp only [System.event]
    cases hp : k.thread? p with
    | none => exact Quiet.refl _
    | some t =>
      obtain ⟨ht, hid⟩ := thread?_some hp
      dsimp only
      split
      · rename_i hr
        exact Quiet.upd hn ht hid _ (fun _ => rfl) (by simp) (by simp [hr.1])
      · exact Quiet.refl _
  | exit p => exact absurd rfl (hx p)
  | clone p q =>
    simp only [System.event]
    cases hp : k.thread? p with
    | none => exact Quiet.refl _
    | some t =>
      obtain ⟨ht, hid⟩ := thread?_some hp
      dsimp only
      split
      · rename_i hr
        split
        · refine Quiet.trans (m := Ptr.Attach.upd p (fun t => { t with st := .trapped (.clone q) }) k.threads) ?_ ?_
          · exact Quiet.upd hn ht hid _ (fun _ => rfl) (by simp) (by simp [hr.1])
          · exact Quiet.append (by simp)
        · exact Quiet.append (by simp)
      · exact Quiet.refl _

/-! ## The invariant -/

def LiveT (leader : Pid) : Pc → Thread → Prop
  | .list, t | .seize _, t => t.id ≠ leader → t.st ≠ .captured
  | .await l, t => t.id ≠ leader → t.id ∈ l → t.st ≠ .captured
  | _, _ => True

/-- The process stops, or will: `SIGSTOP` waits, or the thread of the tracer is about to get it. -/
def Stopping (leader : Pid) (k : System) : Prop :=
  sigStop ∈ k.shared ∨ k.job = true ∨ ∃ t ∈ k.threads, t.id = leader ∧ t.st = .trapped (.signal sigStop)

def LiveS (leader : Pid) (k : System) : Pc → Prop
  | .wait => Stopping leader k
  | .await l => l.Nodup
  | _ => True

structure Live (leader : Pid) (w : World) : Prop where
  each : ∀ t ∈ w.sys.threads, LiveT leader w.pc t
  set : LiveS leader w.sys w.pc

theorem Live.quiet {leader : Pid} {w : World} (h : Live leader w) {k : System} (hq : Quiet w.sys.threads k.threads)
    (hs : w.pc = .wait → Stopping leader w.sys → Stopping leader k) : Live leader { w with sys := k } := by
  refine ⟨fun u hu => ?_, ?_⟩
  · show LiveT leader w.pc u
    have he := h.each
    have hu' := hq.1 u hu
    generalize w.pc = pc at *
    cases pc with
    | list | seize l | await l =>
      simp only [LiveT] at *
      intros
      intro hcap
      obtain ⟨v, hv, e1, e2⟩ := hu' hcap
      have := he v hv
      simp_all
    | _ => trivial
  · show LiveS leader k w.pc
    have h1 := h.set
    generalize w.pc = pc at *
    cases pc with
    | wait => exact hs rfl h1
    | _ => exact h1

theorem generate_shared (k : System) (s : Nat) (hs : s ≠ sigCont) : sigStop ∈ k.shared → sigStop ∈ (k.generate s).shared := by
  unfold System.generate
  rw [if_neg hs]
  intro h
  split
  · exact List.mem_filter.mpr ⟨h, by decide⟩
  · exact h

theorem generate_job (k : System) (s : Nat) (hs : s ≠ sigCont) : (k.generate s).job = k.job := by
  unfold System.generate
  rw [if_neg hs]
  split <;> rfl

theorem deliver_job (k : System) (p : Pid) (s : Nat) : k.job = true ∨ s = sigStop → (k.deliver p s).job = true := by
  unfold System.deliver
  split
  · intro _; rfl
  · rename_i h
    rintro (h' | h')
    · exact h'
    · exact absurd h' h

theorem deliver_shared (k : System) (p : Pid) (s : Nat) : (k.deliver p s).shared = k.shared := by
  unfold System.deliver
  split <;> rfl

theorem taken_job (k : System) (t : Thread) (s : Nat) (h : k.job = true) : (k.taken t s).job = true := by
  unfold System.taken
  split
  · exact h
  · exact deliver_job _ _ _ (.inl h)

theorem taken_shared (k : System) (t : Thread) (s : Nat) : (k.taken t s).shared = k.shared := by
  unfold System.taken
  split
  · rfl
  · exact deliver_shared _ _ _

theorem event_stopping {leader : Pid} {k : System} (hn : k.ids.Nodup) (e : Event) (hc : ∀ to, e ≠ .send sigCont to) (hx : ∀ p, e ≠ .exit p)
    (hu : ∀ t ∈ k.threads, t.id ≠ leader → t.seized = false) (h : Stopping leader k) : Stopping leader (k.event e) := by
  have hq := event_quiet hn e hc hx
  rcases h with h | h | ⟨t, ht, hid, hst⟩
  · -- waits for the process
    cases e with
    | send s to =>
      left
      show sigStop ∈ (k.send s to).shared
      have := generate_shared k s (fun hs => hc to (by rw [hs])) h
      unfold System.send
      cases to with
      | none => exact List.mem_append_left _ this
      | some p =>
        simp only [System.queue]
        split <;> exact this
    | take p own s =>
      simp only [System.event] at hq ⊢
      cases hp : k.thread? p with
      | none => exact .inl h
      | some t =>
        obtain ⟨ht, hid⟩ := thread?_some hp
        rw [hp] at hq
        dsimp only at hq ⊢
        split
        · split
          · split
            · left; rw [taken_shared]; exact h
            · exact .inl h
          · split
            · rename_i hr ho hs
              by_cases hss : s = sigStop
              · by_cases hsz : t.seized = true
                · right; right
                  have hl : t.id = leader := by
                    by_cases hl : t.id = leader
                    · exact hl
                    · rw [hu t ht hl] at hsz; cases hsz
                  refine ⟨{ t with st := .trapped (.signal s) }, ?_, hl, by rw [hss]⟩
                  unfold System.taken
                  rw [if_pos hsz]
                  exact List.mem_map.mpr ⟨t, ht, by rw [if_pos rfl]⟩
                · right; left
                  unfold System.taken
                  rw [if_neg hsz]
                  exact deliver_job _ _ _ (.inr hss)
              · left
                rw [taken_shared]
                exact (List.mem_erase_of_ne (fun h => hss h.symm)).mpr h
            · exact .inl h
        · exact .inl h
    | halt p =>
      left
      simp only [System.event]
      cases k.thread? p with
      | none => exact h
      | some t => dsimp only; split <;> exact h
    | notice p =>
      left
      simp only [System.event]
      cases k.thread? p with
      | none => exact h
      | some t => dsimp only; split <;> exact h
    | exit p => exact absurd rfl (hx p)
    | clone p q =>
      left
      simp only [System.event]
      cases k.thread? p with
      | none => exact h
      | some t =>
        dsimp only
        split
        · split <;> exact h
        · exact h
  · -- stops already
    right; left
    cases e with
    | send s to =>
      have := generate_job k s (fun hs => hc to (by rw [hs]))
      show (k.send s to).job = true
      unfold System.send
      cases to with
      | none => exact this.trans h
      | some p =>
        simp only [System.queue]
        split <;> exact this.trans h
    | take p own s =>
      simp only [System.event]
      cases k.thread? p with
      | none => exact h
      | some t =>
        dsimp only
        split
        · split
          · split
            · exact taken_job _ _ _ h
            · exact h
          · split
            · exact taken_job _ _ _ h
            · exact h
        · exact h
    | halt p =>
      simp only [System.event]
      cases k.thread? p with
      | none => exact h
      | some t => dsimp only; split <;> exact h
    | notice p =>
      simp only [System.event]
      cases k.thread? p with
      | none => exact h
      | some t => dsimp only; split <;> exact h
    | exit p => exact absurd rfl (hx p)
    | clone p q =>
      simp only [System.event]
      cases k.thread? p with
      | none => exact h
      | some t =>
        dsimp only
        split
        · split <;> exact h
        · exact h
  · right; right
    obtain ⟨u, hu, e1, e2⟩ := hq.2 t ht _ hst
    exact ⟨u, hu, e1.trans hid, e2⟩

theorem event_live {leader : Pid} {w : World} {n : Nat} (hn : w.sys.ids.Nodup) (hcalm : Calm leader w n) (h : Live leader w) (e : Event)
    (hc : ∀ to, e ≠ .send sigCont to) (hx : ∀ p, e ≠ .exit p) : Live leader { w with sys := w.sys.event e } := by
  refine h.quiet (event_quiet hn e hc hx) fun hpc hs => event_stopping hn e hc hx ?_ hs
  intro t ht
  have := hcalm.each t ht
  rw [hpc] at this
  exact this.2

theorem cont_captured (k : System) (t : Thread) (sig : Nat) :
    ∀ u' ∈ (k.cont t sig).threads, u'.st = .captured → ∃ u ∈ k.threads, u.id = u'.id ∧ u.st = .captured := by
  have hrun : ∀ u' ∈ upd t.id (fun t => { t with st := .running }) k.threads, u'.st = .captured → ∃ u ∈ k.threads, u.id = u'.id ∧ u.st = .captured := by
    intro u' hu' hc
    obtain ⟨v, hv, rfl⟩ := List.mem_map.mp hu'
    split at hc
    · cases hc
    · rename_i hne
      rw [if_neg hne]
      exact ⟨v, hv, rfl, hc⟩
  unfold System.cont
  split
  · intro u' hu' hc
    obtain ⟨u, hu, e1, e2⟩ := (deliver_quiet { k with threads := upd t.id (fun t => { t with st := .running }) k.threads } t.id sig).1 u' hu' hc
    obtain ⟨v, hv, f1, f2⟩ := hrun u hu e2
    exact ⟨v, hv, f1.trans e1, f2⟩
  · intro u' hu' hc
    exact ⟨u', (List.mem_filter.mp hu').1, rfl, hc⟩
  · exact hrun

theorem cont_job (k : System) (t : Thread) (sig : Nat) (h : k.job = true ∨ t.st = .trapped (.signal sigStop) ∧ sig = sigStop) :
    (k.cont t sig).job = true := by
  unfold System.cont
  split
  · refine deliver_job _ _ _ ?_
    rcases h with h | h
    · exact .inl h
    · exact .inr h.2
  · rename_i hst
    rcases h with h | h
    · exact h
    · rw [hst] at h; cases h.1
  · rename_i h1 h2
    rcases h with h | h
    · exact h
    · exact absurd h.1 (h1 _)

theorem cont_shared (k : System) (t : Thread) (sig : Nat) : (k.cont t sig).shared = k.shared := by
  unfold System.cont
  split
  · exact deliver_shared _ _ _
  · rfl
  · rfl

/-- Waiting in a phase whose invariant is kept when a thread goes on. -/
theorem waitFor_live {leader p : Pid} {w : World} (h : Live leader w) (next : Pc) (hs : w.pc = .wait → p = leader)
    (hn : w.sys.ids.Nodup)
    (hnext : ∀ t ∈ w.sys.threads, t.id = p → t.st = .trapped .stop →
      Live leader { w with sys := { w.sys with threads := upd p (fun t => { t with st := .captured }) w.sys.threads }, pc := next }) :
    Live leader (w.waitFor leader p next) := by
  unfold World.waitFor
  have hcont : ∀ (t : Thread) (sig : Nat), t ∈ w.sys.threads → t.id = p → (∀ s, t.st = .trapped (.signal s) → sig = s) →
      Live leader { w with sys := w.sys.cont t sig } := by
    intro t sig ht hid hsig
    refine ⟨fun u hu => ?_, ?_⟩
    · show LiveT leader w.pc u
      have he := h.each
      have hu' := cont_captured w.sys t sig u hu
      generalize w.pc = pc at *
      cases pc with
      | list | seize l | await l =>
        simp only [LiveT] at *
        intros
        intro hcap
        obtain ⟨v, hv, e1, e2⟩ := hu' hcap
        have := he v hv
        simp_all
      | _ => trivial
    · show LiveS leader (w.sys.cont t sig) w.pc
      have h1 := h.set
      generalize w.pc = pc at *
      cases pc with
      | wait =>
        rcases h1 with h1 | h1 | ⟨u, hu, hul, hst⟩
        · left; rw [cont_shared]; exact h1
        · right; left; exact cont_job _ _ _ (.inl h1)
        · right; left
          have e : u = t := eq_of_id hn hu ht (by rw [hid, hul, hs rfl])
          rw [e] at hst
          exact cont_job _ _ _ (.inr ⟨hst, hsig _ hst⟩)
      | _ => exact h1
  cases ht : w.sys.thread? p with
  | none =>
    dsimp only
    split
    · split
      · exact h
      · refine ⟨h.each, ?_⟩
        have h1 := h.set
        show LiveS leader { w.sys with zombies := w.sys.zombies.erase p } w.pc
        generalize w.pc = pc at *
        cases pc with
        | wait => exact h1
        | _ => exact h1
    · exact ⟨fun _ _ => trivial, trivial⟩
  | some t =>
    obtain ⟨hm, hid⟩ := thread?_some ht
    dsimp only
    split
    · exact hnext t hm hid ‹_›
    · rename_i s hst
      exact hcont t s hm hid fun s' hs' => by rw [hst] at hs'; cases hs'; rfl
    · rename_i q hst
      exact hcont t _ hm hid fun s' hs' => by rw [hst] at hs'; cases hs'
    · rename_i hst
      exact hcont t _ hm hid fun s' hs' => by rw [hst] at hs'; cases hs'
    all_goals exact h

theorem fail_live {leader : Pid} (w : World) : Live leader w.fail := ⟨fun _ _ => trivial, trivial⟩

theorem step_live {leader : Pid} {w : World} (ho : w.Ok leader) (h : Live leader w) : Live leader (w.step leader) := by
  obtain ⟨k, pc, table⟩ := w
  have hn : k.ids.Nodup := ho.nodup
  unfold World.step
  dsimp only
  cases pc with
  | begin =>
    dsimp only
    split
    · exact fail_live _
    · exact ⟨fun _ _ => trivial, trivial⟩
  | stop => exact ⟨fun _ _ => trivial, .inl (List.mem_append_right _ (List.mem_singleton.mpr rfl))⟩
  | wait =>
    refine waitFor_live h .list (fun _ => rfl) hn fun t ht hid hst => ⟨fun u hu => ?_, trivial⟩
    obtain ⟨v, hv, rfl⟩ := List.mem_map.mp hu
    have := (ho.each v hv).1
    show (if v.id = leader then { v with st := St.captured } else v).id ≠ leader → _
    split
    · rename_i hvl; intro hne; exact absurd hvl hne
    · exact fun _ => this
  | list =>
    dsimp only
    split
    · exact fail_live _
    · exact ⟨h.each, trivial⟩
  | seize l =>
    cases l with
    | nil => exact ⟨fun t ht hl _ => h.each t ht hl, ho.set.2.2.1⟩
    | cons p l =>
      dsimp only
      split
      · exact ⟨h.each, trivial⟩
      · split
        · exact fail_live _
        · rename_i k' hk'
          refine ⟨fun u hu => ?_, trivial⟩
          unfold System.seize at hk'
          split at hk'
          · cases hk'
          · split at hk'
            · cases hk'
            · cases hk'
              obtain ⟨v, hv, rfl⟩ := List.mem_map.mp hu
              have := h.each v hv
              show (if v.id = p then { v with seized := true } else v).id ≠ leader → _
              split <;> exact this
  | await l =>
    cases l with
    | nil => exact ⟨fun _ _ => trivial, trivial⟩
    | cons p l =>
      have hnd := List.nodup_cons.mp (show (p :: l).Nodup from h.set)
      dsimp only
      split
      · exact ⟨fun t ht hl hm => h.each t ht hl (List.mem_cons_of_mem _ hm), hnd.2⟩
      · refine waitFor_live h (.await l) (fun h => by cases h) hn fun t ht hid hst => ⟨fun u hu => ?_, hnd.2⟩
        obtain ⟨v, hv, rfl⟩ := List.mem_map.mp hu
        show (if v.id = p then { v with st := St.captured } else v).id ≠ leader → (if v.id = p then { v with st := St.captured } else v).id ∈ l → _
        split
        · rename_i hvp
          intro _ hm
          exact absurd (hvp ▸ hm) hnd.1
        · exact fun hl hm => h.each v hv hl (List.mem_cons_of_mem _ hm)
  | interrupt l =>
    cases l with
    | nil => exact ⟨fun _ _ => trivial, trivial⟩
    | cons p l =>
      dsimp only
      split
      · exact fail_live _
      · split
        · exact ⟨fun _ _ => trivial, trivial⟩
        · exact fail_live _
  | resume => exact ⟨fun _ _ => trivial, trivial⟩
  | returned => exact h
  | failed => exact h

/-! ## Reaching the end -/

structure Alive (leader : Pid) (w : World) : Prop where
  ok : w.Ok leader
  calm : Calm leader w 0
  live : Live leader w

/-- The moves that are needed to get on. -/
def Plain : Move → Prop
  | .tracer | .event (.take ..) | .event (.halt _) | .event (.notice _) => True
  | _ => False

/-- One event or request. -/
def move (leader : Pid) (w : World) : Move → World
  | .event e => { w with sys := w.sys.event e }
  | .tracer => w.step leader

theorem Alive.move {leader : Pid} {w : World} (h : Alive leader w) {m : Move} (hm : Plain m) : Alive leader (Ptr.Attach.move leader w m) := by
  cases m with
  | tracer => exact ⟨step_ok h.ok, step_calm h.ok h.calm, step_live h.ok h.live⟩
  | event e =>
    have hc : ∀ to, e ≠ .send sigCont to := by rintro to rfl; exact hm
    have hx : ∀ p, e ≠ .exit p := by rintro to rfl; exact hm
    have hl : ∀ q, e ≠ .clone leader q := by rintro to rfl; exact hm
    have hb : births (.event e) = 0 := by cases e <;> first | rfl | exact absurd hm id
    exact ⟨event_ok h.ok e hc, event_calm h.ok e (by rw [hb]; exact h.calm) hc hx hl, event_live h.ok.nodup h.calm h.live e hc hx⟩

/-- Some moves lead to the end. -/
def Can (leader : Pid) (P : World → Prop) (w : World) : Prop := ∃ l, (∀ m ∈ l, Plain m) ∧ P (run leader w l)

theorem Can.now {leader : Pid} {P : World → Prop} {w : World} (h : P w) : Can leader P w := ⟨[], by simp, h⟩

theorem Can.next {leader : Pid} {P : World → Prop} {w : World} (m : Move) (hm : Plain m) (h : Can leader P (move leader w m)) : Can leader P w := by
  obtain ⟨l, hl, hp⟩ := h
  refine ⟨m :: l, ?_, ?_⟩
  · intro m' hm'
    rcases List.mem_cons.mp hm' with rfl | hm'
    · exact hm
    · exact hl m' hm'
  · cases m <;> exact hp

theorem run_append (leader : Pid) : ∀ (l l' : List Move) (w : World), run leader w (l ++ l') = run leader (run leader w l) l'
  | [], _, _ => rfl
  | .event _ :: l, l', _ => run_append leader l l' _
  | .tracer :: l, l', _ => run_append leader l l' _

theorem run_alive {leader : Pid} : ∀ (l : List Move) (w : World), Alive leader w → (∀ m ∈ l, Plain m) → Alive leader (run leader w l)
  | [], _, h, _ => h
  | m :: l, w, h, hl => by
    have := run_alive l _ (h.move (hl m List.mem_cons_self)) fun m hm => hl m (List.mem_cons_of_mem _ hm)
    cases m <;> exact this

theorem Can.trans {leader : Pid} {P Q : World → Prop} {w : World} (ha : Alive leader w) (h : Can leader P w)
    (hq : ∀ w, Alive leader w → P w → Can leader Q w) : Can leader Q w := by
  obtain ⟨l, hl, hp⟩ := h
  obtain ⟨l', hl', hp'⟩ := hq _ (run_alive l w ha hl) hp
  refine ⟨l ++ l', ?_, by rw [run_append]; exact hp'⟩
  intro m hm
  rcases List.mem_append.mp hm with hm | hm
  · exact hl m hm
  · exact hl' m hm

theorem cont_running {k : System} {t : Thread} (ht : t ∈ k.threads) (sig : Nat) (hx : t.st ≠ .trapped .exit) :
    ∃ u ∈ (k.cont t sig).threads, u.id = t.id ∧ u.st = .running ∧ u.seized = t.seized := by
  have hm : ({ t with st := .running } : Thread) ∈ upd t.id (fun t => { t with st := .running }) k.threads :=
    List.mem_map.mpr ⟨t, ht, by rw [if_pos rfl]⟩
  unfold System.cont
  split
  · unfold System.deliver
    split
    · refine ⟨_, List.mem_map.mpr ⟨_, hm, rfl⟩, ?_⟩
      dsimp only
      rw [if_neg (by simp)]
      exact ⟨rfl, rfl, rfl⟩
    · exact ⟨_, hm, rfl, rfl, rfl⟩
  · exact absurd ‹_› hx
  · exact ⟨_, hm, rfl, rfl, rfl⟩

section
variable {leader p : Pid} {pc next : Pc}

/-- The tracer waits for a thread. -/
def Waits (leader p : Pid) (pc next : Pc) : Prop := ∀ w : World, w.pc = pc → w.step leader = w.waitFor leader p next

theorem can_trapped (hw : Waits leader p pc next) {w : World} (ha : Alive leader w) (hpc : w.pc = pc) {t : Thread} (ht : t ∈ w.sys.threads)
    (hid : t.id = p) (hst : t.st = .trapped .stop) : Can leader (fun w => w.pc = next) w := by
  refine Can.next .tracer trivial (Can.now ?_)
  show (w.step leader).pc = next
  rw [hw w hpc]
  unfold World.waitFor
  have := thread?_mem ha.ok.nodup ht
  rw [hid] at this
  rw [this]
  dsimp only
  rw [hst]

theorem can_halt (hw : Waits leader p pc next) {w : World} (ha : Alive leader w) (hpc : w.pc = pc) {t : Thread} (ht : t ∈ w.sys.threads)
    (hid : t.id = p) (hsz : t.seized = true) (hst : t.st = .running) (hms : t.mustStop = true) : Can leader (fun w => w.pc = next) w := by
  refine Can.next (.event (.halt p)) trivial ?_
  have e : w.sys.event (.halt p) =
      { w.sys with threads := upd p (fun t => { t with mustStop := false, st := if t.seized then .trapped .stop else .stopped }) w.sys.threads } := by
    simp only [System.event]
    have := thread?_mem ha.ok.nodup ht
    rw [hid] at this
    rw [this]
    simp [hst, hms]
  refine can_trapped hw (t := { t with mustStop := false, st := .trapped .stop }) (ha.move (m := .event (.halt p)) trivial) hpc ?_ hid rfl
  show _ ∈ (w.sys.event (.halt p)).threads
  rw [e]
  exact List.mem_map.mpr ⟨t, ht, by rw [if_pos hid]; simp [hsz]⟩

theorem can_running (hw : Waits leader p pc next) {w : World} (ha : Alive leader w) (hpc : w.pc = pc) {t : Thread} (ht : t ∈ w.sys.threads)
    (hid : t.id = p) (hsz : t.seized = true) (hst : t.st = .running) (hj : w.sys.job = true) : Can leader (fun w => w.pc = next) w := by
  refine can_halt hw ha hpc ht hid hsz hst ?_
  have := (ha.ok.good t ht).2.2.2 hj
  rw [hst] at this
  simpa using this

/-- The thread has stopped for another reason. -/
theorem can_cont (hw : Waits leader p pc next) {w : World} (ha : Alive leader w) (hpc : w.pc = pc) {t : Thread} (ht : t ∈ w.sys.threads)
    (hid : t.id = p) {r : Report} (hst : t.st = .trapped r) (hr : r ≠ .stop) :
    ∃ w', move leader w .tracer = w' ∧ w'.pc = pc ∧ (∃ u ∈ w'.sys.threads, u.id = p ∧ u.st = .running ∧ u.seized = t.seized) ∧
      ((w.sys.job = true ∨ r = .signal sigStop) → w'.sys.job = true) := by
  have hx := (ha.calm.each t ht).st
  have hth := thread?_mem ha.ok.nodup ht
  rw [hid] at hth
  have key : ∀ sig, (r = .signal sigStop → sig = sigStop) → w.waitFor leader p next = { w with sys := w.sys.cont t sig } →
      ∃ w', move leader w .tracer = w' ∧ w'.pc = pc ∧ (∃ u ∈ w'.sys.threads, u.id = p ∧ u.st = .running ∧ u.seized = t.seized) ∧
        ((w.sys.job = true ∨ r = .signal sigStop) → w'.sys.job = true) := by
    intro sig hsig e
    obtain ⟨u, hu, h1, h2, h3⟩ := cont_running ht sig hx
    refine ⟨_, (hw w hpc).trans e, hpc, ⟨u, hu, h1.trans hid, h2, h3⟩, fun h => cont_job _ _ _ ?_⟩
    rcases h with h | h
    · exact .inl h
    · exact .inr ⟨by rw [hst, h], hsig h⟩
  cases r with
  | stop => exact absurd rfl hr
  | signal s =>
    refine key s (fun h => by cases h; rfl) ?_
    unfold World.waitFor
    rw [hth]
    dsimp only
    rw [hst]
  | clone q =>
    refine key sigTrap (fun h => by cases h) ?_
    unfold World.waitFor
    rw [hth]
    dsimp only
    rw [hst]
  | exit => exact absurd hst hx

/-- Waiting while the process is being stopped ends. -/
theorem can_job (hw : Waits leader p pc next) {w : World} (ha : Alive leader w) (hpc : w.pc = pc) {t : Thread} (ht : t ∈ w.sys.threads)
    (hid : t.id = p) (hsz : t.seized = true) (hcap : t.st ≠ .captured) (hj : w.sys.job = true) : Can leader (fun w => w.pc = next) w := by
  cases hst : t.st with
  | running => exact can_running hw ha hpc ht hid hsz hst hj
  | stopped =>
    refine Can.next (.event (.notice p)) trivial ?_
    have e : w.sys.event (.notice p) = { w.sys with threads := upd p (fun t => { t with st := .trapped .stop }) w.sys.threads } := by
      simp only [System.event]
      have := thread?_mem ha.ok.nodup ht
      rw [hid] at this
      rw [this]
      simp [hst, hsz]
    refine can_trapped hw (t := { t with st := .trapped .stop }) (ha.move (m := .event (.notice p)) trivial) hpc ?_ hid rfl
    show _ ∈ (w.sys.event (.notice p)).threads
    rw [e]
    exact List.mem_map.mpr ⟨t, ht, by rw [if_pos hid]⟩
  | captured => exact absurd hst hcap
  | trapped r =>
    by_cases hr : r = .stop
    · exact can_trapped hw ha hpc ht hid (by rw [hst, hr])
    · obtain ⟨w', e, hpc', ⟨u, hu, h1, h2, h3⟩, hj'⟩ := can_cont hw ha hpc ht hid hst hr
      have ha' := ha.move (m := .tracer) trivial
      rw [e] at ha'
      refine Can.next .tracer trivial ?_
      rw [e]
      exact can_running hw ha' hpc' hu h1 (h3.trans hsz) h2 (hj' (.inl hj))

end

theorem can_wait_running {leader : Pid} {w : World} (ha : Alive leader w) (hpc : w.pc = .wait) {t : Thread} (ht : t ∈ w.sys.threads)
    (hid : t.id = leader) (hst : t.st = .running) : Can leader (fun w => w.pc = .list) w := by
  have hw : Waits leader leader .wait .list := fun w h => by unfold World.step; rw [h]
  have hsz : t.seized = true := by
    have := ha.ok.each t ht
    rw [hpc] at this
    exact this.2.1 hid
  cases hj : w.sys.job with
  | true => exact can_running hw ha hpc ht hid hsz hst hj
  | false =>
    have hms : t.mustStop = false := by
      cases hms : t.mustStop with
      | false => rfl
      | true => have := (ha.ok.good t ht).2.1 hms; rw [hj] at this; cases this
    have hs := ha.live.set
    rw [hpc] at hs
    have hsh : sigStop ∈ w.sys.shared := by
      rcases hs with h | h | ⟨u, hu, h1, h2⟩
      · exact h
      · rw [hj] at h; cases h
      · rw [eq_of_id ha.ok.nodup hu ht (h1.trans hid.symm), hst] at h2; cases h2
    refine Can.next (.event (.take leader false sigStop)) trivial ?_
    have e : w.sys.event (.take leader false sigStop) =
        { w.sys with shared := w.sys.shared.erase sigStop, threads := upd t.id (fun t => { t with st := .trapped (.signal sigStop) }) w.sys.threads } := by
      simp only [System.event]
      have := thread?_mem ha.ok.nodup ht
      rw [hid] at this
      rw [this]
      simp [hst, hms, hsh, System.taken, hsz]
    have ha' := ha.move (m := .event (.take leader false sigStop)) trivial
    have ht' : ({ t with st := .trapped (.signal sigStop) } : Thread) ∈ (move leader w (.event (.take leader false sigStop))).sys.threads := by
      show _ ∈ (w.sys.event (.take leader false sigStop)).threads
      rw [e]
      exact List.mem_map.mpr ⟨t, ht, by rw [if_pos rfl]⟩
    obtain ⟨w', e, hpc', ⟨u, hu, h1, h2, h3⟩, hj'⟩ := can_cont hw ha' hpc ht' hid rfl (by simp)
    have ha'' := ha'.move (m := .tracer) trivial
    rw [e] at ha''
    refine Can.next .tracer trivial ?_
    rw [e]
    exact can_running hw ha'' hpc' hu h1 (h3.trans hsz) h2 (hj' (.inr rfl))

theorem can_wait {leader : Pid} {w : World} (ha : Alive leader w) (hpc : w.pc = .wait) : Can leader (fun w => w.pc = .list) w := by
  have hw : Waits leader leader .wait .list := fun w h => by unfold World.step; rw [h]
  obtain ⟨t, ht, hid⟩ := List.mem_map.mp ha.calm.lead
  have hph := ha.ok.each t ht
  rw [hpc] at hph
  have hsz := hph.2.1 hid
  cases hst : t.st with
  | running => exact can_wait_running ha hpc ht hid hst
  | stopped => exact can_job hw ha hpc ht hid hsz hph.1 ((ha.ok.good t ht).2.2.1 hst)
  | captured => exact absurd hst hph.1
  | trapped r =>
    by_cases hr : r = .stop
    · exact can_trapped hw ha hpc ht hid (by rw [hst, hr])
    · obtain ⟨w', e, hpc', ⟨u, hu, h1, h2, h3⟩, hj'⟩ := can_cont hw ha hpc ht hid hst hr
      have ha' := ha.move (m := .tracer) trivial
      rw [e] at ha'
      refine Can.next .tracer trivial ?_
      rw [e]
      exact can_wait_running ha' hpc' hu h1 h2

def Ends (leader : Pid) (w : World) : Prop := Can leader (fun w => w.pc = .returned) w

theorem Alive.not_failed {leader : Pid} {w : World} (ha : Alive leader w) : w.pc ≠ .failed := by
  intro h
  have := ha.calm.set
  rw [h] at this
  exact this

theorem ends_step {leader : Pid} {w : World} (ha : Alive leader w) {pc : Pc} (h : (w.step leader).pc = pc ∨ (w.step leader).pc = .failed)
    (hn : ∀ w, Alive leader w → w.pc = pc → Ends leader w) : Ends leader w := by
  have ha' := ha.move (m := .tracer) trivial
  refine Can.next .tracer trivial (hn _ ha' ?_)
  rcases h with h | h
  · exact h
  · exact absurd h ha'.not_failed

theorem ends_resume {leader : Pid} (w : World) (ha : Alive leader w) (hpc : w.pc = .resume) : Ends leader w :=
  ends_step ha (pc := .returned) (.inl (by unfold World.step; rw [hpc])) fun _ _ h => Can.now h

theorem ends_interrupt {leader : Pid} : ∀ (l : List Pid) (w : World), Alive leader w → w.pc = .interrupt l → Ends leader w
  | [], w, ha, hpc => ends_step ha (.inl (by unfold World.step; rw [hpc])) ends_resume
  | p :: l, w, ha, hpc => by
    refine ends_step ha ?_ (ends_interrupt l)
    unfold World.step
    rw [hpc]
    dsimp only
    split
    · exact .inr rfl
    · split
      · exact .inl rfl
      · exact .inr rfl

theorem ends_await {leader : Pid} : ∀ (l : List Pid) (w : World), Alive leader w → w.pc = .await l → Ends leader w
  | [], w, ha, hpc => ends_step ha (.inl (by unfold World.step; rw [hpc])) (ends_interrupt _)
  | p :: l, w, ha, hpc => by
    by_cases hp : p = leader
    · refine ends_step ha (.inl ?_) (ends_await l)
      unfold World.step
      rw [hpc]
      dsimp only
      rw [if_pos hp]
    · have hw : Waits leader p (.await (p :: l)) (.await l) := fun w h => by
        unfold World.step
        rw [h]
        dsimp only
        rw [if_neg hp]
      have hset := ha.calm.set
      rw [hpc] at hset
      obtain ⟨t, ht, hid⟩ := List.mem_map.mp (hset p List.mem_cons_self)
      have hph := ha.ok.each t ht
      have hl := ha.live.each t ht
      have hs := ha.ok.set
      rw [hpc] at hph hl hs
      refine Can.trans ha (can_job hw ha hpc ht hid hph.2.1 (hl (by rw [hid]; exact hp) (by rw [hid]; exact List.mem_cons_self)) hs.1) ?_
      exact ends_await l

theorem ends_seize {leader : Pid} : ∀ (l : List Pid) (w : World), Alive leader w → w.pc = .seize l → Ends leader w
  | [], w, ha, hpc => ends_step ha (.inl (by unfold World.step; rw [hpc])) (ends_await _)
  | p :: l, w, ha, hpc => by
    refine ends_step ha ?_ (ends_seize l)
    unfold World.step
    rw [hpc]
    dsimp only
    split
    · exact .inl rfl
    · split
      · exact .inr rfl
      · exact .inl rfl

theorem ends_list {leader : Pid} (w : World) (ha : Alive leader w) (hpc : w.pc = .list) : Ends leader w := by
  refine ends_step ha (pc := .seize (w.sys.ids.take maxPids)) ?_ (ends_seize _)
  unfold World.step
  rw [hpc]
  dsimp only
  split
  · exact .inr rfl
  · exact .inl rfl

theorem ends_wait {leader : Pid} (w : World) (ha : Alive leader w) (hpc : w.pc = .wait) : Ends leader w :=
  Can.trans ha (can_wait ha hpc) ends_list

theorem ends_stop {leader : Pid} (w : World) (ha : Alive leader w) (hpc : w.pc = .stop) : Ends leader w :=
  ends_step ha (.inl (by unfold World.step; rw [hpc])) ends_wait

theorem ends_begin {leader : Pid} (w : World) (ha : Alive leader w) (hpc : w.pc = .begin) : Ends leader w := by
  refine ends_step ha (pc := .stop) ?_ ends_stop
  unfold World.step
  rw [hpc]
  dsimp only
  split
  · exact .inr rfl
  · exact .inl rfl

theorem Alive.ends {leader : Pid} {w : World} (ha : Alive leader w) : Ends leader w := by
  cases h : w.pc with
  | begin => exact ends_begin w ha h
  | stop => exact ends_stop w ha h
  | wait => exact ends_wait w ha h
  | list => exact ends_list w ha h
  | seize l => exact ends_seize l w ha h
  | await l => exact ends_await l w ha h
  | interrupt l => exact ends_interrupt l w ha h
  | resume => exact ends_resume w ha h
  | returned => exact Can.now h
  | failed => exact absurd h ha.not_failed

theorem run_live {leader : Pid} : ∀ (l : List Move) (w : World), w.Ok leader → Calm leader w ((l.map births).sum) → Live leader w → Steady leader l →
    Live leader (run leader w l)
  | [], _, _, _, h, _ => h
  | .event e :: l, w, ho, hcalm, h, hs => by
    have hc : ∀ to, e ≠ .send sigCont to := fun to he => hs.cont to (by rw [he]; exact List.mem_cons_self)
    have hx : ∀ p, e ≠ .exit p := fun p he => hs.exit p (by rw [he]; exact List.mem_cons_self)
    have hl : ∀ q, e ≠ .clone leader q := fun q he => hs.clone q (by rw [he]; exact List.mem_cons_self)
    rw [List.map_cons, List.sum_cons] at hcalm
    exact run_live l _ (event_ok ho e hc) (event_calm ho e hcalm hc hx hl) (event_live ho.nodup hcalm h e hc hx)
      ⟨fun to hm => hs.cont to (List.mem_cons_of_mem _ hm), fun p hm => hs.exit p (List.mem_cons_of_mem _ hm),
        fun q hm => hs.clone q (List.mem_cons_of_mem _ hm)⟩
  | .tracer :: l, w, ho, hcalm, h, hs => by
    rw [List.map_cons, List.sum_cons, show births .tracer = 0 from rfl, Nat.zero_add] at hcalm
    exact run_live l _ (step_ok ho) (step_calm ho hcalm) (step_live ho h)
      ⟨fun to hm => hs.cont to (List.mem_cons_of_mem _ hm), fun p hm => hs.exit p (List.mem_cons_of_mem _ hm),
        fun q hm => hs.clone q (List.mem_cons_of_mem _ hm)⟩

end Ptr.Attach
