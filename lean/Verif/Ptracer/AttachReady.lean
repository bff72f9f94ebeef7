import Verif.Ptracer.SessionLemmas
import Verif.Ptracer.PropsAttach

/-! # What attaching gives is what the session behind it needs -/

namespace Ptr.Attach

theorem upd_zombies (k : System) (p : Pid) (f : Thread → Thread) (hf : ∀ t, (f t).id = t.id) :
    ({ k with threads := upd p f k.threads } : System).ids = k.ids := upd_ids p f hf _

theorem deliver_ids (k : System) (p : Pid) (s : Nat) : (k.deliver p s).ids = k.ids ∧ (k.deliver p s).zombies = k.zombies := by
  unfold System.deliver
  split
  · refine ⟨?_, rfl⟩
    unfold System.ids System.groupStop
    dsimp only
    rw [List.map_map]
    apply List.map_congr_left
    intro t _
    show (if t.st = .stopped then t else { t with mustStop := true }).id = t.id
    split <;> rfl
  · exact ⟨rfl, rfl⟩

theorem send_ids (k : System) (s : Nat) (to : Option Pid) : (k.send s to).ids = k.ids ∧ (k.send s to).zombies = k.zombies := by
  have hg : (k.generate s).ids = k.ids ∧ (k.generate s).zombies = k.zombies := by
    unfold System.generate
    split
    · refine ⟨?_, rfl⟩
      unfold System.ids
      dsimp only
      rw [List.map_map]
      rfl
    · split
      · refine ⟨?_, rfl⟩
        unfold System.ids
        dsimp only
        rw [List.map_map]
        rfl
      · exact ⟨rfl, rfl⟩
  rw [← hg.1, ← hg.2]
  unfold System.send
  cases to with
  | none => exact ⟨rfl, rfl⟩
  | some p =>
    simp only [System.queue]
    split
    · exact ⟨upd_ids p (fun t => { t with pending := t.pending ++ [s] }) (fun _ => rfl) _, rfl⟩
    · exact ⟨rfl, rfl⟩

theorem taken_ids (k : System) (t : Thread) (s : Nat) : (k.taken t s).ids = k.ids ∧ (k.taken t s).zombies = k.zombies := by
  unfold System.taken
  split
  · exact ⟨upd_ids t.id (fun t => { t with st := .trapped (.signal s) }) (fun _ => rfl) _, rfl⟩
  · exact deliver_ids k t.id s

/-- Nothing but the tracer makes a zombie, and a new thread has another id. -/
theorem event_zombies (k : System) (e : Event) : (k.event e).zombies = k.zombies ∧ ∀ p ∈ (k.event e).ids, p ∈ k.ids ∨ p ∉ k.zombies := by
  have hid : ∀ k' : System, k'.ids = k.ids → ∀ p ∈ k'.ids, p ∈ k.ids ∨ p ∉ k.zombies := fun k' h p hp => .inl (h ▸ hp)
  cases e with
  | send s to => exact ⟨(send_ids k s to).2, hid _ (send_ids k s to).1⟩
  | take p own s =>
    simp only [System.event]
    cases k.thread? p with
    | none => exact ⟨rfl, hid _ rfl⟩
    | some t =>
      dsimp only
      split
      · split
        · split
          · refine ⟨(taken_ids _ t s).2, hid _ ((taken_ids _ t s).1.trans ?_)⟩
            exact upd_ids p (fun t => { t with pending := t.pending.erase s }) (fun _ => rfl) _
          · exact ⟨rfl, hid _ rfl⟩
        · split
          · exact ⟨(taken_ids _ t s).2, hid _ (taken_ids _ t s).1⟩
          · exact ⟨rfl, hid _ rfl⟩
      · exact ⟨rfl, hid _ rfl⟩
  | halt p =>
    simp only [System.event]
    cases k.thread? p with
    | none => exact ⟨rfl, hid _ rfl⟩
    | some t =>
      dsimp only
      split
      · exact ⟨rfl, hid _ (upd_ids p (fun t => { t with mustStop := false, st := if t.seized then .trapped .stop else .stopped }) (fun _ => rfl) _)⟩
      · exact ⟨rfl, hid _ rfl⟩
  | notice p =>
    simp only [System.event]
    cases k.thread? p with
    | none => exact ⟨rfl, hid _ rfl⟩
    | some t =>
      dsimp only
      split
      · exact ⟨rfl, hid _ (upd_ids p (fun t => { t with st := .trapped .stop }) (fun _ => rfl) _)⟩
      · exact ⟨rfl, hid _ rfl⟩
  | exit p =>
    simp only [System.event]
    cases k.thread? p with
    | none => exact ⟨rfl, hid _ rfl⟩
    | some t =>
      dsimp only
      split
      · split
        · exact ⟨rfl, hid _ (upd_ids p (fun t => { t with st := .trapped .exit }) (fun _ => rfl) _)⟩
        · rename_i hz
          refine ⟨by show (if t.seized then _ else _) = _; rw [if_neg hz], fun p hp => .inl ?_⟩
          exact (List.filter_sublist.map _).subset hp
      · exact ⟨rfl, hid _ rfl⟩
  | clone p q =>
    simp only [System.event]
    cases k.thread? p with
    | none => exact ⟨rfl, hid _ rfl⟩
    | some t =>
      dsimp only
      split
      · rename_i hr
        split
        · refine ⟨rfl, fun x hx => ?_⟩
          have hx : x ∈ (upd p (fun t => { t with st := .trapped (.clone q) }) k.threads ++ [(⟨q, true, false, .trapped .stop, []⟩ : Thread)]).map (·.id) := hx
          rw [List.map_append, upd_ids p (fun t => { t with st := .trapped (.clone q) }) fun _ => rfl] at hx
          rcases List.mem_append.mp hx with hx | hx
          · exact .inl hx
          · right
            rw [List.mem_singleton.mp hx]
            exact hr.2.2.2
        · refine ⟨rfl, fun x hx => ?_⟩
          have hx : x ∈ (k.threads ++ [(⟨q, false, false, .running, []⟩ : Thread)]).map (·.id) := hx
          rw [List.map_append] at hx
          rcases List.mem_append.mp hx with hx | hx
          · exact .inl hx
          · right
            rw [List.mem_singleton.mp hx]
            exact hr.2.2.2
      · exact ⟨rfl, hid _ rfl⟩

/-- A thread that has exited is the one the tracer waits for. -/
def Zom (leader : Pid) (w : World) : Prop := ∀ z ∈ w.sys.zombies, z ∉ w.sys.ids ∧ (w.pc = .wait ∧ z = leader ∨ ∃ l, w.pc = .await (z :: l))

theorem fail_zom (leader : Pid) (w : World) : Zom leader w.fail := fun _ h => by cases h

theorem waitFor_zom {leader p : Pid} {w : World} (h : Zom leader w) (next : Pc) (hp : w.pc = .wait ∧ p = leader ∨ ∃ l, w.pc = .await (p :: l)) :
    Zom leader (w.waitFor leader p next) := by
  have hz : ∀ z ∈ w.sys.zombies, z = p := by
    intro z hz
    rcases (h z hz).2 with ⟨h1, h2⟩ | ⟨l, h1⟩ <;> rcases hp with ⟨h3, h4⟩ | ⟨l', h3⟩
    · rw [h2, h4]
    · rw [h1] at h3; cases h3
    · rw [h1] at h3; cases h3
    · rw [h1] at h3; cases h3; rfl
  unfold World.waitFor
  cases ht : w.sys.thread? p with
  | none =>
    dsimp only
    split
    · split
      · exact h
      · exact fun z hz => h z (List.mem_of_mem_erase hz)
    · exact fail_zom leader w
  | some t =>
    obtain ⟨hm, hid⟩ := thread?_some ht
    have hpi : p ∈ w.sys.ids := List.mem_map.mpr ⟨t, hm, hid⟩
    have hn : w.sys.zombies = [] := by
      cases hc : w.sys.zombies with
      | nil => rfl
      | cons a l =>
        have ha : a ∈ w.sys.zombies := by rw [hc]; exact List.mem_cons_self
        exact absurd (hz a ha ▸ hpi) (h a ha).1
    dsimp only
    split
    · intro z hz
      rw [show w.sys.zombies = [] from hn] at hz
      cases hz
    · rename_i s hst
      intro z hz
      simp only [System.cont, hst] at hz
      rw [(deliver_ids _ _ _).2, show w.sys.zombies = [] from hn] at hz
      cases hz
    · rename_i q hst
      intro z hz
      simp only [System.cont, hst] at hz
      rw [show w.sys.zombies = [] from hn] at hz
      cases hz
    · rename_i hst
      intro z hz
      simp only [System.cont, hst] at hz ⊢
      have hzp : z = p := by
        have hz : z ∈ if t.seized then w.sys.zombies ++ [t.id] else w.sys.zombies := hz
        rw [hn] at hz
        split at hz
        · simpa [hid] using hz
        · cases hz
      refine ⟨?_, ?_⟩
      · intro hi
        obtain ⟨u, hu, hui⟩ := List.mem_map.mp hi
        have := (List.mem_filter.mp hu).2
        rw [hui, hzp, hid] at this
        simp at this
      · rw [hzp]
        exact hp
    all_goals exact h

theorem step_zom {leader : Pid} {w : World} (h : Zom leader w) (ho : w.Ok leader) : Zom leader (w.step leader) := by
  have hs := ho.set
  obtain ⟨k, pc, table⟩ := w
  have hno : (¬(pc = .wait) ∧ ¬∃ p l, pc = .await (p :: l)) → k.zombies = [] := by
    rintro ⟨h1, h2⟩
    cases hc : k.zombies with
    | nil => rfl
    | cons a l =>
      rcases (h a (by show a ∈ k.zombies; rw [hc]; exact List.mem_cons_self)).2 with h' | ⟨l', h'⟩
      · exact absurd h'.1 h1
      · exact absurd ⟨a, l', h'⟩ h2
  have hnil : ∀ w' : World, w'.sys.zombies = [] → Zom leader w' := fun w' h z hz => by rw [h] at hz; cases hz
  have hseize : ∀ (p : Pid) (k' : System), k.seize p = some k' → k'.zombies = k.zombies := by
    intro p k' hk
    unfold System.seize at hk
    cases ht : k.thread? p with
    | none => rw [ht] at hk; cases hk
    | some t =>
      rw [ht] at hk
      dsimp only at hk
      split at hk
      · cases hk
      · cases hk; rfl
  unfold World.step
  dsimp only at *
  cases pc with
  | begin =>
    dsimp only
    cases hz : k.seize leader with
    | none => exact fail_zom _ _
    | some k' => exact hnil _ ((hseize _ _ hz).trans (hno (by simp)))
  | stop => exact hnil _ ((send_ids k sigStop none).2.trans (hno (by simp)))
  | wait => exact waitFor_zom h .list (.inl ⟨rfl, rfl⟩)
  | list =>
    dsimp only
    split
    · exact fail_zom _ _
    · exact hnil _ (hno (by simp))
  | seize l =>
    have h0 := hno (by simp)
    cases l with
    | nil => exact hnil _ h0
    | cons p l =>
      dsimp only
      split
      · exact hnil _ h0
      · cases hz : k.seize p with
        | none => exact fail_zom _ _
        | some k' => exact hnil _ ((hseize _ _ hz).trans h0)
  | await l =>
    cases l with
    | nil => exact hnil _ (hno (by simp))
    | cons p l =>
      dsimp only
      split
      · rename_i hp
        refine hnil _ ?_
        show k.zombies = []
        cases hc : k.zombies with
        | nil => rfl
        | cons a m =>
          obtain ⟨ha, hb⟩ := h a (by show a ∈ k.zombies; rw [hc]; exact List.mem_cons_self)
          rcases hb with ⟨h1, -⟩ | ⟨l', h1⟩
          · cases h1
          · injection h1 with h1
            injection h1 with h1 h2
            rw [← h1, hp] at ha
            exact absurd hs.2.1 ha
      · exact waitFor_zom h _ (.inr ⟨l, rfl⟩)
  | interrupt l =>
    have h0 := hno (by simp)
    cases l with
    | nil => exact hnil _ h0
    | cons p l =>
      dsimp only
      cases k.thread? p with
      | none => exact fail_zom _ _
      | some t =>
        dsimp only
        split
        · exact hnil _ h0
        · exact fail_zom _ _
  | resume => exact hnil _ ((send_ids k sigCont none).2.trans (hno (by simp)))
  | returned => exact h
  | failed => exact h

theorem run_zom {leader : Pid} : ∀ (l : List Move) (w : World), w.Ok leader → NoCont l → Zom leader w → Zom leader (run leader w l)
  | [], _, _, _, h => h
  | .event e :: l, w, ho, hc, h => by
    have hev : ({ w with sys := w.sys.event e } : World).Ok leader := run_ok [.event e] w ho fun to hm => hc to (by
      rw [List.mem_singleton.mp hm]; exact List.mem_cons_self)
    refine run_zom l _ hev (fun to hm => hc to (List.mem_cons_of_mem _ hm)) ?_
    intro z hz
    obtain ⟨h1, h2⟩ := event_zombies w.sys e
    have hz' : z ∈ w.sys.zombies := by rw [← h1]; exact hz
    refine ⟨fun hi => ?_, (h z hz').2⟩
    rcases h2 z hi with h3 | h3
    · exact (h z hz').1 h3
    · exact h3 hz'
  | .tracer :: l, w, ho, hc, h => run_zom l _ (step_ok ho) (fun to hm => hc to (List.mem_cons_of_mem _ hm)) (step_zom h ho)

/-- Attaching gives what the session behind it begins with. -/
theorem attach_ready (k : System) (leader : Pid) (l : List Move) (h : k.Untraced) (hc : NoCont l) (hr : (run leader (start k) l).pc = .returned) :
    Ready ⟨true, leader⟩ (run leader (start k) l).sys (run leader (start k) l).table := by
  obtain ⟨h1, h2, h3, -, h5⟩ := C85_attach_partial k leader l h hc hr
  have hn := (run_ok l _ (start_ok (leader := leader) h) hc).nodup
  have hz : (run leader (start k) l).sys.zombies = [] := by
    have := run_zom l _ (start_ok (leader := leader) h) hc (fun z hz => by rw [show (start k).sys.zombies = [] from h.2.1] at hz; cases hz)
    cases hzz : (run leader (start k) l).sys.zombies with
    | nil => rfl
    | cons a m =>
      have := (this a (by rw [hzz]; exact List.mem_cons_self)).2
      rw [hr] at this
      rcases this with ⟨h, -⟩ | ⟨_, h⟩ <;> cases h
  refine ⟨⟨hn, hz, h5, fun s hs hcs => ?_⟩, h1, fun p => ?_, h3, nofun⟩
  · exact C85_delivered_partial k leader l h hc hr s ⟨hs, hcs⟩
  · rw [h2 p]
    exact ⟨fun ⟨t, ht, hp⟩ => List.mem_map.mpr ⟨t, ht, hp⟩, fun hp => by obtain ⟨t, ht, hp⟩ := List.mem_map.mp hp; exact ⟨t, ht, hp⟩⟩

end Ptr.Attach
