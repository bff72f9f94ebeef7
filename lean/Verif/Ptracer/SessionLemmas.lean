import Verif.Ptracer.Session
import Verif.Ptracer.AttachSignals

/-! # The invariant of the tracer behind attaching -/

namespace Ptr.Attach

/-- Of a thread: `tr` tells that the tracer is there, `C` where it may be held without that the tracer has to be told. -/
def Each (tr : Bool) (C : Pid → Prop) (job : Bool) (t : Thread) : Prop :=
  t.seized = tr ∧ (t.seized = false → t.st = .running ∨ t.st = .stopped) ∧ (t.mustStop = true → job = true) ∧ (t.st = .stopped → job = true) ∧
  (t.st = .captured → C t.id)

/-- Of the process: the threads `D` are held, the threads `I` are alive. -/
structure Kin (tr : Bool) (C D I : Pid → Prop) (z : List Pid) (k : System) : Prop where
  nodup : k.ids.Nodup
  zombies : k.zombies = z
  each : ∀ t ∈ k.threads, Each tr C k.job t
  held : ∀ p, D p → ∃ t ∈ k.threads, t.id = p ∧ t.st = .captured
  alive : ∀ p, I p → p ∈ k.ids

variable {tr : Bool} {C D I : Pid → Prop} {z : List Pid} {k : System}

theorem Kin.mono (h : Kin tr C D I z k) {C' D' I' : Pid → Prop} (hc : ∀ t ∈ k.threads, t.st = .captured → C t.id → C' t.id) (hd : ∀ p, D' p → D p)
    (hi : ∀ p, I' p → I p) : Kin tr C' D' I' z k :=
  ⟨h.nodup, h.zombies, fun t ht => ⟨(h.each t ht).1, (h.each t ht).2.1, (h.each t ht).2.2.1, (h.each t ht).2.2.2.1,
    fun hs => hc t ht hs ((h.each t ht).2.2.2.2 hs)⟩, fun p hp => h.held p (hd p hp), fun p hp => h.alive p (hi p hp)⟩

/-- All threads change in the same way, and held ones stay so. -/
theorem Kin.map (h : Kin tr C D I z k) (job : Bool) (f : Thread → Thread) (hf : ∀ t, (f t).id = t.id)
    (he : ∀ t ∈ k.threads, Each tr C k.job t → Each tr C job (f t)) (hc : ∀ t, t.st = .captured → (f t).st = .captured)
    {k' : System} (hj : k'.job = job) (ht : k'.threads = k.threads.map f) (hz : k'.zombies = k.zombies) : Kin tr C D I z k' := by
  have hids : k'.ids = k.ids := by
    unfold System.ids
    rw [ht, List.map_map]
    exact List.map_congr_left fun t _ => hf t
  refine ⟨by rw [hids]; exact h.nodup, by rw [hz]; exact h.zombies, ?_, ?_, fun p hp => by rw [hids]; exact h.alive p hp⟩
  · intro t htm
    rw [ht] at htm
    obtain ⟨u, hu, rfl⟩ := List.mem_map.mp htm
    rw [hj]
    exact he u hu (h.each u hu)
  · intro p hp
    obtain ⟨t, hm, hid, hst⟩ := h.held p hp
    exact ⟨f t, by rw [ht]; exact List.mem_map.mpr ⟨t, hm, rfl⟩, (hf t).trans hid, hc t hst⟩

/-- One thread changes, and stays held if it was. -/
theorem Kin.upd (h : Kin tr C D I z k) {t : Thread} {p : Pid} (htm : t ∈ k.threads) (hp : t.id = p) (f : Thread → Thread) (hf : ∀ t, (f t).id = t.id)
    (he : Each tr C k.job (f t)) (hc : t.st = .captured → (f t).st = .captured)
    {k' : System} (hj : k'.job = k.job) (ht : k'.threads = Attach.upd p f k.threads) (hz : k'.zombies = k.zombies) : Kin tr C D I z k' := by
  have hids : k'.ids = k.ids := by
    unfold System.ids
    rw [ht, upd_ids p f hf]
  refine ⟨by rw [hids]; exact h.nodup, by rw [hz]; exact h.zombies, ?_, ?_, fun p hp => by rw [hids]; exact h.alive p hp⟩
  · rw [ht, hj]
    exact forall_upd h.nodup htm hp f h.each he
  · intro q hq
    obtain ⟨u, hm, hid, hst⟩ := h.held q hq
    refine ⟨if u.id = p then f u else u, by rw [ht]; exact List.mem_map.mpr ⟨u, hm, rfl⟩, ?_, ?_⟩
    · split
      · rw [hf, hid]
      · exact hid
    · split
      · rename_i hup
        have hut := eq_of_id h.nodup hm htm (hup.trans hp.symm)
        rw [hut] at hst ⊢
        exact hc hst
      · exact hst

theorem Kin.groupStop (h : Kin tr C D I z k) : Kin tr C D I z k.groupStop := by
  refine h.map true (fun t => if t.st = .stopped then t else { t with mustStop := true }) ?_ ?_ ?_ rfl rfl rfl
  · intro t; split <;> rfl
  · rintro t _ ⟨h1, h2, h3, h4, h5⟩
    split
    · exact ⟨h1, h2, fun _ => rfl, fun _ => rfl, h5⟩
    · exact ⟨h1, h2, fun _ => rfl, fun _ => rfl, h5⟩
  · intro t ht; split <;> exact ht

theorem Kin.deliver (h : Kin tr C D I z k) (p : Pid) (s : Nat) : Kin tr C D I z (k.deliver p s) := by
  unfold System.deliver
  split
  · exact h.groupStop
  · exact ⟨h.nodup, h.zombies, h.each, h.held, h.alive⟩

theorem Kin.generate (h : Kin tr C D I z k) (s : Nat) : Kin tr C D I z (k.generate s) := by
  unfold System.generate
  split
  · refine h.map false Thread.resume (fun _ => rfl) ?_ ?_ rfl rfl rfl
    · rintro t _ ⟨h1, h2, h3, h4, h5⟩
      unfold Thread.resume Each
      dsimp only
      cases hs : t.st with
      | running => dsimp only; cases hz : t.seized <;> simp_all
      | stopped => dsimp only; cases hz : t.seized <;> simp_all
      | trapped r => dsimp only; cases hz : t.seized <;> simp_all
      | captured => dsimp only; cases hz : t.seized <;> simp_all
    · intro t ht
      simp [Thread.resume, ht]
  · split
    · refine h.map k.job (fun t => { t with pending := t.pending.filter (· ≠ sigCont) }) (fun _ => rfl) ?_ ?_ rfl rfl rfl
      · exact fun _ _ h => h
      · exact fun _ h => h
    · exact h

theorem Kin.queue (h : Kin tr C D I z k) (s : Nat) (to : Option Pid) : Kin tr C D I z (k.queue s to) := by
  cases to with
  | none => exact ⟨h.nodup, h.zombies, h.each, h.held, h.alive⟩
  | some p =>
    simp only [System.queue]
    split
    · rename_i hp
      obtain ⟨t, hm, hp⟩ := List.mem_map.mp hp
      exact h.upd hm hp (fun t => { t with pending := t.pending ++ [s] }) (fun _ => rfl) (h.each t hm) (fun h => h) rfl rfl rfl
    · exact h

theorem Kin.taken (h : Kin tr C D I z k) {t u : Thread} (hm : u ∈ k.threads) (hid : u.id = t.id) (hr : u.st = .running) (hs : u.seized = t.seized) (s : Nat) :
    Kin tr C D I z (k.taken t s) := by
  unfold System.taken
  split
  · rename_i hz
    refine h.upd hm hid (fun t => { t with st := .trapped (.signal s) }) (fun _ => rfl) ?_ ?_ rfl rfl rfl
    · obtain ⟨h1, h2, h3, h4, h5⟩ := h.each u hm
      unfold Each
      simp_all
    · simp [hr]
  · exact h.deliver _ _

theorem Kin.append (h : Kin tr C D I z k) (u : Thread) (hn : u.id ∉ k.ids) (he : Each tr C k.job u) : Kin tr C D I z { k with threads := k.threads ++ [u] } := by
  refine ⟨?_, h.zombies, ?_, ?_, ?_⟩
  · show ((k.threads ++ [u]).map (·.id)).Nodup
    rw [List.map_append, List.nodup_append]
    exact ⟨h.nodup, List.pairwise_singleton .., fun a ha b hb => by
      rw [List.map_singleton, List.mem_singleton] at hb; rintro rfl; rw [hb] at ha; exact hn ha⟩
  · intro t ht
    rcases List.mem_append.mp ht with ht | ht
    · exact h.each t ht
    · rw [List.mem_singleton.mp ht]; exact he
  · intro p hp
    obtain ⟨t, hm, h'⟩ := h.held p hp
    exact ⟨t, List.mem_append_left _ hm, h'⟩
  · intro p hp
    show p ∈ (k.threads ++ [u]).map (·.id)
    rw [List.map_append]
    exact List.mem_append_left _ (h.alive p hp)

/-- A thread is gone that need not be there. -/
theorem Kin.die (h : Kin tr C D I z k) {t : Thread} (hm : t ∈ k.threads) (hst : t.st ≠ .captured) :
    Kin tr C D (fun p => I p ∧ p ≠ t.id) (if t.seized then z ++ [t.id] else z) (k.die t) := by
  refine ⟨(List.filter_sublist.map _).nodup h.nodup, ?_, ?_, ?_, ?_⟩
  · show (if t.seized then k.zombies ++ [t.id] else k.zombies) = _
    rw [h.zombies]
  · intro u hu
    exact h.each u (List.mem_filter.mp hu).1
  · intro p hp
    obtain ⟨u, hu, hid, hs⟩ := h.held p hp
    refine ⟨u, List.mem_filter.mpr ⟨hu, ?_⟩, hid, hs⟩
    rw [decide_eq_true_eq]
    intro he
    rw [eq_of_id h.nodup hu hm he] at hs
    exact hst hs
  · rintro p ⟨hp, hne⟩
    obtain ⟨u, hu, hid⟩ := List.mem_map.mp (h.alive p hp)
    refine List.mem_map.mpr ⟨u, List.mem_filter.mpr ⟨hu, ?_⟩, hid⟩
    rw [decide_eq_true_eq, hid]
    exact hne

/-- `hI`: without a tracer no thread need be there. -/
theorem Kin.event (h : Kin tr C D I z k) (hI : tr = false → ∀ p, ¬I p) (e : Event) : Kin tr C D I z (k.event e) := by
  cases e with
  | send s to => exact (h.generate s).queue s to
  | take p own s =>
    simp only [System.event]
    cases hp : k.thread? p with
    | none => exact h
    | some t =>
      obtain ⟨ht, hid⟩ := thread?_some hp
      dsimp only
      split
      · rename_i hr
        split
        · split
          · have h' : Kin tr C D I z { k with threads := Attach.upd p (fun t => { t with pending := t.pending.erase s }) k.threads } :=
              h.upd ht hid (fun t => { t with pending := t.pending.erase s }) (fun _ => rfl) (h.each t ht) (fun h => h) rfl rfl rfl
            exact h'.taken (u := { t with pending := t.pending.erase s }) (List.mem_map.mpr ⟨t, ht, by rw [if_pos hid]⟩) rfl hr.1 rfl s
          · exact h
        · split
          · exact Kin.taken (k := { k with shared := k.shared.erase s }) ⟨h.nodup, h.zombies, h.each, h.held, h.alive⟩ ht rfl hr.1 rfl s
          · exact h
      · exact h
  | halt p =>
    simp only [System.event]
    cases hp : k.thread? p with
    | none => exact h
    | some t =>
      obtain ⟨ht, hid⟩ := thread?_some hp
      dsimp only
      split
      · rename_i hr
        obtain ⟨h1, h2, h3, h4, h5⟩ := h.each t ht
        refine h.upd ht hid (fun t => { t with mustStop := false, st := if t.seized then .trapped .stop else .stopped }) (fun _ => rfl) ?_ (by simp [hr.1]) rfl rfl rfl
        unfold Each
        cases hz : t.seized <;> simp_all
      · exact h
  | notice p =>
    simp only [System.event]
    cases hp : k.thread? p with
    | none => exact h
    | some t =>
      obtain ⟨ht, hid⟩ := thread?_some hp
      dsimp only
      split
      · rename_i hr
        obtain ⟨h1, h2, h3, h4, h5⟩ := h.each t ht
        refine h.upd ht hid (fun t => { t with st := .trapped .stop }) (fun _ => rfl) ?_ (by simp [hr.1]) rfl rfl rfl
        unfold Each
        simp_all
      · exact h
  | exit p =>
    simp only [System.event]
    cases hp : k.thread? p with
    | none => exact h
    | some t =>
      obtain ⟨ht, hid⟩ := thread?_some hp
      dsimp only
      obtain ⟨h1, h2, h3, h4, h5⟩ := h.each t ht
      split
      · rename_i hr
        split
        · refine h.upd ht hid (fun t => { t with st := .trapped .exit }) (fun _ => rfl) ?_ (by simp [hr]) rfl rfl rfl
          unfold Each
          simp_all
        · rename_i hz
          have hd := h.die ht (by simp [hr])
          rw [if_neg hz] at hd
          have htr : tr = false := by rw [← h1]; simpa using hz
          exact hd.mono (fun _ _ _ h => h) (fun _ h => h) fun p hp => absurd hp (hI htr p)
      · exact h
  | clone p q =>
    simp only [System.event]
    cases hp : k.thread? p with
    | none => exact h
    | some t =>
      obtain ⟨ht, hid⟩ := thread?_some hp
      dsimp only
      obtain ⟨h1, h2, h3, h4, h5⟩ := h.each t ht
      split
      · rename_i hr
        obtain ⟨hr, hm, hq, hz⟩ := hr
        split
        · have h' : Kin tr C D I z { k with threads := Attach.upd p (fun t => { t with st := .trapped (.clone q) }) k.threads } :=
            h.upd ht hid (fun t => { t with st := .trapped (.clone q) }) (fun _ => rfl) (by unfold Each; simp_all) (by simp [hr]) rfl rfl rfl
          refine h'.append _ ?_ ?_
          · show q ∉ (Attach.upd p (fun t => { t with st := .trapped (.clone q) }) k.threads).map (·.id)
            rw [upd_ids p (fun t => { t with st := .trapped (.clone q) }) fun _ => rfl]
            exact hq
          · unfold Each; simp_all
        · refine h.append _ hq ?_
          unfold Each; simp_all
      · exact h

/-- A thread goes on. -/
theorem Kin.runs (h : Kin tr C D I z k) {t : Thread} (hm : t ∈ k.threads) :
    Kin tr (fun p => C p ∧ p ≠ t.id) (fun p => D p ∧ p ≠ t.id) I z { k with threads := Attach.upd t.id (fun t => { t with st := .running }) k.threads } := by
  have hids : ({ k with threads := Attach.upd t.id (fun t => { t with st := .running }) k.threads } : System).ids = k.ids :=
    upd_ids t.id (fun t => { t with st := .running }) (fun _ => rfl) _
  refine ⟨by rw [hids]; exact h.nodup, h.zombies, ?_, ?_, fun p hp => by rw [hids]; exact h.alive p hp⟩
  · intro u hu
    obtain ⟨v, hv, rfl⟩ := List.mem_map.mp hu
    obtain ⟨h1, h2, h3, h4, h5⟩ := h.each v hv
    dsimp only
    split
    · exact ⟨h1, fun _ => .inl rfl, h3, nofun, nofun⟩
    · rename_i hne
      exact ⟨h1, h2, h3, h4, fun h => ⟨h5 h, hne⟩⟩
  · rintro p ⟨hp, hne⟩
    obtain ⟨u, hu, hid, hs⟩ := h.held p hp
    exact ⟨u, List.mem_map.mpr ⟨u, hu, by rw [if_neg (by rw [hid]; exact hne)]⟩, hid, hs⟩

theorem Kin.letGo (h : Kin tr C D I z k) {t : Thread} (hm : t ∈ k.threads) (hst : t.st ≠ .trapped .exit) :
    Kin tr (fun p => C p ∧ p ≠ t.id) (fun p => D p ∧ p ≠ t.id) I z (k.letGo t) := by
  have e : k.letGo t = { k with threads := Attach.upd t.id (fun t => { t with st := .running }) k.threads } := by
    unfold System.letGo
    split
    · rename_i he; exact absurd he hst
    · rfl
  rw [e]
  exact h.runs hm

theorem Kin.cont (h : Kin tr C D I z k) {t : Thread} (hm : t ∈ k.threads) (hst : t.st ≠ .trapped .exit) (s : Nat) :
    Kin tr (fun p => C p ∧ p ≠ t.id) (fun p => D p ∧ p ≠ t.id) I z (k.cont t s) := by
  unfold System.cont
  split
  · exact (h.runs hm).deliver _ _
  · rename_i he; exact absurd he hst
  · exact h.runs hm

theorem Kin.abandon (h : Kin tr C D I z k) : Kin false (fun _ => False) (fun _ => False) (fun _ => False) [] k.abandon := by
  refine ⟨?_, rfl, ?_, fun _ h => h.elim, fun _ h => h.elim⟩
  · show (((k.threads.filter fun t => t.st ≠ .trapped .exit).map (Thread.abandon k.job)).map (·.id)).Nodup
    rw [List.map_map, List.map_congr_left (f := (fun t : Thread => t.id) ∘ Thread.abandon k.job) (g := fun t : Thread => t.id) fun t _ => abandon_id k.job t]
    exact (List.filter_sublist.map _).nodup h.nodup
  · intro u hu
    obtain ⟨t, ht, rfl⟩ := List.mem_map.mp hu
    obtain ⟨ht, hst⟩ := List.mem_filter.mp ht
    obtain ⟨h1, h2, h3, h4, h5⟩ := h.each t ht
    show Each false _ k.job _
    obtain ⟨id, seized, mustStop, st, pending⟩ := t
    unfold Thread.abandon Each
    dsimp only at *
    cases seized
    · rcases h2 rfl with h | h <;> simp_all
    · cases st with
      | trapped r => cases r <;> cases hj : k.job <;> simp_all
      | running => simp_all
      | stopped => simp_all
      | captured => cases hj : k.job <;> simp_all

/-! ## The session -/

def Phase.live : Phase → Bool
  | .ended _ | .crashed => false
  | _ => true

/-- The threads held by the tracer without that it waits for them. -/
def Phase.holds : Phase → Pid → Prop
  | .starting l, p => p ∈ l
  | .release q _, p => p = q
  | _, _ => False

/-- The thread traced. -/
def Phase.traces : Phase → Pid → Prop
  | .release q _, p | .trace q, p | .atomic q, p => p = q
  | _, _ => False

/-- No thread has exited without the tracer being asked. -/
def Phase.early : Phase → Prop
  | .starting _ | .forward | .ended _ | .crashed => True
  | _ => False

def Phase.list : Config → Phase → Prop
  | _, .starting l => l.Nodup
  | c, .release _ l => c.attached = false → l = []
  | _, _ => True

structure Session.Ok (c : Config) (w : Session) : Prop where
  kin : Kin w.phase.live w.phase.holds w.phase.holds w.phase.traces w.sys.zombies w.sys
  zombies : c.attached = false ∨ w.phase.early → w.sys.zombies = []
  list : w.phase.list c

theorem Kin.zeq (h : Kin tr C D I z k) : Kin tr C D I k.zombies k := by rw [h.zombies]; exact h

theorem over_ok {c : Config} {w : Session} (h : Kin tr C D I z w.sys) (code : Nat) : (w.over code).Ok c :=
  ⟨h.abandon, fun _ => rfl, trivial⟩

theorem crash_ok {c : Config} {w : Session} (h : Kin tr C D I z w.sys) : w.crash.Ok c :=
  ⟨h.abandon, fun _ => rfl, trivial⟩

/-- Of a session in which nothing is held. -/
theorem kin_ok {c : Config} {w : Session} (h : Kin true C D I z w.sys) (hl : w.phase.live = true) (hc : ∀ p, C p → w.phase.holds p)
    (hd : ∀ p, w.phase.holds p → D p) (hi : ∀ p, w.phase.traces p → I p) (hz : c.attached = false ∨ w.phase.early → z = []) (hlist : w.phase.list c) : w.Ok c :=
  ⟨by rw [hl]; exact (h.mono (fun t _ _ h => hc _ h) hd hi).zeq, fun he => by rw [h.zombies]; exact hz he, hlist⟩

theorem letGo_zombies {k : System} {t : Thread} (h : t.st ≠ .trapped .exit) : (k.letGo t).zombies = k.zombies := by
  unfold System.letGo
  split
  · rename_i he; exact absurd he h
  · rfl

/-- The thread goes on and the tracer waits again. -/
theorem letGo_ok {c : Config} {w : Session} (h : w.Ok c) (hp : w.phase = .forward ∨ ∃ q, w.phase = .trace q) {t : Thread} (ht : t ∈ w.sys.threads)
    (hst : t.st ≠ .trapped .exit) (table : List Pid) : ({ w with table := table }.letGo t).Ok c := by
  have hl : w.phase.live = true := by rcases hp with hp | ⟨q, hp⟩ <;> rw [hp] <;> rfl
  have hk := h.kin
  rw [hl] at hk
  have hh : ∀ p, ¬w.phase.holds p := by rcases hp with hp | ⟨q, hp⟩ <;> rw [hp] <;> exact fun p h => h
  exact kin_ok (w := { w with table := table }.letGo t) (hk.letGo ht hst) hl (fun p hp => hp.1) (fun p hp => absurd hp (hh p)) (fun p hp => hp) h.zombies h.list

theorem pass_ok {c : Config} {w : Session} (h : w.Ok c) (hp : w.phase = .forward ∨ ∃ q, w.phase = .trace q) {t : Thread} (ht : t ∈ w.sys.threads)
    (hst : t.st ≠ .trapped .exit) (s : Nat) : (w.pass t s).Ok c := by
  have hl : w.phase.live = true := by rcases hp with hp | ⟨q, hp⟩ <;> rw [hp] <;> rfl
  have hk := h.kin
  rw [hl] at hk
  have hh : ∀ p, ¬w.phase.holds p := by rcases hp with hp | ⟨q, hp⟩ <;> rw [hp] <;> exact fun p h => h
  exact kin_ok (w := w.pass t s) (hk.cont ht hst s) hl (fun p hp => hp.1) (fun p hp => absurd hp (hh p)) (fun p hp => hp) h.zombies h.list

/-- The tracer detaches from a thread that exits and is not the one traced. -/
theorem detach_ok {c : Config} {w : Session} (h : w.Ok c) (hp : w.phase = .forward ∨ ∃ q, w.phase = .trace q) {t : Thread} (ht : t ∈ w.sys.threads)
    (hst : t.st = .trapped .exit) (hn : ¬w.phase.traces t.id) (table : List Pid) : ({ w with table := table }.detach t).Ok c := by
  have hl : w.phase.live = true := by rcases hp with hp | ⟨q, hp⟩ <;> rw [hp] <;> rfl
  have hk := h.kin
  rw [hl] at hk
  have hh : ∀ p, ¬w.phase.holds p := by rcases hp with hp | ⟨q, hp⟩ <;> rw [hp] <;> exact fun p h => h
  have hd := hk.die ht (by simp [hst])
  have e : w.sys.detach t = w.sys.die { t with seized := false } := by unfold System.detach; rw [hst]
  refine kin_ok (w := { w with table := table }.detach t) (C := w.phase.holds) (D := w.phase.holds) (I := fun p => w.phase.traces p ∧ p ≠ t.id)
    (z := w.sys.zombies) ?_ hl (fun p hp => hp) (fun p hp => hp) (fun p hp => ⟨hp, fun he => hn (he ▸ hp)⟩) h.zombies h.list
  show Kin _ _ _ _ _ (w.sys.detach t)
  rw [e]
  exact ⟨hd.nodup, rfl, hd.each, hd.held, hd.alive⟩

theorem choose_ok {c : Config} {w : Session} (h : w.Ok c) (hp : w.phase = .forward) {t : Thread} (ht : t ∈ w.sys.threads) : (w.choose c t).Ok c := by
  have hk := h.kin
  rw [hp] at hk
  have hids : (w.choose c t).sys.ids = w.sys.ids := upd_ids t.id (fun t => { t with st := .captured }) (fun _ => rfl) _
  refine ⟨⟨by rw [hids]; exact hk.nodup, rfl, ?_, ?_, ?_⟩, fun _ => h.zombies (by rw [hp]; exact .inr trivial), ?_⟩
  · refine forall_upd hk.nodup ht rfl _ (fun u hu => ?_) ?_
    · obtain ⟨h1, h2, h3, h4, h5⟩ := hk.each u hu
      exact ⟨h1, h2, h3, h4, fun h => (h5 h).elim⟩
    · obtain ⟨h1, h2, h3, h4, h5⟩ := hk.each t ht
      refine ⟨h1, fun h => ?_, h3, nofun, fun _ => rfl⟩
      exact absurd (h1.symm.trans h) (by simp [Phase.live])
  · rintro p (rfl : p = t.id)
    exact ⟨{ t with st := .captured }, List.mem_map.mpr ⟨t, ht, by rw [if_pos rfl]⟩, rfl, rfl⟩
  · rintro p (rfl : p = t.id)
    rw [hids]
    exact List.mem_map.mpr ⟨t, ht, rfl⟩
  · intro ha
    simp [Session.choose, ha]

theorem forwardTold_ok {c : Config} {w : Session} (h : w.Ok c) (hp : w.phase = .forward) {t : Thread} (ht : t ∈ w.sys.threads) : (w.forwardTold c t).Ok c := by
  unfold Session.forwardTold
  cases hs : t.st with
  | trapped r =>
    cases r with
    | clone q =>
      dsimp only
      cases addPid w.table q with
      | none => exact crash_ok h.kin
      | some l => exact letGo_ok h (.inl hp) ht (by simp [hs]) l
    | exit =>
      dsimp only
      split
      · exact detach_ok h (.inl hp) ht hs (by rw [hp]; exact fun h => h) _
      · exact crash_ok h.kin
    | signal s =>
      dsimp only
      split
      · split
        · exact choose_ok h hp ht
        · exact crash_ok h.kin
      · split
        · exact letGo_ok h (.inl hp) ht (by simp [hs]) _
        · exact pass_ok h (.inl hp) ht (by simp [hs]) _
    | stop => exact letGo_ok h (.inl hp) ht (by simp [hs]) _
  | running => exact h
  | stopped => exact h
  | captured => exact h

/-- What is true while the tracer detaches from one thread after the other. -/
structure Loose (k : System) : Prop where
  nodup : k.ids.Nodup
  each : ∀ t ∈ k.threads, (t.seized = false → t.st = .running ∨ t.st = .stopped) ∧ (t.mustStop = true → k.job = true) ∧ (t.st = .stopped → k.job = true)

theorem Loose.detach (h : Loose k) {t : Thread} (ht : t ∈ k.threads) : Loose (k.detach t) := by
  unfold System.detach
  split
  · exact ⟨(List.filter_sublist.map _).nodup h.nodup, fun u hu => h.each u (List.mem_filter.mp hu).1⟩
  · refine ⟨?_, ?_⟩
    · show ((Attach.upd t.id (fun t => { t with seized := false, st := if k.job then .stopped else .running }) k.threads).map (·.id)).Nodup
      rw [upd_ids t.id (fun t => { t with seized := false, st := if k.job then .stopped else .running }) fun _ => rfl]
      exact h.nodup
    · refine forall_upd h.nodup ht rfl _ h.each ?_
      have := h.each t ht
      cases hj : k.job <;> simp_all

theorem Loose.abandon (h : Loose k) : Kin false (fun _ => False) (fun _ => False) (fun _ => False) [] k.abandon := by
  refine ⟨?_, rfl, ?_, fun _ h => h.elim, fun _ h => h.elim⟩
  · show (((k.threads.filter fun t => t.st ≠ .trapped .exit).map (Thread.abandon k.job)).map (·.id)).Nodup
    rw [List.map_map, List.map_congr_left (f := (fun t : Thread => t.id) ∘ Thread.abandon k.job) (g := fun t : Thread => t.id) fun t _ => abandon_id k.job t]
    exact (List.filter_sublist.map _).nodup h.nodup
  · intro u hu
    obtain ⟨t, ht, rfl⟩ := List.mem_map.mp hu
    obtain ⟨ht, hst⟩ := List.mem_filter.mp ht
    obtain ⟨h2, h3, h4⟩ := h.each t ht
    show Each false _ k.job _
    obtain ⟨id, seized, mustStop, st, pending⟩ := t
    unfold Thread.abandon Each
    dsimp only at *
    cases seized
    · rcases h2 rfl with h | h <;> simp_all
    · cases st with
      | trapped r => cases r <;> cases hj : k.job <;> simp_all
      | running => simp_all
      | stopped => simp_all
      | captured => cases hj : k.job <;> simp_all

theorem Kin.loose (h : Kin tr C D I z k) : Loose k := ⟨h.nodup, fun t ht => ⟨(h.each t ht).2.1, (h.each t ht).2.2.1, (h.each t ht).2.2.2.1⟩⟩

theorem detachAll_loose : ∀ (l : List Pid) (w : Session), Loose w.sys → Loose (w.detachAll l).sys
  | [], _, h => h
  | p :: l, w, h => by
    unfold Session.detachAll
    cases hp : w.sys.thread? p with
    | none => exact detachAll_loose l w h
    | some t =>
      dsimp only
      split
      · exact detachAll_loose l _ (h.detach (thread?_some hp).1)
      · exact detachAll_loose l w h

/-- The traced thread is at an atomic sequence. -/
theorem atomic_ok {c : Config} {w : Session} (h : w.Ok c) {t : Thread} (hp : w.phase = .trace t.id ∨ w.phase = .atomic t.id) (ht : t ∈ w.sys.threads)
    (hst : t.st ≠ .trapped .exit) {p : Phase} (hq : p = .trace t.id ∨ p = .atomic t.id) : ({ w.letGo t with phase := p } : Session).Ok c := by
  have hk := h.kin
  have hz := h.zombies
  have hl : w.phase.live = true ∧ (∀ p, ¬w.phase.holds p) ∧ (∀ p, w.phase.traces p ↔ p = t.id) ∧ (w.phase.early ↔ False) := by
    rcases hp with hp | hp <;> rw [hp] <;> exact ⟨rfl, fun p h => h, fun p => Iff.rfl, Iff.rfl⟩
  rw [hl.1] at hk
  rw [hl.2.2.2] at hz
  have hg := hk.letGo ht hst
  rcases hq with rfl | rfl
  · exact kin_ok (w := { w.letGo t with phase := .trace t.id }) hg rfl (fun p hp => (hl.2.1 p hp.1).elim) (fun p h => h.elim) (fun p hp => (hl.2.2.1 p).mpr hp)
      hz trivial
  · exact kin_ok (w := { w.letGo t with phase := .atomic t.id }) hg rfl (fun p hp => (hl.2.1 p hp.1).elim) (fun p h => h.elim) (fun p hp => (hl.2.2.1 p).mpr hp)
      hz trivial

theorem own_ok {c : Config} {w : Session} (h : w.Ok c) {t : Thread} (hp : w.phase = .trace t.id) (ht : t ∈ w.sys.threads) (hst : t.st ≠ .trapped .exit) (x : Look) :
    (w.own t x).Ok c := by
  unfold Session.own
  split
  · exact atomic_ok h (.inl hp) ht hst (.inr rfl)
  · split
    · exact ⟨(detachAll_loose _ _ h.kin.loose).abandon, fun _ => rfl, trivial⟩
    · split
      · split
        · exact letGo_ok h (.inr ⟨_, hp⟩) ht hst _
        · exact pass_ok h (.inr ⟨_, hp⟩) ht hst _
      · exact letGo_ok h (.inr ⟨_, hp⟩) ht hst _

theorem traceTold_ok {c : Config} {w : Session} (h : w.Ok c) {q : Pid} (hp : w.phase = .trace q) {t : Thread} (ht : t ∈ w.sys.threads) (x : Look) :
    (w.traceTold q t x).Ok c := by
  unfold Session.traceTold
  cases hs : t.st with
  | trapped r =>
    cases r with
    | clone q => exact letGo_ok h (.inr ⟨_, hp⟩) ht (by simp [hs]) _
    | exit =>
      dsimp only
      split
      · exact over_ok (w := { w with table := removePid w.table t.id }) h.kin 0
      · rename_i hne
        exact detach_ok h (.inr ⟨_, hp⟩) ht hs (by rw [hp]; exact hne) _
    | signal s =>
      dsimp only
      split
      · exact letGo_ok h (.inr ⟨_, hp⟩) ht (by simp [hs]) _
      · split
        · rename_i he
          exact own_ok h (by rw [hp, he]) ht (by simp [hs]) x
        · split
          · exact letGo_ok h (.inr ⟨_, hp⟩) ht (by simp [hs]) _
          · exact pass_ok h (.inr ⟨_, hp⟩) ht (by simp [hs]) _
    | stop =>
      dsimp only
      split
      · rename_i he
        exact own_ok h (by rw [hp, he]) ht (by simp [hs]) x
      · exact letGo_ok h (.inr ⟨_, hp⟩) ht (by simp [hs]) _
  | running => exact h
  | stopped => exact h
  | captured => exact h

theorem atomicTold_ok {c : Config} {w : Session} (h : w.Ok c) {t : Thread} (hp : w.phase = .atomic t.id) (ht : t ∈ w.sys.threads) : (w.atomicTold t).Ok c := by
  unfold Session.atomicTold
  cases hs : t.st with
  | trapped r =>
    cases r with
    | signal s =>
      dsimp only
      split
      · exact atomic_ok h (.inr hp) ht (by simp [hs]) (.inl rfl)
      · exact over_ok h.kin 1
    | _ => exact over_ok h.kin 1
  | running => exact h
  | stopped => exact h
  | captured => exact h

theorem gone_ok {c : Config} {w : Session} (h : w.Ok c) (p : Pid) : (w.gone c p).Ok c := by
  unfold Session.gone
  split
  · split
    · exact h
    · exact over_ok h.kin 1
  · split
    · exact over_ok h.kin 1
    · exact h

theorem report_ok {c : Config} {w : Session} (h : w.Ok c) (p : Pid) (x : Look) : (w.report c p x).Ok c := by
  unfold Session.report
  cases hp : w.phase with
  | forward =>
    dsimp only
    cases ht : w.sys.thread? p with
    | none => exact gone_ok h p
    | some t => exact forwardTold_ok h hp (thread?_some ht).1
  | trace q =>
    dsimp only
    cases ht : w.sys.thread? p with
    | none => exact gone_ok h p
    | some t => exact traceTold_ok h hp (thread?_some ht).1 x
  | atomic q =>
    dsimp only
    split
    · rename_i he
      cases ht : w.sys.thread? p with
      | none => exact over_ok h.kin 1
      | some t =>
        obtain ⟨hm, hid⟩ := thread?_some ht
        exact atomicTold_ok h (by rw [hp, hid, he]) hm
    · exact h
  | starting l => exact h
  | release q l => exact h
  | ended n => exact h
  | crashed => exact h

theorem held_thread {C D I : Pid → Prop} {z : List Pid} {k : System} (h : Kin tr C D I z k) {p : Pid} (hp : D p) {t : Thread} (ht : k.thread? p = some t) :
    t.st = .captured := by
  obtain ⟨hm, hid⟩ := thread?_some ht
  obtain ⟨u, hu, hid', hs⟩ := h.held p hp
  rw [eq_of_id h.nodup hm hu (hid.trans hid'.symm)]
  exact hs

theorem next_ok {c : Config} {w : Session} (h : w.Ok c) : w.next.Ok c := by
  have hk := h.kin
  have hz := h.zombies
  have hli := h.list
  unfold Session.next
  cases hp : w.phase with
  | starting l =>
    rw [hp] at hk hz hli
    cases l with
    | nil => exact kin_ok (w := { w with phase := .forward }) hk rfl (fun p hp => (by cases hp)) (fun p h => h.elim) (fun p h => h.elim) (fun _ => hz (.inr trivial)) trivial
    | cons p l =>
      dsimp only
      cases ht : w.sys.thread? p with
      | none => exact over_ok hk 1
      | some t =>
        obtain ⟨hm, hid⟩ := thread?_some ht
        have hs := held_thread hk (List.mem_cons_self : p ∈ p :: l) ht
        dsimp only
        rw [hs, if_pos (show St.captured.held? = true from rfl)]
        have hn := List.nodup_cons.mp hli
        refine kin_ok (w := { w.letGo t with phase := .starting l }) (hk.letGo hm (by simp [hs])) rfl ?_ ?_ (fun p h => h.elim) (fun _ => hz (.inr trivial)) hn.2
        · rintro q ⟨hq, hne⟩
          exact (List.mem_cons.mp hq).resolve_left (fun he => hne (he.trans hid.symm))
        · intro q hq
          exact ⟨List.mem_cons_of_mem _ hq, fun he => hn.1 (by rw [← hid, ← he]; exact hq)⟩
  | release q l =>
    rw [hp] at hk hz hli
    cases l with
    | nil =>
      dsimp only
      cases ht : w.sys.thread? q with
      | none => exact over_ok hk 1
      | some t =>
        obtain ⟨hm, hid⟩ := thread?_some ht
        have hs := held_thread hk (rfl : q = q) ht
        dsimp only
        rw [hs, if_pos (show St.captured.held? = true from rfl)]
        exact kin_ok (w := { w.letGo t with phase := .trace q }) (hk.letGo hm (by simp [hs])) rfl (fun p hp => hp.2 ((hp.1 : p = q).trans hid.symm))
          (fun p h => h.elim) (fun p h => h) (fun he => hz (he.imp id fun h => h)) trivial
    | cons p l =>
      have ha : c.attached = true := by
        cases ha : c.attached with
        | true => rfl
        | false => exact absurd (hli ha) (by simp)
      have hok : ∀ {C D I : Pid → Prop} {z : List Pid} {w' : Session}, Kin true C D I z w'.sys → w'.phase = .release q l → (∀ p, C p → p = q) → D q → I q → w'.Ok c := by
        intro C D I z w' h hp' hc hd hi
        refine kin_ok h (by rw [hp']; rfl) (by rw [hp']; exact hc) (by rw [hp']; rintro p (rfl : p = q); exact hd) (by rw [hp']; rintro p (rfl : p = q); exact hi)
          (fun he => ?_) (by rw [hp']; intro h; rw [ha] at h; cases h)
        rw [hp', ha] at he
        rcases he with he | he
        · cases he
        · exact he.elim
      dsimp only
      split
      · exact hok (w' := { w with phase := .release q l }) hk rfl (fun p h => h) rfl rfl
      · rename_i hne
        cases ht : w.sys.thread? p with
        | none => exact hok (w' := { w with phase := .release q l }) hk rfl (fun p h => h) rfl rfl
        | some t =>
          obtain ⟨hm, hid⟩ := thread?_some ht
          dsimp only
          split
          · by_cases hx : t.st = .trapped .exit
            · have hd := hk.die hm (by simp [hx])
              have e : w.sys.letGo t = w.sys.die t := by unfold System.letGo; rw [hx]
              refine hok (w' := { w.letGo t with phase := .release q l }) (C := (Phase.release q (p :: l)).holds) (D := (Phase.release q (p :: l)).holds)
                (I := fun p' => p' = q ∧ p' ≠ t.id) (z := if t.seized then w.sys.zombies ++ [t.id] else w.sys.zombies) ?_ rfl (fun p h => h) rfl
                ⟨rfl, fun he => hne (hid.symm.trans he.symm)⟩
              show Kin _ _ _ _ _ (w.sys.letGo t)
              rw [e]
              exact hd
            · exact hok (w' := { w.letGo t with phase := .release q l }) (hk.letGo hm hx) rfl (fun p h => h.1) ⟨rfl, fun he => hne (hid.symm.trans he.symm)⟩ rfl
          · exact hok (w' := { w with phase := .release q l }) hk rfl (fun p h => h) rfl rfl
  | forward => exact h
  | trace q => exact h
  | atomic q => exact h
  | ended n => exact h
  | crashed => exact h

theorem stepped_ok {c : Config} {w : Session} (h : w.Ok c) : w.stepped.Ok c := by
  unfold Session.stepped
  split
  · exact h
  · rename_i q s hq
    cases ht : w.sys.thread? q with
    | none => exact h
    | some t =>
      obtain ⟨hm, hid⟩ := thread?_some ht
      dsimp only
      split
      · rename_i hr
        refine ⟨h.kin.upd hm hid (fun t => { t with st := .trapped (.signal s) }) (fun _ => rfl) ?_ (by simp [hr.1]) rfl rfl rfl, h.zombies, h.list⟩
        obtain ⟨h1, h2, h3, h4, h5⟩ := h.kin.each t hm
        have hl : w.phase.live = true := by
          cases hp : w.phase <;> rw [hp] at hq <;> first | rfl | cases hq
        unfold Each
        simp_all
      · exact h

theorem turn_ok {c : Config} {w : Session} (h : w.Ok c) (m : Turn) : (w.turn c m).Ok c := by
  cases m with
  | event e =>
    have hk := h.kin.event (by cases hp : w.phase <;> simp [Phase.live, Phase.traces]) e
    exact ⟨hk.zeq, fun he => by rw [show (w.turn c (.event e)).sys.zombies = w.sys.zombies from hk.zombies]; exact h.zombies he, h.list⟩
  | stepped => exact stepped_ok h
  | report p x => exact report_ok h p x
  | next => exact next_ok h

theorem session_ok {c : Config} : ∀ (l : List Turn) (w : Session), w.Ok c → (session c w l).Ok c
  | [], _, h => h
  | m :: l, w, h => session_ok l _ (turn_ok h m)

/-- What attaching or starting a program has to give. -/
structure Ready (c : Config) (k : System) (table : List Pid) : Prop where
  attached : k.Attached
  nodup : table.Nodup
  all : ∀ p, p ∈ table ↔ p ∈ k.ids
  leader : c.leader ∈ table
  single : c.attached = false → table = [c.leader]

theorem begin_ok {c : Config} {k : System} {table : List Pid} (h : Ready c k table) (skip : Bool) : (begin_ c skip k table).Ok c := by
  obtain ⟨⟨hn, hz, he, -⟩, hnd, hall, hl, hs⟩ := h
  have hkin : ∀ P I : Pid → Prop, (∀ p ∈ k.ids, P p) → (∀ p, P p → p ∈ k.ids) → (∀ p, I p → p ∈ k.ids) → Kin true P P I k.zombies k := by
    intro P I h1 h2 h3
    refine ⟨hn, rfl, fun t ht => ?_, fun p hp => ?_, h3⟩
    · obtain ⟨h4, h5, h6⟩ := he t ht
      exact ⟨h4, by simp [h4], by simp [h6], by simp [h5], fun _ => h1 _ (List.mem_map.mpr ⟨t, ht, rfl⟩)⟩
    · obtain ⟨t, ht, hid⟩ := List.mem_map.mp (h2 p hp)
      exact ⟨t, ht, hid, (he t ht).2.1⟩
  unfold begin_
  split
  · exact ⟨hkin _ _ (fun p hp => (hall p).mpr hp) (fun p hp => (hall p).mp hp) fun _ h => h.elim, fun _ => hz, hnd⟩
  · rename_i hc
    have h1 : ∀ p ∈ table, p = c.leader := by
      intro p hp
      cases ha : c.attached with
      | false => rw [hs ha] at hp; simpa using hp
      | true =>
        have hlen : table.length ≤ 1 := by
          rcases Nat.lt_or_ge 1 table.length with h | h
          · exact absurd (.inr ⟨ha, h⟩) hc
          · exact h
        match table, hlen, hl, hp with
        | [a], _, hl, hp => rw [List.mem_singleton.mp hl, List.mem_singleton.mp hp]
    refine ⟨hkin _ _ (fun p hp => h1 p ((hall p).mpr hp)) ?_ ?_, fun _ => hz, fun ha => by simp [ha]⟩
    · rintro p (rfl : p = c.leader); exact (hall _).mp hl
    · rintro p (rfl : p = c.leader); exact (hall _).mp hl

end Ptr.Attach
