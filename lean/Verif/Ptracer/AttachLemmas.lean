import Verif.Ptracer.Attach

/-! # The invariant of attaching -/

namespace Ptr.Attach

/-! ## Lists of threads -/

theorem thread?_some {k : System} {p : Pid} {t : Thread} (h : k.thread? p = some t) : t ∈ k.threads ∧ t.id = p := by
  unfold System.thread? at h
  exact ⟨List.mem_of_find?_eq_some h, by simpa using List.find?_some h⟩

theorem thread?_none {k : System} {p : Pid} : k.thread? p = none ↔ p ∉ k.ids := by
  unfold System.thread? System.ids
  simp only [List.find?_eq_none, List.mem_map, not_exists, not_and, decide_eq_true_eq]

theorem eq_of_id {l : List Thread} (hn : (l.map (·.id)).Nodup) {t u : Thread} (ht : t ∈ l) (hu : u ∈ l) (h : t.id = u.id) : t = u := by
  induction l with
  | nil => cases ht
  | cons a l ih =>
    rw [List.map_cons, List.nodup_cons] at hn
    rcases List.mem_cons.mp ht with ht' | ht' <;> rcases List.mem_cons.mp hu with hu' | hu'
    · rw [ht', hu']
    · subst ht'; exact absurd (List.mem_map.mpr ⟨u, hu', h.symm⟩ : t.id ∈ l.map (·.id)) hn.1
    · subst hu'; exact absurd (List.mem_map.mpr ⟨t, ht', h⟩ : u.id ∈ l.map (·.id)) hn.1
    · exact ih hn.2 ht' hu'

theorem thread?_mem {k : System} (hn : k.ids.Nodup) {t : Thread} (ht : t ∈ k.threads) : k.thread? t.id = some t := by
  cases h : k.thread? t.id with
  | none => exact absurd (List.mem_map.mpr ⟨t, ht, rfl⟩) (thread?_none.mp h)
  | some u =>
    obtain ⟨hu, he⟩ := thread?_some h
    rw [eq_of_id hn hu ht he]

theorem upd_ids (p : Pid) (f : Thread → Thread) (hf : ∀ t, (f t).id = t.id) (l : List Thread) : (upd p f l).map (·.id) = l.map (·.id) := by
  unfold upd
  rw [List.map_map]
  apply List.map_congr_left
  intro t _
  show (if t.id = p then f t else t).id = t.id
  split
  · exact hf t
  · rfl

theorem forall_upd {l : List Thread} (hn : (l.map (·.id)).Nodup) {p : Pid} {t : Thread} (ht : t ∈ l) (hp : t.id = p) (f : Thread → Thread)
    {P : Thread → Prop} (h : ∀ u ∈ l, P u) (hft : P (f t)) : ∀ u ∈ upd p f l, P u := by
  intro u hu
  unfold upd at hu
  obtain ⟨v, hv, rfl⟩ := List.mem_map.mp hu
  by_cases hvp : v.id = p
  · rw [if_pos hvp]
    rw [eq_of_id hn hv ht (hvp.trans hp.symm)]
    exact hft
  · rw [if_neg hvp]
    exact h v hv

/-! ## The invariant -/

/-- Of every thread at any time. -/
def Good (job : Bool) (t : Thread) : Prop :=
  (t.seized = false → t.st = .running ∨ t.st = .stopped) ∧
  (t.mustStop = true → job = true) ∧ (t.st = .stopped → job = true) ∧
  (job = true → t.mustStop = true ∨ t.st = .stopped ∨ t.st = .captured ∨ t.st = .trapped .stop ∨ t.st = .trapped .exit)

/-- Of every thread when the tracer is somewhere. -/
def PhaseT (leader : Pid) (job : Bool) : Pc → Thread → Prop
  | .begin, t => t.seized = false
  | .stop, t | .wait, t => t.st ≠ .captured ∧ (t.id = leader → t.seized = true) ∧ (t.id = leader → t.st = .trapped .stop → job = true)
  | .list, t => t.id = leader → t.st = .captured
  | .seize l, t => (t.id = leader → t.st = .captured) ∧ (t.id ∉ l → t.seized = true)
  | .await l, t => (t.id = leader → t.st = .captured) ∧ t.seized = true ∧ (t.id ∉ l → t.st = .captured)
  | .interrupt _, t | .resume, t => t.seized = true ∧ t.st = .captured
  | .returned, t => t.seized = true ∧ t.st = .captured ∧ t.mustStop = false
  | .failed, t => t.seized = false

/-- Of the ids. -/
def PhaseS (leader : Pid) (job : Bool) (ids zombies table : List Pid) : Pc → Prop
  | .begin => zombies = [] ∧ table = []
  | .stop | .wait => (leader ∈ ids ∨ leader ∈ zombies ∨ ids = []) ∧ table = []
  | .list => job = true ∧ leader ∈ ids ∧ table = []
  | .seize _ => job = true ∧ leader ∈ ids ∧ table.Nodup ∧ ∀ p ∈ ids, p ∈ table
  | .await l => job = true ∧ leader ∈ ids ∧ table.Nodup ∧ (∀ p ∈ ids, p ∈ table) ∧ ∀ p ∈ table, p ∉ l → p ∈ ids
  | .interrupt _ | .resume => job = true ∧ leader ∈ ids ∧ table.Nodup ∧ (∀ p ∈ ids, p ∈ table) ∧ ∀ p ∈ table, p ∈ ids
  | .returned => leader ∈ ids ∧ table.Nodup ∧ (∀ p ∈ ids, p ∈ table) ∧ (∀ p ∈ table, p ∈ ids) ∧ job = false
  | .failed => table ≠ [] → job = true

structure Inv (leader : Pid) (job : Bool) (threads : List Thread) (zombies : List Pid) (pc : Pc) (table : List Pid) : Prop where
  nodup : (threads.map (·.id)).Nodup
  good : ∀ t ∈ threads, Good job t
  each : ∀ t ∈ threads, PhaseT leader job pc t
  set : PhaseS leader job (threads.map (·.id)) zombies table pc

def World.Ok (leader : Pid) (w : World) : Prop := Inv leader w.sys.job w.sys.threads w.sys.zombies w.pc w.table

section
variable {leader : Pid} {job : Bool} {threads : List Thread} {zombies : List Pid} {pc : Pc} {table : List Pid}

theorem Inv.upd (h : Inv leader job threads zombies pc table) {p : Pid} {t : Thread} (ht : t ∈ threads) (hp : t.id = p) (f : Thread → Thread)
    (hf : ∀ t, (f t).id = t.id) (hg : Good job (f t)) (he : PhaseT leader job pc (f t)) : Inv leader job (upd p f threads) zombies pc table :=
  ⟨by rw [upd_ids p f hf]; exact h.nodup, forall_upd h.nodup ht hp f h.good hg, forall_upd h.nodup ht hp f h.each he,
    by rw [upd_ids p f hf]; exact h.set⟩

theorem Inv.map (h : Inv leader job threads zombies pc table) (job' : Bool) (f : Thread → Thread) (hf : ∀ t, (f t).id = t.id)
    (hg : ∀ t ∈ threads, Good job' (f t)) (he : ∀ t ∈ threads, PhaseT leader job' pc (f t))
    (hs : PhaseS leader job (threads.map (·.id)) zombies table pc → PhaseS leader job' (threads.map (·.id)) zombies table pc) :
    Inv leader job' (threads.map f) zombies pc table := by
  have e : (threads.map f).map (·.id) = threads.map (·.id) := by
    rw [List.map_map]
    exact List.map_congr_left fun t _ => hf t
  refine ⟨by rw [e]; exact h.nodup, ?_, ?_, by rw [e]; exact hs h.set⟩
  · intro u hu
    obtain ⟨t, ht, rfl⟩ := List.mem_map.mp hu
    exact hg t ht
  · intro u hu
    obtain ⟨t, ht, rfl⟩ := List.mem_map.mp hu
    exact he t ht

end

/-- What `Good` and `PhaseT` look at. -/
theorem Good.congr {job : Bool} {t u : Thread} (h : Good job t) (hs : u.seized = t.seized) (hm : u.mustStop = t.mustStop) (hst : u.st = t.st) : Good job u := by
  unfold Good at *
  rw [hs, hm, hst]
  exact h

theorem PhaseT.congr {leader : Pid} {job : Bool} {pc : Pc} {t u : Thread} (h : PhaseT leader job pc t) (hi : u.id = t.id) (hs : u.seized = t.seized)
    (hm : u.mustStop = t.mustStop) (hst : u.st = t.st) : PhaseT leader job pc u := by
  cases pc <;> simp only [PhaseT] at * <;> simp only [hi, hs, hm, hst] <;> exact h

theorem groupStop_ok {leader : Pid} {k : System} {pc : Pc} {table : List Pid} (h : Inv leader k.job k.threads k.zombies pc table)
    (hpc : pc ≠ .returned) : Inv leader k.groupStop.job k.groupStop.threads k.groupStop.zombies pc table := by
  show Inv leader true (k.threads.map _) k.zombies pc table
  refine h.map true _ ?_ ?_ ?_ ?_
  · intro t; show (if t.st = .stopped then t else { t with mustStop := true }).id = t.id; split <;> rfl
  · intro t ht
    have hg := h.good t ht
    unfold Good at *
    split
    · grind
    · grind
  · intro t ht
    have he := h.each t ht
    split
    · cases pc <;> simp only [PhaseT] at * <;> grind
    · cases pc <;> simp only [PhaseT] at * <;> grind
  · intro hs
    cases pc <;> simp only [PhaseS] at * <;> grind

theorem deliver_ok {leader : Pid} {k : System} {pc : Pc} {table : List Pid} (h : Inv leader k.job k.threads k.zombies pc table)
    (hpc : pc ≠ .returned) (p : Pid) (s : Nat) : Inv leader (k.deliver p s).job (k.deliver p s).threads (k.deliver p s).zombies pc table := by
  unfold System.deliver
  split
  · exact groupStop_ok h hpc
  · exact h

theorem queue_ok {leader : Pid} {k : System} {pc : Pc} {table : List Pid} (h : Inv leader k.job k.threads k.zombies pc table) (s : Nat)
    (to : Option Pid) : Inv leader (k.queue s to).job (k.queue s to).threads (k.queue s to).zombies pc table := by
  cases to with
  | none => exact h
  | some p =>
    simp only [System.queue]
    split
    · rename_i hp
      obtain ⟨t, hm, hp⟩ := List.mem_map.mp hp
      exact h.upd hm hp _ (fun _ => rfl) ((h.good t hm).congr rfl rfl rfl) ((h.each t hm).congr rfl rfl rfl rfl)
    · exact h

/-- A signal other than `SIGCONT` is sent. -/
theorem send_ok {leader : Pid} {k : System} {pc : Pc} {table : List Pid} (h : Inv leader k.job k.threads k.zombies pc table) (s : Nat) (hs : s ≠ sigCont)
    (to : Option Pid) : Inv leader (k.send s to).job (k.send s to).threads (k.send s to).zombies pc table := by
  unfold System.send
  apply queue_ok
  unfold System.generate
  rw [if_neg hs]
  split
  · exact h.map k.job _ (fun _ => rfl) (fun t ht => (h.good t ht).congr rfl rfl rfl) (fun t ht => (h.each t ht).congr rfl rfl rfl rfl) id
  · exact h

theorem die_ok {leader : Pid} {k : System} {pc : Pc} {table : List Pid} (h : Inv leader k.job k.threads k.zombies pc table) {t : Thread}
    (ht : t ∈ k.threads) (hc : t.st ≠ .captured) : Inv leader (k.die t).job (k.die t).threads (k.die t).zombies pc table := by
  have hid : ∀ p, p ∈ (k.threads.filter fun u => u.id ≠ t.id).map (·.id) ↔ p ∈ k.threads.map (·.id) ∧ p ≠ t.id := by
    intro p
    simp only [List.mem_map, List.mem_filter, decide_eq_true_eq]
    constructor
    · rintro ⟨u, ⟨hu, hne⟩, rfl⟩; exact ⟨⟨u, hu, rfl⟩, hne⟩
    · rintro ⟨⟨u, hu, rfl⟩, hne⟩; exact ⟨u, ⟨hu, hne⟩, rfl⟩
  refine ⟨?_, fun u hu => h.good u (List.mem_filter.mp hu).1, fun u hu => h.each u (List.mem_filter.mp hu).1, ?_⟩
  · exact (List.filter_sublist.map _).nodup h.nodup
  · have hs := h.set
    have he := h.each t ht
    have hmem : t.id ∈ k.threads.map (·.id) := List.mem_map.mpr ⟨t, ht, rfl⟩
    show PhaseS leader k.job ((k.threads.filter fun u => u.id ≠ t.id).map (·.id)) (if t.seized then k.zombies ++ [t.id] else k.zombies) table pc
    generalize (k.threads.filter fun u => u.id ≠ t.id).map (·.id) = ids' at *
    generalize k.threads.map (·.id) = ids at *
    cases pc with
    | begin => simp only [PhaseS, PhaseT] at *; rw [he]; exact hs
    | stop | wait =>
      simp only [PhaseS, PhaseT] at *
      refine ⟨?_, hs.2⟩
      rcases hs.1 with hl | hl | hl
      · by_cases hlt : leader = t.id
        · rw [he.2.1 hlt.symm, if_pos rfl]
          exact .inr (.inl (List.mem_append_right _ (by rw [hlt]; exact List.mem_singleton.mpr rfl)))
        · exact .inl ((hid leader).mpr ⟨hl, hlt⟩)
      · refine .inr (.inl ?_)
        split
        · exact List.mem_append_left _ hl
        · exact hl
      · rw [hl] at hmem; cases hmem
    | _ => simp only [PhaseS, PhaseT] at *; grind

theorem taken_ok {leader : Pid} {k : System} {pc : Pc} {table : List Pid} (h : Inv leader k.job k.threads k.zombies pc table) {t u : Thread}
    (ht : t ∈ k.threads) (hid : t.id = u.id) (hsz : t.seized = u.seized) (hr : t.st = .running) (hm : t.mustStop = false) (s : Nat) :
    Inv leader (k.taken u s).job (k.taken u s).threads (k.taken u s).zombies pc table := by
  have hg := h.good t ht
  have he := h.each t ht
  unfold System.taken
  split
  · refine h.upd ht hid _ (fun _ => rfl) ?_ ?_
    · unfold Good at *; grind
    · cases pc <;> simp only [PhaseT] at * <;> grind
  · refine deliver_ok h ?_ _ _
    rintro rfl
    rw [he.2.1] at hr
    cases hr

theorem Inv.append {leader : Pid} {job : Bool} {threads : List Thread} {zombies : List Pid} {pc : Pc} {table : List Pid}
    (h : Inv leader job threads zombies pc table) (t : Thread) (hn : t.id ∉ threads.map (·.id)) (hg : Good job t) (he : PhaseT leader job pc t)
    (hs : PhaseS leader job (threads.map (·.id) ++ [t.id]) zombies table pc) : Inv leader job (threads ++ [t]) zombies pc table := by
  refine ⟨?_, ?_, ?_, ?_⟩
  · rw [List.map_append, List.nodup_append]
    exact ⟨h.nodup, List.pairwise_singleton .., fun a ha b hb => by rw [List.map_singleton, List.mem_singleton] at hb; rintro rfl; rw [hb] at ha; exact hn ha⟩
  · intro u hu
    rcases List.mem_append.mp hu with hu | hu
    · exact h.good u hu
    · rw [List.mem_singleton.mp hu]; exact hg
  · intro u hu
    rcases List.mem_append.mp hu with hu | hu
    · exact h.each u hu
    · rw [List.mem_singleton.mp hu]; exact he
  · rw [List.map_append]; exact hs

theorem event_ok {leader : Pid} {k : System} {pc : Pc} {table : List Pid} (h : Inv leader k.job k.threads k.zombies pc table) (e : Event)
    (hc : ∀ to, e ≠ .send sigCont to) : Inv leader (k.event e).job (k.event e).threads (k.event e).zombies pc table := by
  cases e with
  | send s to => exact send_ok h s (fun hs => hc to (by rw [hs])) to
  | take p own s =>
    simp only [System.event]
    cases hp : k.thread? p with
    | none => exact h
    | some t =>
      obtain ⟨ht, hid⟩ := thread?_some hp
      dsimp only
      split
      · rename_i hr
        split
        · split
          · have h' : Inv leader k.job (upd p (fun t => { t with pending := t.pending.erase s }) k.threads) k.zombies pc table :=
              h.upd ht hid _ (fun _ => rfl) ((h.good t ht).congr rfl rfl rfl) ((h.each t ht).congr rfl rfl rfl rfl)
            have ht' : { t with pending := t.pending.erase s } ∈ upd p (fun t => { t with pending := t.pending.erase s }) k.threads :=
              List.mem_map.mpr ⟨t, ht, by rw [if_pos hid]⟩
            exact taken_ok (k := { k with threads := upd p (fun t => { t with pending := t.pending.erase s }) k.threads }) h' ht' rfl rfl hr.1 hr.2 s
          · exact h
        · split
          · exact taken_ok (k := { k with shared := k.shared.erase s }) h ht rfl rfl hr.1 hr.2 s
          · exact h
      · exact h
  | halt p =>
    simp only [System.event]
    cases hp : k.thread? p with
    | none => exact h
    | some t =>
      obtain ⟨ht, hid⟩ := thread?_some hp
      have hg := h.good t ht
      have he := h.each t ht
      dsimp only
      split
      · refine h.upd ht hid _ (fun _ => rfl) ?_ ?_
        · unfold Good at *; cases hs : t.seized <;> simp [hs] <;> grind
        · cases pc <;> simp only [PhaseT] at * <;> cases hs : t.seized <;> simp [hs] <;> unfold Good at * <;> grind
      · exact h
  | notice p =>
    simp only [System.event]
    cases hp : k.thread? p with
    | none => exact h
    | some t =>
      obtain ⟨ht, hid⟩ := thread?_some hp
      have hg := h.good t ht
      have he := h.each t ht
      dsimp only
      split
      · refine h.upd ht hid _ (fun _ => rfl) ?_ ?_
        · unfold Good at *; grind
        · cases pc <;> simp only [PhaseT] at * <;> unfold Good at * <;> grind
      · exact h
  | exit p =>
    simp only [System.event]
    cases hp : k.thread? p with
    | none => exact h
    | some t =>
      obtain ⟨ht, hid⟩ := thread?_some hp
      have hg := h.good t ht
      have he := h.each t ht
      dsimp only
      split
      · split
        · refine h.upd ht hid _ (fun _ => rfl) ?_ ?_
          · unfold Good at *; grind
          · cases pc <;> simp only [PhaseT] at * <;> unfold Good at * <;> grind
        · exact die_ok h ht (by grind)
      · exact h
  | clone p q =>
    simp only [System.event]
    cases hp : k.thread? p with
    | none => exact h
    | some t =>
      obtain ⟨ht, hid⟩ := thread?_some hp
      have hg := h.good t ht
      have he := h.each t ht
      dsimp only
      split
      · rename_i hr
        obtain ⟨hr, hm, hq, hz⟩ := hr
        have hj : k.job = false := by
          cases hj : k.job with
          | false => rfl
          | true => have := hg.2.2.2 hj; rw [hr, hm] at this; simp at this
        have hne : k.threads.map (·.id) ≠ [] := List.ne_nil_of_mem (List.mem_map.mpr ⟨t, ht, rfl⟩)
        have hset := h.set
        unfold System.ids at hq
        split
        · rename_i hsz
          have h' : Inv leader k.job (upd p (fun t => { t with st := .trapped (.clone q) }) k.threads) k.zombies pc table := by
            refine h.upd ht hid _ (fun _ => rfl) ?_ ?_
            · unfold Good at *; grind
            · cases pc <;> simp only [PhaseT] at * <;> grind
          refine h'.append _ (by rw [upd_ids p (fun t => { t with st := .trapped (.clone q) }) (fun _ => rfl)]; exact hq) ?_ ?_ ?_
          · unfold Good; simp [hj]
          · cases pc <;> simp only [PhaseT, PhaseS] at * <;> grind
          · rw [upd_ids p (fun t => { t with st := .trapped (.clone q) }) (fun _ => rfl)]
            cases pc <;> simp only [PhaseT, PhaseS] at * <;> grind
        · refine h.append _ hq ?_ ?_ ?_
          · unfold Good; simp [hj]
          · cases pc <;> simp only [PhaseT, PhaseS] at * <;> grind
          · cases pc <;> simp only [PhaseT, PhaseS] at * <;> grind
      · exact h

/-! ## The requests -/

theorem abandon_id (job : Bool) (t : Thread) : (t.abandon job).id = t.id := by
  unfold Thread.abandon
  split
  · split <;> rfl
  · rfl

theorem abandon_seized (job : Bool) (t : Thread) : (t.abandon job).seized = false := by
  unfold Thread.abandon
  split
  · split <;> rfl
  · simpa using ‹¬ t.seized = true›

theorem abandon_good (job : Bool) (t : Thread) (h : Good job t) (hx : t.st ≠ .trapped .exit) : Good job (t.abandon job) := by
  obtain ⟨id, seized, mustStop, st, pending⟩ := t
  unfold Thread.abandon
  dsimp only at *
  split
  · rename_i hs
    subst hs
    cases st with
    | trapped r => cases r <;> unfold Good at * <;> cases job <;> simp at * <;> grind
    | _ => unfold Good at * <;> cases job <;> simp at * <;> grind
  · exact h

theorem fail_ok {leader : Pid} {w : World} (hn : w.sys.ids.Nodup) (hg : ∀ t ∈ w.sys.threads, Good w.sys.job t) (ht : w.table ≠ [] → w.sys.job = true) :
    w.fail.Ok leader := by
  show Inv leader w.sys.job ((w.sys.threads.filter fun t => t.st ≠ .trapped .exit).map (Thread.abandon w.sys.job)) [] .failed w.table
  have e : ((w.sys.threads.filter fun t => t.st ≠ .trapped .exit).map (Thread.abandon w.sys.job)).map (·.id) =
      (w.sys.threads.filter fun t => t.st ≠ .trapped .exit).map (·.id) := by
    rw [List.map_map]
    exact List.map_congr_left fun t _ => abandon_id _ t
  refine ⟨?_, ?_, ?_, ht⟩
  · rw [e]; exact (List.filter_sublist.map _).nodup hn
  · intro u hu
    obtain ⟨t, ht, rfl⟩ := List.mem_map.mp hu
    have := List.mem_filter.mp ht
    exact abandon_good _ t (hg t this.1) (by simpa using this.2)
  · intro u hu
    obtain ⟨t, ht, rfl⟩ := List.mem_map.mp hu
    exact abandon_seized _ t

/-- The table is not empty only when the process is stopped. -/
theorem Inv.table_job {leader : Pid} {job : Bool} {threads : List Thread} {zombies : List Pid} {pc : Pc} {table : List Pid}
    (h : Inv leader job threads zombies pc table) (hpc : pc ≠ .returned) : table ≠ [] → job = true := by
  have hs := h.set
  intro ht
  cases pc <;> simp only [PhaseS] at hs <;> grind

theorem seize_ok {leader : Pid} {k k' : System} {p : Pid} (h : k.seize p = some k') :
    ∃ t ∈ k.threads, t.id = p ∧ t.seized = false ∧ k' = { k with threads := upd p (fun t => { t with seized := true }) k.threads } := by
  unfold System.seize at h
  cases ht : k.thread? p with
  | none => rw [ht] at h; cases h
  | some t =>
    rw [ht] at h
    obtain ⟨hm, hid⟩ := thread?_some ht
    dsimp only at h
    split at h
    · cases h
    · rename_i hs
      exact ⟨t, hm, hid, by simpa using hs, (Option.some.inj h).symm⟩

/-- A thread that is waited for. -/
theorem waitFor_ok {leader p : Pid} {w : World} (h : w.Ok leader) (next : Pc) (hpc : w.pc ≠ .returned)
    (hp : w.pc = .begin → False)
    (hnext : ∀ t ∈ w.sys.threads, t.id = p → t.st = .trapped .stop →
      Inv leader w.sys.job (upd p (fun t => { t with st := .captured }) w.sys.threads) w.sys.zombies next w.table)
    (hz : p = leader ∨ ∃ l, w.pc = .await l) : (w.waitFor leader p next).Ok leader := by
  unfold World.waitFor
  cases ht : w.sys.thread? p with
  | none =>
    have hi := thread?_none.mp ht
    dsimp only
    split
    · rename_i hm
      split
      · exact h
      · rename_i hl
        refine ⟨h.nodup, h.good, h.each, ?_⟩
        have hs := h.set
        show PhaseS leader w.sys.job (w.sys.threads.map (·.id)) (w.sys.zombies.erase p) w.table w.pc
        generalize w.pc = pc at *
        rcases hz with rfl | ⟨l, rfl⟩
        · have he : w.sys.threads = [] := by
            cases hc : w.sys.threads with
            | nil => rfl
            | cons a l => exact absurd ⟨rfl, by rw [hc]; exact List.cons_ne_nil _ _⟩ hl
          rw [he] at hs ⊢
          cases pc <;> simp only [PhaseS, List.map_nil] at * <;> grind
        · exact hs
    · exact fail_ok h.nodup h.good (h.table_job hpc)
  | some t =>
    obtain ⟨hm, hid⟩ := thread?_some ht
    have hg := h.good t hm
    have he := h.each t hm
    dsimp only
    have hrun : t.st ≠ .captured → t.st ≠ .stopped → t.st ≠ .trapped .stop → t.st ≠ .trapped .exit → Inv leader w.sys.job (upd t.id (fun t => { t with st := .running }) w.sys.threads) w.sys.zombies w.pc w.table := by
      intro h1 h2 h3 h4
      refine Inv.upd h hm rfl _ (fun _ => rfl) ?_ ?_
      · unfold Good at *; simp at *; grind
      · generalize w.pc = pc at *
        cases pc <;> simp only [PhaseT] at * <;> grind
    split
    · rename_i hst
      exact hnext t hm hid hst
    · rename_i s hst
      simp only [System.cont, hst]
      exact deliver_ok (k := { w.sys with threads := upd t.id (fun t => { t with st := .running }) w.sys.threads })
        (hrun (by simp [hst]) (by simp [hst]) (by simp [hst]) (by simp [hst])) hpc _ _
    · rename_i q hst
      simp only [System.cont, hst]
      exact hrun (by simp [hst]) (by simp [hst]) (by simp [hst]) (by simp [hst])
    · rename_i hst
      simp only [System.cont, hst]
      exact die_ok h hm (by simp [hst])
    all_goals exact h

theorem step_ok {leader : Pid} {w : World} (h : w.Ok leader) : (w.step leader).Ok leader := by
  obtain ⟨k, pc, table⟩ := w
  unfold World.step
  dsimp only
  cases pc with
  | begin =>
    dsimp only
    cases hz : k.seize leader with
    | none => exact fail_ok h.nodup h.good (h.table_job (by simp))
    | some k' =>
      obtain ⟨t, hm, hid, hu, rfl⟩ := seize_ok (leader := leader) hz
      have hg := h.good
      have he := h.each
      have hs := h.set
      refine ⟨?_, ?_, ?_, ?_⟩
      · show ((upd leader (fun t => { t with seized := true }) k.threads).map (·.id)).Nodup
        rw [upd_ids leader (fun t => { t with seized := true }) (fun _ => rfl)]
        exact h.nodup
      · refine forall_upd h.nodup hm hid _ hg ?_
        have := hg t hm
        unfold Good at *
        grind
      · intro u hu
        obtain ⟨v, hv, rfl⟩ := List.mem_map.mp hu
        have h1 := he v hv
        have h2 := (hg v hv).1 h1
        simp only [PhaseT]
        split <;> simp_all <;> grind
      · show PhaseS leader k.job ((upd leader (fun t => { t with seized := true }) k.threads).map (·.id)) k.zombies table .stop
        rw [upd_ids leader (fun t => { t with seized := true }) (fun _ => rfl)]
        exact ⟨.inl (List.mem_map.mpr ⟨t, hm, hid⟩), hs.2⟩
  | stop => 
    have h' : Inv leader k.job k.threads k.zombies .wait table := ⟨h.nodup, h.good, h.each, h.set⟩
    exact send_ok h' sigStop (by decide) none
  | wait =>
    dsimp only
    refine waitFor_ok h .list (by simp) (by simp) ?_ (.inl rfl)
    intro t hm hid hst
    have he := h.each t hm
    have hj : k.job = true := he.2.2 hid hst
    refine ⟨?_, ?_, ?_, ?_⟩
    · show ((upd leader (fun t => { t with st := .captured }) k.threads).map (·.id)).Nodup
      rw [upd_ids leader (fun t => { t with st := .captured }) (fun _ => rfl)]
      exact h.nodup
    · refine forall_upd h.nodup hm hid _ h.good ?_
      have := h.good t hm
      unfold Good at *
      have := he.2.1 hid
      grind
    · intro u hu
      obtain ⟨v, hv, rfl⟩ := List.mem_map.mp hu
      simp only [PhaseT]
      split <;> simp_all
    · show PhaseS leader k.job ((upd leader (fun t => { t with st := .captured }) k.threads).map (·.id)) k.zombies table .list
      rw [upd_ids leader (fun t => { t with st := .captured }) (fun _ => rfl)]
      exact ⟨hj, List.mem_map.mpr ⟨t, hm, hid⟩, h.set.2⟩
  | list =>
    have hs := h.set
    dsimp only
    split
    · exact fail_ok h.nodup h.good (fun _ => hs.1)
    · rename_i hl
      have e : k.ids.take maxPids = k.ids := List.take_of_length_le (by omega)
      refine ⟨h.nodup, h.good, fun t ht => ⟨h.each t ht, fun hn => ?_⟩, ?_⟩
      · exact absurd (by rw [e]; exact List.mem_map.mpr ⟨t, ht, rfl⟩) hn
      · show k.job = true ∧ leader ∈ k.ids ∧ (k.ids.take maxPids).Nodup ∧ ∀ p ∈ k.ids, p ∈ k.ids.take maxPids
        rw [e]
        exact ⟨hs.1, hs.2.1, h.nodup, fun p hp => hp⟩
  | seize l =>
    have hs := h.set
    cases l with
    | nil =>
      refine ⟨h.nodup, h.good, fun t ht => ?_, hs.1, hs.2.1, hs.2.2.1, hs.2.2.2, fun p hp hn => absurd hp hn⟩
      have he := h.each t ht
      exact ⟨he.1, he.2 (by simp), fun hn => absurd (hs.2.2.2 _ (List.mem_map.mpr ⟨t, ht, rfl⟩)) hn⟩
    | cons p l =>
      dsimp only
      split
      · rename_i hp
        refine ⟨h.nodup, h.good, fun t ht => ?_, hs⟩
        have he := h.each t ht
        refine ⟨he.1, fun hn => ?_⟩
        by_cases hl : t.id = leader
        · have := (h.good t ht).1
          have hc := he.1 hl
          cases hz : t.seized with
          | true => rfl
          | false => have := this hz; rw [hc] at this; simp at this
        · exact he.2 (by rw [hp]; simp [hl, hn])
      · cases hz : k.seize p with
        | none => exact fail_ok h.nodup h.good (h.table_job (by simp))
        | some k' =>
          obtain ⟨t, hm, hid, hu, rfl⟩ := seize_ok (leader := leader) hz
          refine ⟨?_, ?_, ?_, ?_⟩
          · show ((upd p (fun t => { t with seized := true }) k.threads).map (·.id)).Nodup
            rw [upd_ids p (fun t => { t with seized := true }) (fun _ => rfl)]
            exact h.nodup
          · refine forall_upd h.nodup hm hid _ h.good ?_
            have := h.good t hm
            unfold Good at *
            grind
          · intro u hu
            obtain ⟨v, hv, rfl⟩ := List.mem_map.mp hu
            have he := h.each v hv
            simp only [PhaseT] at he ⊢
            split <;> simp_all
          · show PhaseS leader k.job ((upd p (fun t => { t with seized := true }) k.threads).map (·.id)) k.zombies table (.seize l)
            rw [upd_ids p (fun t => { t with seized := true }) (fun _ => rfl)]
            exact hs
  | await l =>
    have hs := h.set
    cases l with
    | nil =>
      exact ⟨h.nodup, h.good, fun t ht => ⟨(h.each t ht).2.1, (h.each t ht).2.2 (by simp)⟩, hs.1, hs.2.1, hs.2.2.1, hs.2.2.2.1,
        fun p hp => hs.2.2.2.2 p hp (by simp)⟩
    | cons p l =>
      dsimp only
      split
      · rename_i hp
        refine ⟨h.nodup, h.good, fun t ht => ?_, hs.1, hs.2.1, hs.2.2.1, hs.2.2.2.1, fun q hq hn => ?_⟩
        · have he := h.each t ht
          refine ⟨he.1, he.2.1, fun hn => ?_⟩
          by_cases hl : t.id = leader
          · exact he.1 hl
          · exact he.2.2 (by rw [hp]; simp [hl, hn])
        · by_cases hl : q = leader
          · rw [hl]; exact hs.2.1
          · exact hs.2.2.2.2 q hq (by rw [hp]; simp [hl, hn])
      · rename_i hp
        refine waitFor_ok h (.await l) (by simp) (by simp) ?_ (.inr ⟨_, rfl⟩)
        intro t hm hid hst
        have hgt := h.good t hm
        have het := h.each t hm
        refine ⟨?_, ?_, ?_, ?_⟩
        · show ((upd p (fun t => { t with st := .captured }) k.threads).map (·.id)).Nodup
          rw [upd_ids p (fun t => { t with st := .captured }) (fun _ => rfl)]
          exact h.nodup
        · refine forall_upd h.nodup hm hid _ h.good ?_
          have := het.2.1
          unfold Good at *
          grind
        · intro u hu
          obtain ⟨v, hv, rfl⟩ := List.mem_map.mp hu
          have he := h.each v hv
          simp only [PhaseT] at he ⊢
          split <;> simp_all
        · show PhaseS leader k.job ((upd p (fun t => { t with st := .captured }) k.threads).map (·.id)) k.zombies table (.await l)
          rw [upd_ids p (fun t => { t with st := .captured }) (fun _ => rfl)]
          refine ⟨hs.1, hs.2.1, hs.2.2.1, hs.2.2.2.1, fun q hq hn => ?_⟩
          by_cases hqp : q = p
          · rw [hqp, ← hid]; exact List.mem_map.mpr ⟨t, hm, rfl⟩
          · exact hs.2.2.2.2 q hq (by simp [hqp, hn])
  | interrupt l =>
    cases l with
    | nil => exact ⟨h.nodup, h.good, h.each, h.set⟩
    | cons p l =>
      dsimp only
      cases ht : k.thread? p with
      | none => exact fail_ok h.nodup h.good (h.table_job (by simp))
      | some t =>
        dsimp only
        split
        · exact ⟨h.nodup, h.good, h.each, h.set⟩
        · exact fail_ok h.nodup h.good (h.table_job (by simp))
  | resume =>
    have hs := h.set
    show Inv leader ((k.generate sigCont).queue sigCont none).job ((k.generate sigCont).queue sigCont none).threads
      ((k.generate sigCont).queue sigCont none).zombies .returned table
    show Inv leader false (k.threads.map Thread.resume) k.zombies .returned table
    have e : (k.threads.map Thread.resume).map (·.id) = k.threads.map (·.id) := by
      rw [List.map_map]
      exact List.map_congr_left fun t _ => rfl
    refine ⟨by rw [e]; exact h.nodup, ?_, ?_, by rw [e]; exact ⟨hs.2.1, hs.2.2.1, hs.2.2.2.1, hs.2.2.2.2, rfl⟩⟩
    · intro u hu
      obtain ⟨t, ht, rfl⟩ := List.mem_map.mp hu
      have he := h.each t ht
      simp only [PhaseT] at he
      unfold Good Thread.resume
      simp [he.1, he.2]
    · intro u hu
      obtain ⟨t, ht, rfl⟩ := List.mem_map.mp hu
      have he := h.each t ht
      simp only [PhaseT] at he ⊢
      unfold Thread.resume
      simp [he.1, he.2]
  | returned => exact h
  | failed => exact h

/-- Nobody else sends `SIGCONT`. -/
def NoCont (l : List Move) : Prop := ∀ to, Move.event (.send sigCont to) ∉ l

theorem run_ok {leader : Pid} : ∀ (l : List Move) (w : World), w.Ok leader → NoCont l → (run leader w l).Ok leader
  | [], _, h, _ => h
  | .event e :: l, w, h, hc =>
    run_ok l _ (event_ok h e fun to he => hc to (by rw [he]; exact List.mem_cons_self)) fun to hm => hc to (List.mem_cons_of_mem _ hm)
  | .tracer :: l, w, h, hc => run_ok l _ (step_ok h) fun to hm => hc to (List.mem_cons_of_mem _ hm)

theorem start_ok {leader : Pid} {k : System} (h : k.Untraced) : (start k).Ok leader := by
  obtain ⟨hn, hz, -, -, -, ht, hj⟩ := h
  refine ⟨hn, ?_, fun t hm => (ht t hm).1, hz, rfl⟩
  intro t hm
  have := ht t hm
  show Good k.job t
  cases hk : k.job <;> simp only [hk] at hj <;> have := hj t hm <;> unfold Good <;> grind

end Ptr.Attach
