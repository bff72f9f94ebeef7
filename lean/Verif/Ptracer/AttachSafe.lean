import Verif.Ptracer.AttachLemmas

/-! # When attaching does not fail -/

namespace Ptr.Attach

/-- The same threads, traced as before; none of them has begun to exit. -/
def Same (l l' : List Thread) : Prop :=
  l'.map (·.id) = l.map (·.id) ∧ ∀ u' ∈ l', ∃ u ∈ l, u.id = u'.id ∧ u.seized = u'.seized ∧ (u'.st = .trapped .exit → u.st = .trapped .exit)

theorem Same.refl (l : List Thread) : Same l l := ⟨rfl, fun u h => ⟨u, h, rfl, rfl, id⟩⟩

theorem Same.trans {l m n : List Thread} (h : Same l m) (h' : Same m n) : Same l n := by
  refine ⟨h'.1.trans h.1, fun u hu => ?_⟩
  obtain ⟨v, hv, e1, e2, e3⟩ := h'.2 u hu
  obtain ⟨w, hw, f1, f2, f3⟩ := h.2 v hv
  exact ⟨w, hw, f1.trans e1, f2.trans e2, fun h => f3 (e3 h)⟩

theorem Same.map (f : Thread → Thread) (l : List Thread)
    (hf : ∀ t ∈ l, (f t).id = t.id ∧ (f t).seized = t.seized ∧ ((f t).st = .trapped .exit → t.st = .trapped .exit)) : Same l (l.map f) := by
  refine ⟨?_, fun u hu => ?_⟩
  · rw [List.map_map]
    exact List.map_congr_left fun t ht => (hf t ht).1
  · obtain ⟨t, ht, rfl⟩ := List.mem_map.mp hu
    exact ⟨t, ht, (hf t ht).1.symm, (hf t ht).2.1.symm, (hf t ht).2.2⟩

theorem Same.upd (p : Pid) (f : Thread → Thread) (l : List Thread)
    (hf : ∀ t, (f t).id = t.id ∧ (f t).seized = t.seized ∧ ((f t).st = .trapped .exit → t.st = .trapped .exit)) : Same l (upd p f l) := by
  refine Same.map _ l fun t _ => ?_
  split
  · exact hf t
  · exact ⟨rfl, rfl, id⟩

theorem groupStop_same (k : System) : Same k.threads k.groupStop.threads := by
  refine Same.map _ _ fun t _ => ?_
  split
  · exact ⟨rfl, rfl, id⟩
  · exact ⟨rfl, rfl, id⟩

theorem deliver_same (k : System) (p : Pid) (s : Nat) : Same k.threads (k.deliver p s).threads := by
  unfold System.deliver
  split
  · exact groupStop_same k
  · exact Same.refl _

theorem send_same (k : System) (s : Nat) (hs : s ≠ sigCont) (to : Option Pid) : Same k.threads (k.send s to).threads := by
  refine Same.trans (m := (k.generate s).threads) ?_ ?_
  · unfold System.generate
    rw [if_neg hs]
    split
    · exact Same.map _ _ fun t _ => ⟨rfl, rfl, id⟩
    · exact Same.refl _
  · unfold System.send
    cases to with
    | none => exact Same.refl _
    | some p =>
      simp only [System.queue]
      split
      · exact Same.upd _ _ _ fun t => ⟨rfl, rfl, id⟩
      · exact Same.refl _

theorem taken_same (k : System) (t : Thread) (s : Nat) : Same k.threads (k.taken t s).threads := by
  unfold System.taken
  split
  · exact Same.upd _ _ _ fun t => ⟨rfl, rfl, fun h => by cases h⟩
  · exact deliver_same _ _ _

/-- What an event does that is not an exit, nor `SIGCONT`, nor a new thread of the thread `leader`. -/
theorem event_same (k : System) (leader : Pid) (e : Event) (hc : ∀ to, e ≠ .send sigCont to) (hx : ∀ p, e ≠ .exit p) (hl : ∀ q, e ≠ .clone leader q)
    (hu : ∀ p q, e = .clone p q → ∀ t ∈ k.threads, t.id = p → t.st = .running → t.mustStop = false → t.seized = false) :
    Same k.threads (k.event e).threads ∨
      ∃ p q, e = .clone p q ∧ (k.event e).threads = k.threads ++ [⟨q, false, false, .running, []⟩] := by
  cases e with
  | send s to => exact .inl (send_same k s (fun hs => hc to (by rw [hs])) to)
  | take p own s =>
    refine .inl ?_
    simp only [System.event]
    cases k.thread? p with
    | none => exact Same.refl _
    | some t =>
      dsimp only
      split
      · split
        · split
          · refine Same.trans (Same.upd p (fun t => { t with pending := t.pending.erase s }) _ fun t => ⟨rfl, rfl, id⟩) ?_
            exact taken_same { k with threads := Ptr.Attach.upd p (fun t => { t with pending := t.pending.erase s }) k.threads } t s
          · exact Same.refl _
        · split
          · exact taken_same { k with shared := k.shared.erase s } t s
          · exact Same.refl _
      · exact Same.refl _
  | halt p =>
    refine .inl ?_
    simp only [System.event]
    cases k.thread? p with
    | none => exact Same.refl _
    | some t =>
      dsimp only
      split
      · refine Same.upd _ _ _ fun t => ⟨rfl, rfl, fun h => ?_⟩
        dsimp only at h
        split at h <;> cases h
      · exact Same.refl _
  | notice p =>
    refine .inl ?_
    simp only [System.event]
    cases k.thread? p with
    | none => exact Same.refl _
    | some t =>
      dsimp only
      split
      · exact Same.upd _ _ _ fun t => ⟨rfl, rfl, fun h => by cases h⟩
      · exact Same.refl _
  | exit p => exact absurd rfl (hx p)
  | clone p q =>
    simp only [System.event]
    cases hp : k.thread? p with
    | none => exact .inl (Same.refl _)
    | some t =>
      obtain ⟨hm, hid⟩ := thread?_some hp
      dsimp only
      split
      · rename_i hr
        rw [hu p q rfl t hm hid hr.1 hr.2.1]
        exact .inr ⟨p, q, rfl, rfl⟩
      · exact .inl (Same.refl _)

/-- Of every thread. -/
def CalmT (leader : Pid) : Pc → Thread → Prop
  | .stop, t | .wait, t | .list, t => t.st ≠ .trapped .exit ∧ (t.id ≠ leader → t.seized = false)
  | .seize l, t => t.st ≠ .trapped .exit ∧ (t.id ≠ leader → t.id ∈ l → t.seized = false)
  | _, t => t.st ≠ .trapped .exit

def CalmS (ids table : List Pid) : Pc → Prop
  | .seize l => l.Nodup ∧ ∀ p ∈ l, p ∈ ids
  | .await l => ∀ p ∈ l, p ∈ ids
  | .interrupt l => ∀ p ∈ l, p ∈ table
  | .failed => False
  | _ => True

/-- What is so as long as nothing has failed; `n` threads may still be made. -/
structure Calm (leader : Pid) (w : World) (n : Nat) : Prop where
  lead : leader ∈ w.sys.ids
  each : ∀ t ∈ w.sys.threads, CalmT leader w.pc t
  set : CalmS w.sys.ids w.table w.pc
  few : w.sys.ids.length + n < maxPids
  seizes : ∀ l, w.pc = .seize l → ∀ p ∈ w.table, p ∈ w.sys.ids
  awaits : ∀ l, w.pc = .await l → ∀ p ∈ w.table, p ∈ w.sys.ids

theorem CalmT.congr {leader : Pid} {pc : Pc} {u u' : Thread} (h : CalmT leader pc u) (hid : u.id = u'.id) (hs : u.seized = u'.seized)
    (hx : u'.st = .trapped .exit → u.st = .trapped .exit) : CalmT leader pc u' := by
  cases pc <;> simp only [CalmT] at * <;> grind

theorem CalmS.mono {ids ids' table : List Pid} {pc : Pc} (h : CalmS ids table pc) (hi : ∀ p ∈ ids, p ∈ ids') : CalmS ids' table pc := by
  cases pc <;> simp only [CalmS] at * <;> grind

theorem Calm.same {leader : Pid} {w : World} {n : Nat} (h : Calm leader w n) {k : System} (hs : Same w.sys.threads k.threads) :
    Calm leader { w with sys := k } n := by
  have hi : k.ids = w.sys.ids := hs.1
  refine ⟨by rw [hi]; exact h.lead, fun u hu => ?_, by rw [hi]; exact h.set, by rw [hi]; exact h.few, ?_, ?_⟩
  · obtain ⟨v, hv, e1, e2, e3⟩ := hs.2 u hu
    exact (h.each v hv).congr e1 e2 e3
  · rw [hi]; exact h.seizes
  · rw [hi]; exact h.awaits

/-- How many threads an event may make. -/
def births : Move → Nat
  | .event (.clone _ _) => 1
  | _ => 0

theorem event_calm {leader : Pid} {w : World} {n : Nat} (ho : w.Ok leader) (e : Event) (h : Calm leader w (births (.event e) + n))
    (hc : ∀ to, e ≠ .send sigCont to) (hx : ∀ p, e ≠ .exit p) (hl : ∀ q, e ≠ .clone leader q) : Calm leader { w with sys := w.sys.event e } n := by
  have hu : ∀ p q, e = .clone p q → ∀ t ∈ w.sys.threads, t.id = p → t.st = .running → t.mustStop = false → t.seized = false := by
    intro p q he t hm hid hr hms
    have hg := ho.good t hm
    have ht := ho.each t hm
    have hs := ho.set
    have hct := h.each t hm
    have hpl : t.id ≠ leader := by rintro hpl; exact hl q (by rw [he, ← hid, hpl])
    have hj : w.sys.job = false := by
      cases hj : w.sys.job with
      | false => rfl
      | true => have := hg.2.2.2 hj; rw [hr, hms] at this; simp at this
    generalize w.pc = pc at *
    cases pc <;> simp only [PhaseT, PhaseS, CalmT] at * <;> grind
  have hw : Calm leader w n := ⟨h.lead, h.each, h.set, by have := h.few; omega, h.seizes, h.awaits⟩
  rcases event_same w.sys leader e hc hx hl hu with hs | ⟨p, q, rfl, ht⟩
  · exact hw.same hs
  · have hi : (w.sys.event (.clone p q)).ids = w.sys.ids ++ [q] := by unfold System.ids; rw [ht, List.map_append]; rfl
    refine ⟨?_, ?_, ?_, ?_, ?_, ?_⟩
    · rw [hi]; exact List.mem_append_left _ h.lead
    · intro u hu
      dsimp only at hu
      rw [ht] at hu
      rcases List.mem_append.mp hu with hu | hu
      · exact h.each u hu
      · rw [List.mem_singleton.mp hu]
        show CalmT leader w.pc _
        generalize w.pc = pc
        cases pc <;> simp [CalmT]
    · dsimp only
      rw [hi]
      exact h.set.mono fun p hp => List.mem_append_left _ hp
    · have := h.few
      dsimp only
      rw [hi, List.length_append]
      simp only [births, List.length_singleton] at this ⊢
      omega
    · intro l hl p hp
      dsimp only
      rw [hi]
      exact List.mem_append_left _ (h.seizes l hl p hp)
    · intro l hl p hp
      dsimp only
      rw [hi]
      exact List.mem_append_left _ (h.awaits l hl p hp)

theorem cont_same (k : System) (t : Thread) (sig : Nat) (hx : t.st ≠ .trapped .exit) : Same k.threads (k.cont t sig).threads := by
  unfold System.cont
  split
  · exact Same.trans (Same.upd t.id (fun t => { t with st := .running }) _ fun t => ⟨rfl, rfl, fun h => by cases h⟩) (deliver_same _ _ _)
  · exact absurd ‹_› hx
  · exact Same.upd _ _ _ fun t => ⟨rfl, rfl, fun h => by cases h⟩

/-- Waiting for a thread that is there. -/
theorem waitFor_calm {leader p : Pid} {w : World} {n : Nat} (h : Calm leader w n) (hp : p ∈ w.sys.ids) (hcalm : ∀ t ∈ w.sys.threads, t.st ≠ .trapped .exit)
    (next : Pc) (hnext : Calm leader { w with pc := next } n) : Calm leader (w.waitFor leader p next) n := by
  unfold World.waitFor
  cases ht : w.sys.thread? p with
  | none => exact absurd hp (thread?_none.mp ht)
  | some t =>
    obtain ⟨hm, hid⟩ := thread?_some ht
    have hx := hcalm t hm
    dsimp only
    split
    · exact hnext.same (k := { w.sys with threads := Ptr.Attach.upd p (fun t => { t with st := .captured }) w.sys.threads })
        (Same.upd _ _ _ fun t => ⟨rfl, rfl, fun h => by cases h⟩)
    · exact h.same (cont_same _ _ _ hx)
    · exact h.same (cont_same _ _ _ hx)
    · exact h.same (cont_same _ _ _ hx)
    all_goals exact h

theorem CalmT.st {leader : Pid} {pc : Pc} {t : Thread} (h : CalmT leader pc t) : t.st ≠ .trapped .exit := by
  cases pc <;> simp only [CalmT] at h <;> grind

theorem seize_some {k : System} (hn : k.ids.Nodup) {t : Thread} (ht : t ∈ k.threads) (hs : t.seized = false) :
    k.seize t.id = some { k with threads := upd t.id (fun t => { t with seized := true }) k.threads } := by
  unfold System.seize
  rw [thread?_mem hn ht]
  simp [hs]

theorem step_calm {leader : Pid} {w : World} {n : Nat} (ho : w.Ok leader) (h : Calm leader w n) : Calm leader (w.step leader) n := by
  obtain ⟨k, pc, table⟩ := w
  have hn : k.ids.Nodup := ho.nodup
  have hlead : leader ∈ k.ids := h.lead
  have hfew : k.ids.length + n < maxPids := h.few
  obtain ⟨tl, htl, hidl⟩ := List.mem_map.mp hlead
  have hseized : ∀ p, (upd p (fun t => { t with seized := true }) k.threads).map (·.id) = k.ids := fun p =>
    upd_ids p (fun t => { t with seized := true }) (fun _ => rfl) _
  unfold World.step
  dsimp only
  cases pc with
  | begin =>
    have e := seize_some hn htl (ho.each tl htl)
    rw [hidl] at e
    dsimp only
    rw [e]
    refine ⟨?_, ?_, trivial, ?_, by simp, by simp⟩
    · show leader ∈ (upd leader (fun t => { t with seized := true }) k.threads).map (·.id)
      rw [hseized]; exact hlead
    · intro u hu
      obtain ⟨v, hv, rfl⟩ := List.mem_map.mp hu
      have h1 := h.each v hv
      have h2 := ho.each v hv
      simp only [CalmT, PhaseT] at *
      split <;> simp_all
    · show ((upd leader (fun t => { t with seized := true }) k.threads).map (·.id)).length + n < maxPids
      rw [hseized]; exact hfew
  | stop =>
    have h' : Calm leader ⟨k, .wait, table⟩ n := ⟨h.lead, h.each, trivial, h.few, by simp, by simp⟩
    exact h'.same (send_same k sigStop (by decide) none)
  | wait =>
    refine waitFor_calm h hlead (fun t ht => (h.each t ht).st) .list ?_
    exact ⟨h.lead, h.each, trivial, h.few, by simp, by simp⟩
  | list =>
    dsimp only
    have e : k.ids.take maxPids = k.ids := List.take_of_length_le (by omega)
    rw [if_neg (by omega)]
    refine ⟨h.lead, fun t ht => ?_, ?_, h.few, ?_, by simp⟩
    · have := h.each t ht
      exact ⟨this.1, fun hl _ => this.2 hl⟩
    · show (k.ids.take maxPids).Nodup ∧ ∀ p ∈ k.ids.take maxPids, p ∈ k.ids
      rw [e]; exact ⟨hn, fun p hp => hp⟩
    · intro l _
      show ∀ p ∈ k.ids.take maxPids, p ∈ k.ids
      rw [e]; exact fun p hp => hp
  | seize l =>
    have hset : CalmS k.ids table (.seize l) := h.set
    cases l with
    | nil =>
      exact ⟨h.lead, fun t ht => (h.each t ht).1, h.seizes [] rfl, h.few, by simp, fun l _ => h.seizes [] rfl⟩
    | cons p l =>
      dsimp only
      have hnd := List.nodup_cons.mp hset.1
      split
      · rename_i hp
        refine ⟨h.lead, fun t ht => ?_, ⟨hnd.2, fun q hq => hset.2 q (List.mem_cons_of_mem _ hq)⟩, h.few, fun _ _ => h.seizes _ rfl, by simp⟩
        have := h.each t ht
        exact ⟨this.1, fun hl hm => this.2 hl (List.mem_cons_of_mem _ hm)⟩
      · rename_i hp
        obtain ⟨t, ht, hid⟩ := List.mem_map.mp (hset.2 p List.mem_cons_self)
        have e := seize_some hn ht ((h.each t ht).2 (by rw [hid]; exact hp) (by rw [hid]; exact List.mem_cons_self))
        rw [hid] at e
        rw [e]
        refine ⟨?_, ?_, ?_, ?_, ?_, by simp⟩
        · show leader ∈ (upd p (fun t => { t with seized := true }) k.threads).map (·.id)
          rw [hseized]; exact hlead
        · intro u hu
          obtain ⟨v, hv, rfl⟩ := List.mem_map.mp hu
          have h1 := h.each v hv
          simp only [CalmT] at *
          split
          · rename_i hvp
            exact ⟨h1.1, fun _ hm => by rw [hvp] at hm; exact absurd hm hnd.1⟩
          · exact ⟨h1.1, fun hl hm => h1.2 hl (List.mem_cons_of_mem _ hm)⟩
        · show l.Nodup ∧ ∀ q ∈ l, q ∈ (upd p (fun t => { t with seized := true }) k.threads).map (·.id)
          rw [hseized]
          exact ⟨hnd.2, fun q hq => hset.2 q (List.mem_cons_of_mem _ hq)⟩
        · show ((upd p (fun t => { t with seized := true }) k.threads).map (·.id)).length + n < maxPids
          rw [hseized]; exact hfew
        · intro _ _
          show ∀ q ∈ table, q ∈ (upd p (fun t => { t with seized := true }) k.threads).map (·.id)
          rw [hseized]
          exact h.seizes _ rfl
  | await l =>
    have hset : CalmS k.ids table (.await l) := h.set
    cases l with
    | nil => exact ⟨h.lead, fun t ht => h.each t ht, fun p hp => hp, h.few, by simp, by simp⟩
    | cons p l =>
      have hnext : Calm leader ⟨k, .await l, table⟩ n :=
        ⟨h.lead, fun t ht => h.each t ht, fun q hq => hset q (List.mem_cons_of_mem _ hq), h.few, by simp, fun _ _ => h.awaits _ rfl⟩
      dsimp only
      split
      · exact hnext
      · exact waitFor_calm h (hset p List.mem_cons_self) (fun t ht => (h.each t ht).st) _ hnext
  | interrupt l =>
    cases l with
    | nil => exact ⟨h.lead, fun t ht => h.each t ht, trivial, h.few, by simp, by simp⟩
    | cons p l =>
      have hset : CalmS k.ids table (.interrupt (p :: l)) := h.set
      have hos := ho.set
      obtain ⟨t, ht, hid⟩ := List.mem_map.mp (hos.2.2.2.2 p (hset p List.mem_cons_self))
      have e := thread?_mem hn ht
      rw [hid] at e
      have hsz := (ho.each t ht).1
      dsimp only
      rw [e]
      simp only [hsz, if_true]
      exact ⟨h.lead, fun t ht => h.each t ht, fun q hq => hset q (List.mem_cons_of_mem _ hq), h.few, by simp, by simp⟩
  | resume =>
    show Calm leader ⟨k.send sigCont none, .returned, table⟩ n
    have hi : (k.send sigCont none).ids = k.ids := by
      show (k.threads.map Thread.resume).map (·.id) = _
      rw [List.map_map]; rfl
    refine ⟨by rw [hi]; exact hlead, ?_, trivial, by rw [hi]; exact hfew, by simp, by simp⟩
    intro u hu
    obtain ⟨v, hv, rfl⟩ := List.mem_map.mp (show u ∈ k.threads.map Thread.resume from hu)
    have := (ho.each v hv).2
    show (Thread.resume v).st ≠ _
    unfold Thread.resume
    simp [this]
  | returned => exact h
  | failed => exact h

/-- What may not happen: a thread exits, the thread with the id of the process makes a thread, `SIGCONT`. -/
structure Steady (leader : Pid) (l : List Move) : Prop where
  cont : NoCont l
  exit : ∀ p, Move.event (.exit p) ∉ l
  clone : ∀ q, Move.event (.clone leader q) ∉ l

theorem run_calm {leader : Pid} : ∀ (l : List Move) (w : World), w.Ok leader → Calm leader w ((l.map births).sum) → Steady leader l →
    Calm leader (run leader w l) 0
  | [], _, _, h, _ => h
  | .event e :: l, w, ho, h, hs => by
    have hc : ∀ to, e ≠ .send sigCont to := fun to he => hs.cont to (by rw [he]; exact List.mem_cons_self)
    refine run_calm l _ (event_ok ho e hc) ?_ ⟨fun to hm => hs.cont to (List.mem_cons_of_mem _ hm), fun p hm => hs.exit p (List.mem_cons_of_mem _ hm),
      fun q hm => hs.clone q (List.mem_cons_of_mem _ hm)⟩
    rw [List.map_cons, List.sum_cons] at h
    exact event_calm ho e h hc (fun p he => hs.exit p (by rw [he]; exact List.mem_cons_self)) (fun q he => hs.clone q (by rw [he]; exact List.mem_cons_self))
  | .tracer :: l, w, ho, h, hs => by
    refine run_calm l _ (step_ok ho) ?_ ⟨fun to hm => hs.cont to (List.mem_cons_of_mem _ hm), fun p hm => hs.exit p (List.mem_cons_of_mem _ hm),
      fun q hm => hs.clone q (List.mem_cons_of_mem _ hm)⟩
    rw [List.map_cons, List.sum_cons] at h
    refine step_calm ho ?_
    have : births .tracer = 0 := rfl
    rw [this, Nat.zero_add] at h
    exact h

end Ptr.Attach
