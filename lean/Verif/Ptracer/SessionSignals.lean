import Verif.Ptracer.SessionLemmas

/-! # The signals of a program behind attaching -/

namespace Ptr.Attach

variable {s n : Nat} {k : System}

theorem held_count (s : Nat) (t : Thread) : t.st.held.count s = if t.st = .trapped (.signal s) then 1 else 0 := by
  cases hs : t.st with
  | trapped r =>
    cases r with
    | signal x => simp [St.held, List.count_singleton]
    | _ => simp [St.held]
  | _ => simp [St.held]

/-- A thread is not about to get a signal any longer. -/
theorem change_kept (h : Kept s n k) {t : Thread} (ht : t ∈ k.threads) (f : Thread → Thread) (hf : ∀ t, (f t).id = t.id) (hp : (f t).pending = t.pending)
    (hs : (f t).st ≠ .trapped (.signal s)) : Kept s (n + t.st.held.count s) { k with threads := upd t.id f k.threads } := by
  have hk := h.kept
  refine ⟨?_, ?_⟩
  · show ((upd t.id f k.threads).map (·.id)).Nodup
    rw [upd_ids t.id f hf]
    exact h.nodup
  · show k.sent.count s = n + _ + k.reached s + k.dropped.count s + k.shared.count s + weigh s (upd t.id f k.threads)
    have := weigh_upd s t.id f t rfl k.threads h.nodup ht
    have e1 : weight s (f t) = t.pending.count s := by unfold weight; rw [hp, if_neg hs]; rfl
    have e2 : weight s t = t.pending.count s + t.st.held.count s := by unfold weight; rw [held_count]
    omega

theorem letGo_kept (h : Kept s n k) {t : Thread} (ht : t ∈ k.threads) : Kept s (n + t.st.held.count s) (k.letGo t) := by
  unfold System.letGo
  split
  · rename_i hs
    rw [hs]
    exact die_kept h ht (by simp [hs])
  · exact change_kept h ht _ (fun _ => rfl) rfl (by simp)

theorem detach_kept (h : Kept s n k) {t : Thread} (ht : t ∈ k.threads) : Kept s (n + t.st.held.count s) (k.detach t) := by
  unfold System.detach
  split
  · rename_i hs
    rw [hs]
    have := die_kept h ht (by simp [hs])
    exact ⟨this.nodup, this.kept⟩
  · refine change_kept h ht _ (fun _ => rfl) rfl ?_
    cases k.job <;> simp

/-- The signal a thread stopped for is delivered. -/
theorem cont_kept (hss : s ≠ sigStop) (h : Kept s n k) {t : Thread} (ht : t ∈ k.threads) {x : Nat} (hst : t.st = .trapped (.signal x)) : Kept s n (k.cont t x) := by
  have hk := h.kept
  simp only [System.cont, hst]
  refine deliver_kept (k := { k with threads := upd t.id (fun t => { t with st := .running }) k.threads }) hss x _ ?_ ?_
  · show ((upd t.id (fun t => { t with st := .running }) k.threads).map (·.id)).Nodup
    rw [upd_ids t.id (fun t => { t with st := .running }) fun _ => rfl]
    exact h.nodup
  · show k.sent.count s = n + k.reached s + k.dropped.count s + k.shared.count s + weigh s (upd t.id (fun t => { t with st := .running }) k.threads) + _
    have hw := weigh_upd s t.id (fun t => { t with st := .running }) t rfl k.threads h.nodup ht
    have e1 : weight s t = t.pending.count s + if x = s then 1 else 0 := by unfold weight; rw [hst]; simp
    have e2 : weight s { t with st := .running } = t.pending.count s := by unfold weight; simp
    simp only [e1, e2] at hw
    omega

/-- Of a session. -/
def Session.Kept (s : Nat) (w : Session) : Prop := Attach.Kept s (w.lost.count s) w.sys

theorem Session.Kept.letGo {w : Session} (h : w.Kept s) {t : Thread} (ht : t ∈ w.sys.threads) : (w.letGo t).Kept s := by
  unfold Session.Kept Session.letGo at *
  dsimp only
  rw [List.count_append]
  exact letGo_kept h ht

theorem Session.Kept.detach {w : Session} (h : w.Kept s) {t : Thread} (ht : t ∈ w.sys.threads) : (w.detach t).Kept s := by
  unfold Session.Kept Session.detach at *
  dsimp only
  rw [List.count_append]
  exact detach_kept h ht

theorem Session.Kept.choose {w : Session} (c : Config) (h : w.Kept s) {t : Thread} (ht : t ∈ w.sys.threads) : (w.choose c t).Kept s := by
  unfold Session.Kept Session.choose at *
  dsimp only
  rw [List.count_append]
  exact change_kept h ht _ (fun _ => rfl) rfl (by simp)

theorem Session.Kept.over {w : Session} (h : w.Kept s) (code : Nat) : (w.over code).Kept s := abandon_kept h

theorem Session.Kept.crash {w : Session} (h : w.Kept s) : w.crash.Kept s := abandon_kept h

theorem Session.Kept.pass {w : Session} (hss : s ≠ sigStop) (h : w.Kept s) {t : Thread} (ht : t ∈ w.sys.threads) {x : Nat} (hst : t.st = .trapped (.signal x)) :
    (w.pass t x).Kept s := cont_kept hss h ht hst

theorem forwardTold_kept (hss : s ≠ sigStop) (c : Config) {w : Session} (h : w.Kept s) {t : Thread} (ht : t ∈ w.sys.threads) : (w.forwardTold c t).Kept s := by
  unfold Session.forwardTold
  cases hs : t.st with
  | trapped r =>
    cases r with
    | clone q =>
      dsimp only
      cases addPid w.table q with
      | none => exact h.crash
      | some l => exact Session.Kept.letGo (w := { w with table := l }) h ht
    | exit =>
      dsimp only
      split
      · exact Session.Kept.detach (w := { w with table := removePid w.table t.id }) h ht
      · exact h.crash
    | signal x =>
      dsimp only
      split
      · split
        · exact h.choose c ht
        · exact h.crash
      · split
        · exact h.letGo ht
        · exact h.pass hss ht hs
    | stop => exact h.letGo ht
  | running => exact h
  | stopped => exact h
  | captured => exact h

theorem detachAll_kept : ∀ (l : List Pid) (w : Session), w.Kept s → (w.detachAll l).Kept s
  | [], _, h => h
  | p :: l, w, h => by
    unfold Session.detachAll
    cases hp : w.sys.thread? p with
    | none => exact detachAll_kept l w h
    | some t =>
      dsimp only
      split
      · exact detachAll_kept l _ (h.detach (thread?_some hp).1)
      · exact detachAll_kept l w h

theorem own_kept (hss : s ≠ sigStop) {w : Session} (h : w.Kept s) {t : Thread} (ht : t ∈ w.sys.threads) (x : Look) : (w.own t x).Kept s := by
  unfold Session.own
  split
  · exact h.letGo ht
  · split
    · exact (detachAll_kept _ _ h).over 0
    · split
      · rename_i hs
        split
        · exact h.letGo ht
        · exact h.pass hss ht hs
      · exact h.letGo ht

theorem traceTold_kept (hss : s ≠ sigStop) (q : Pid) {w : Session} (h : w.Kept s) {t : Thread} (ht : t ∈ w.sys.threads) (x : Look) : (w.traceTold q t x).Kept s := by
  unfold Session.traceTold
  cases hs : t.st with
  | trapped r =>
    cases r with
    | clone q => exact Session.Kept.letGo (w := { w with table := addPid' w.table q }) h ht
    | exit =>
      dsimp only
      split
      · exact Session.Kept.over (w := { w with table := removePid w.table t.id }) h 0
      · exact Session.Kept.detach (w := { w with table := removePid w.table t.id }) h ht
    | signal y =>
      dsimp only
      split
      · exact h.letGo ht
      · split
        · exact own_kept hss h ht x
        · split
          · exact h.letGo ht
          · exact h.pass hss ht hs
    | stop =>
      dsimp only
      split
      · exact own_kept hss h ht x
      · exact h.letGo ht
  | running => exact h
  | stopped => exact h
  | captured => exact h

theorem atomicTold_kept {w : Session} (h : w.Kept s) {t : Thread} (ht : t ∈ w.sys.threads) : (w.atomicTold t).Kept s := by
  unfold Session.atomicTold
  cases hs : t.st with
  | trapped r =>
    cases r with
    | signal s =>
      dsimp only
      split
      · exact h.letGo ht
      · exact h.over 1
    | _ => exact h.over 1
  | running => exact h
  | stopped => exact h
  | captured => exact h

theorem gone_kept {w : Session} (h : w.Kept s) (c : Config) (p : Pid) : (w.gone c p).Kept s := by
  unfold Session.gone
  split
  · split
    · exact h
    · exact h.over 1
  · split
    · exact h.over 1
    · exact h

theorem report_kept (hss : s ≠ sigStop) {w : Session} (h : w.Kept s) (c : Config) (p : Pid) (x : Look) : (w.report c p x).Kept s := by
  unfold Session.report
  cases hp : w.phase with
  | forward =>
    dsimp only
    cases ht : w.sys.thread? p with
    | none => exact gone_kept h c p
    | some t => exact forwardTold_kept hss c h (thread?_some ht).1
  | trace q =>
    dsimp only
    cases ht : w.sys.thread? p with
    | none => exact gone_kept h c p
    | some t => exact traceTold_kept hss q h (thread?_some ht).1 x
  | atomic q =>
    dsimp only
    split
    · cases ht : w.sys.thread? p with
      | none => exact h.over 1
      | some t => exact atomicTold_kept h (thread?_some ht).1
    · exact h
  | starting l => exact h
  | release q l => exact h
  | ended n => exact h
  | crashed => exact h

theorem next_kept {w : Session} (h : w.Kept s) : w.next.Kept s := by
  unfold Session.next
  cases hp : w.phase with
  | starting l =>
    cases l with
    | nil => exact h
    | cons p l =>
      dsimp only
      cases ht : w.sys.thread? p with
      | none => exact h.over 1
      | some t =>
        dsimp only
        split
        · exact h.letGo (thread?_some ht).1
        · exact h.over 1
  | release q l =>
    cases l with
    | nil =>
      dsimp only
      cases ht : w.sys.thread? q with
      | none => exact h.over 1
      | some t =>
        dsimp only
        split
        · exact h.letGo (thread?_some ht).1
        · exact h.over 1
    | cons p l =>
      dsimp only
      split
      · exact h
      · cases ht : w.sys.thread? p with
        | none => exact h
        | some t =>
          dsimp only
          split
          · exact h.letGo (thread?_some ht).1
          · exact h
  | forward => exact h
  | trace q => exact h
  | atomic q => exact h
  | ended n => exact h
  | crashed => exact h

theorem stepped_kept (h1 : s ≠ sigTrap) (h2 : s ≠ sigIll) {w : Session} (h : w.Kept s) : w.stepped.Kept s := by
  unfold Session.stepped
  split
  · exact h
  · rename_i q x hq
    cases ht : w.sys.thread? q with
    | none => exact h
    | some t =>
      obtain ⟨hm, hid⟩ := thread?_some ht
      dsimp only
      split
      · rename_i hr
        refine upd_kept h hm hid _ (fun _ => rfl) ?_
        have hx : x ≠ s := by
          rintro rfl
          cases hp : w.phase <;> rw [hp] at hq <;> simp only [Session.own?] at hq <;> cases hq
          · exact h1 rfl
          · exact h2 rfl
        unfold weight
        dsimp only
        rw [hr.1]
        simp [hx]
      · exact h

theorem turn_kept (h1 : s ≠ sigTrap) (h2 : s ≠ sigIll) (hs : s ≠ sigStop) (hc : s ≠ sigCont) {w : Session} (h : w.Kept s) (c : Config) (m : Turn) :
    (w.turn c m).Kept s := by
  cases m with
  | event e => exact event_kept hs hc h e
  | stepped => exact stepped_kept h1 h2 h
  | report p x => exact report_kept hs h c p x
  | next => exact next_kept h

theorem session_kept (h1 : s ≠ sigTrap) (h2 : s ≠ sigIll) (hs : s ≠ sigStop) (hc : s ≠ sigCont) (c : Config) :
    ∀ (l : List Turn) (w : Session), w.Kept s → (session c w l).Kept s
  | [], _, h => h
  | m :: l, _, h => session_kept h1 h2 hs hc c l _ (turn_kept h1 h2 hs hc h c m)

theorem begin_kept {c : Config} {table : List Pid} (h : Ready c k table) (hs : s ≠ sigStop) (hc : s ≠ sigCont) (skip : Bool) : (begin_ c skip k table).Kept s := by
  have hb : (begin_ c skip k table).sys = k ∧ (begin_ c skip k table).lost = [] := by unfold begin_; split <;> exact ⟨rfl, rfl⟩
  unfold Session.Kept
  rw [hb.1, hb.2]
  refine ⟨h.attached.1, ?_⟩
  have h0 : (k.threads.countP fun t => t.st = .trapped (.signal s)) = 0 := by
    rw [List.countP_eq_zero]
    intro t hm
    simp [(h.attached.2.2.1 t hm).2.1]
  rw [weigh_pending, h0, h.attached.2.2.2 s hs hc]
  unfold System.waiting
  simp only [List.count_nil]
  omega

/-! ## Where signals are lost -/

/-- A signal that is not one of the tracer's own is suppressed in the place given only. -/
theorem detachAll_lost : ∀ (l : List Pid) (w : Session), w.lost.count s ≤ (w.detachAll l).lost.count s
  | [], _ => Nat.le_refl _
  | p :: l, w => by
    unfold Session.detachAll
    cases hp : w.sys.thread? p with
    | none => exact detachAll_lost l w
    | some t =>
      dsimp only
      split
      · refine Nat.le_trans ?_ (detachAll_lost l _)
        simp only [Session.detach, List.count_append]
        omega
      · exact detachAll_lost l w

theorem held_zero {t : Thread} {x : Nat} (h : t.st = .trapped (.signal x)) (hx : x ≠ s) : t.st.held.count s = 0 := by
  rw [held_count, h]; simp [hx]

theorem lost_where (h1 : s ≠ sigTrap) (h2 : s ≠ sigIll) (h3 : s ≠ sigStkflt) {c : Config} {w : Session} (h : w.Ok c) (m : Turn)
    (hl : (w.turn c m).lost.count s ≠ w.lost.count s) :
    (c.attached = true ∧ m = .next ∧ ∃ q l, w.phase = .release q l) ∨
    ∃ q x, m = .report q x ∧ w.phase = .trace q ∧ (x.larx = true ∨ x.last = true) := by
  have hgo : ∀ (w : Session) (t : Thread), t.st.held.count s = 0 → (w.letGo t).lost.count s = w.lost.count s := by
    intro w t h
    simp only [Session.letGo, List.count_append, h]
    rfl
  have hgo' : ∀ (w : Session) (t : Thread), t.st.held.count s = 0 → (w.detach t).lost.count s = w.lost.count s := by
    intro w t h
    simp only [Session.detach, List.count_append, h]
    rfl
  have h0 : ∀ {t : Thread}, (∀ x, t.st ≠ .trapped (.signal x)) → t.st.held.count s = 0 := by
    intro t h; rw [held_count, if_neg (h s)]
  cases m with
  | event e => exact absurd rfl hl
  | stepped =>
    refine absurd ?_ hl
    show w.stepped.lost.count s = _
    unfold Session.stepped
    split
    · rfl
    · cases w.sys.thread? _ with
      | none => rfl
      | some t => dsimp only; split <;> rfl
  | next =>
    cases hp : w.phase with
    | starting l =>
      refine absurd ?_ hl
      show w.next.lost.count s = _
      unfold Session.next
      rw [hp]
      cases l with
      | nil => rfl
      | cons p l =>
        dsimp only
        cases ht : w.sys.thread? p with
        | none => rfl
        | some t =>
          dsimp only
          split
          · have hk := h.kin
            rw [hp] at hk
            have hs := held_thread hk (List.mem_cons_self : p ∈ p :: l) ht
            exact hgo w t (h0 (by simp [hs]))
          · rfl
    | release q l =>
      cases ha : c.attached with
      | true => exact .inl ⟨rfl, rfl, q, l, rfl⟩
      | false =>
        refine absurd ?_ hl
        show w.next.lost.count s = _
        unfold Session.next
        have hli := h.list
        rw [hp] at hli ⊢
        rw [hli ha]
        dsimp only
        cases ht : w.sys.thread? q with
        | none => rfl
        | some t =>
          dsimp only
          split
          · have hk := h.kin
            rw [hp] at hk
            have hs := held_thread hk (rfl : q = q) ht
            exact hgo w t (h0 (by simp [hs]))
          · rfl
    | _ =>
      refine absurd ?_ hl
      show w.next.lost.count s = _
      unfold Session.next
      rw [hp]
  | report p x =>
    replace hl : (w.report c p x).lost.count s ≠ w.lost.count s := hl
    unfold Session.report at hl
    cases hp : w.phase with
    | forward =>
      refine absurd ?_ hl
      rw [hp]
      dsimp only
      cases ht : w.sys.thread? p with
      | none => dsimp only; unfold Session.gone; split <;> split <;> rfl
      | some t =>
        dsimp only
        unfold Session.forwardTold
        cases hs : t.st with
        | trapped r =>
          cases r with
          | clone q =>
            dsimp only
            cases addPid w.table q with
            | none => rfl
            | some l => exact hgo _ t (h0 (by simp [hs]))
          | exit =>
            dsimp only
            split
            · exact hgo' _ t (h0 (by simp [hs]))
            · rfl
          | signal y =>
            dsimp only
            split
            · rename_i hy
              split
              · have := held_zero (s := s) hs (fun he => h3 (he ▸ hy))
                simp only [Session.choose, List.count_append, this]
                rfl
              · rfl
            · split
              · rename_i hy
                exact hgo w t (held_zero hs (fun he => h1 (he ▸ hy)))
              · rfl
          | stop => exact hgo w t (h0 (by simp [hs]))
        | _ => rfl
    | trace q =>
      right
      rw [hp] at hl
      dsimp only at hl
      cases ht : w.sys.thread? p with
      | none =>
        refine absurd ?_ hl
        rw [ht]
        dsimp only; unfold Session.gone; split <;> split <;> rfl
      | some t =>
        rw [ht] at hl
        dsimp only at hl
        have hid := (thread?_some ht).2
        have hown : t.id = q → (w.own t x).lost.count s ≠ w.lost.count s → ∃ q' x', Turn.report p x = .report q' x' ∧ Phase.trace q = .trace q' ∧
            (x'.larx = true ∨ x'.last = true) := by
          intro he ho
          refine ⟨p, x, rfl, by rw [← he, hid], ?_⟩
          unfold Session.own at ho
          split at ho
          · exact .inl ‹_›
          · split at ho
            · exact .inr ‹_›
            · refine absurd ?_ ho
              split
              · rename_i y hs
                split
                · rename_i hy
                  exact hgo w t (held_zero hs (fun he => h1 (he ▸ hy.1)))
                · rfl
              · rename_i hs
                exact hgo w t (h0 hs)
        unfold Session.traceTold at hl
        cases hs : t.st with
        | trapped r =>
          cases r with
          | clone q => rw [hs] at hl; exact absurd (hgo _ t (h0 (by simp [hs]))) hl
          | exit =>
            rw [hs] at hl
            dsimp only at hl
            split at hl
            · exact absurd rfl hl
            · exact absurd (hgo' _ t (h0 (by simp [hs]))) hl
          | signal y =>
            rw [hs] at hl
            dsimp only at hl
            split at hl
            · rename_i hy
              exact absurd (hgo _ t (held_zero hs (fun he => h3 (he ▸ hy)))) hl
            · split at hl
              · exact hown ‹_› hl
              · split at hl
                · rename_i hy
                  exact absurd (hgo _ t (held_zero hs (fun he => h2 (he ▸ hy)))) hl
                · exact absurd rfl hl
          | stop =>
            rw [hs] at hl
            dsimp only at hl
            split at hl
            · exact hown ‹_› hl
            · exact absurd (hgo _ t (h0 (by simp [hs]))) hl
        | _ => rw [hs] at hl; exact absurd rfl hl
    | atomic q =>
      refine absurd ?_ hl
      rw [hp]
      dsimp only
      split
      · cases ht : w.sys.thread? p with
        | none => rfl
        | some t =>
          dsimp only
          unfold Session.atomicTold
          cases hs : t.st with
          | trapped r =>
            cases r with
            | signal y =>
              dsimp only
              split
              · rename_i hy
                exact hgo w t (held_zero hs (fun he => h2 (he ▸ hy)))
              · rfl
            | _ => rfl
          | _ => rfl
      · rfl
    | _ => rw [hp] at hl; exact absurd rfl hl

/-! ## Every stop is answered -/

/-- The thread is not stopped any longer, or is held for being traced, or the tracer has ended. -/
def Session.Answered (w : Session) (p : Pid) : Prop :=
  (∃ n, w.phase = .ended n) ∨ w.phase = .crashed ∨ p ∉ w.sys.ids ∨
  (∃ t ∈ w.sys.threads, t.id = p ∧ t.st = .running) ∨
  ((∃ l, w.phase = .release p l) ∧ ∃ t ∈ w.sys.threads, t.id = p ∧ t.st = .captured)

theorem die_gone (k : System) (t : Thread) : t.id ∉ (k.die t).ids := by
  intro h
  obtain ⟨u, hu, he⟩ := List.mem_map.mp h
  have := (List.mem_filter.mp hu).2
  rw [he] at this
  simp at this

theorem letGo_answered {w : Session} {t : Thread} (ht : t ∈ w.sys.threads) : t.id ∉ (w.sys.letGo t).ids ∨ ∃ u ∈ (w.sys.letGo t).threads, u.id = t.id ∧ u.st = .running := by
  unfold System.letGo
  split
  · exact .inl (die_gone _ _)
  · exact .inr ⟨{ t with st := .running }, List.mem_map.mpr ⟨t, ht, by rw [if_pos rfl]⟩, rfl, rfl⟩

theorem Session.Answered.letGo {w : Session} {t : Thread} (ht : t ∈ w.sys.threads) (p : Phase) : ({ w.letGo t with phase := p } : Session).Answered t.id := by
  rcases letGo_answered ht with h | h
  · exact .inr (.inr (.inl h))
  · exact .inr (.inr (.inr (.inl h)))

theorem Session.Answered.pass {w : Session} {t : Thread} (ht : t ∈ w.sys.threads) {s : Nat} (hs : t.st = .trapped (.signal s)) (x : Nat) : (w.pass t x).Answered t.id := by
  refine .inr (.inr (.inr (.inl ?_)))
  simp only [Session.pass, System.cont, hs]
  have hm : { t with st := .running } ∈ upd t.id (fun t => { t with st := .running }) w.sys.threads := List.mem_map.mpr ⟨t, ht, by rw [if_pos rfl]⟩
  unfold System.deliver
  split
  · exact ⟨{ t with st := .running, mustStop := true }, List.mem_map.mpr ⟨{ t with st := .running }, hm, rfl⟩, rfl, rfl⟩
  · exact ⟨_, hm, rfl, rfl⟩

theorem detach_answered {w : Session} {t : Thread} (hs : t.st = .trapped .exit) : (w.detach t).Answered t.id := by
  refine .inr (.inr (.inl ?_))
  simp only [Session.detach, System.detach, hs]
  exact die_gone _ { t with seized := false }

theorem report_answered (c : Config) (w : Session) (p : Pid) (x : Look) {t : Thread} (ht : w.sys.thread? p = some t) {r : Report} (hs : t.st = .trapped r)
    (hp : w.phase = .forward ∨ (∃ q, w.phase = .trace q) ∨ w.phase = .atomic p) : (w.report c p x).Answered p := by
  obtain ⟨hm, hid⟩ := thread?_some ht
  have hover : ∀ (w : Session) n, (w.over n).Answered p := fun w n => .inl ⟨n, rfl⟩
  have hcrash : ∀ (w : Session), w.crash.Answered p := fun w => .inr (.inl rfl)
  have hgo : ∀ (table : List Pid), ({ w with table := table }.letGo t).Answered p := fun table => by
    rw [← hid]
    exact Session.Answered.letGo (w := { w with table := table }) hm _
  have hpass : ∀ s, r = .signal s → (w.pass t s).Answered p := fun s hr => by rw [← hid]; exact Session.Answered.pass hm (hr ▸ hs) s
  have hdet : ∀ (table : List Pid), r = .exit → ({ w with table := table }.detach t).Answered p := fun table hr => by
    rw [← hid]; exact detach_answered (hr ▸ hs)
  have hown : (w.own t x).Answered p := by
    unfold Session.own
    split
    · rw [← hid]; exact Session.Answered.letGo hm _
    · split
      · exact hover _ 0
      · split
        · rename_i s hst
          split
          · exact hgo _
          · exact hpass s (by rw [hst] at hs; injection hs with hs; exact hs.symm)
        · exact hgo _
  unfold Session.report
  rcases hp with hp | ⟨q, hp⟩ | hp
  · rw [hp]
    dsimp only
    rw [ht]
    dsimp only
    unfold Session.forwardTold
    rw [hs]
    cases r with
    | clone q =>
      dsimp only
      cases addPid w.table q with
      | none => exact hcrash _
      | some l => exact hgo l
    | exit =>
      dsimp only
      split
      · exact hdet _ rfl
      · exact hcrash _
    | signal s =>
      dsimp only
      split
      · split
        · refine .inr (.inr (.inr (.inr ⟨⟨_, by rw [← hid]; rfl⟩, ?_⟩)))
          exact ⟨{ t with st := .captured }, List.mem_map.mpr ⟨t, hm, by rw [if_pos rfl]⟩, hid, rfl⟩
        · exact hcrash _
      · split
        · exact hgo _
        · exact hpass s rfl
    | stop => exact hgo _
  · rw [hp]
    dsimp only
    rw [ht]
    dsimp only
    unfold Session.traceTold
    rw [hs]
    cases r with
    | clone q => exact hgo _
    | exit =>
      dsimp only
      split
      · exact hover _ 0
      · exact hdet _ rfl
    | signal s =>
      dsimp only
      split
      · exact hgo _
      · split
        · exact hown
        · split
          · exact hgo _
          · exact hpass s rfl
    | stop =>
      dsimp only
      split
      · exact hown
      · exact hgo _
  · rw [hp]
    dsimp only
    rw [if_pos rfl, ht]
    dsimp only
    unfold Session.atomicTold
    rw [hs]
    cases r with
    | signal s =>
      dsimp only
      split
      · rw [← hid]; exact Session.Answered.letGo hm _
      · exact hover _ 1
    | _ => exact hover _ 1

end Ptr.Attach
