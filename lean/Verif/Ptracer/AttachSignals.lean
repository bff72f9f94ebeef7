import Verif.Ptracer.AttachLemmas

/-! # No signal is lost while the tracer attaches -/

namespace Ptr.Attach

/-- How often a signal waits for a thread or is about to be delivered to it. -/
def weight (s : Nat) (t : Thread) : Nat := t.pending.count s + if t.st = .trapped (.signal s) then 1 else 0

def weigh (s : Nat) (l : List Thread) : Nat := (l.map (weight s)).sum

theorem weigh_cons (s : Nat) (t : Thread) (l : List Thread) : weigh s (t :: l) = weight s t + weigh s l := by simp [weigh]

theorem weigh_append (s : Nat) (l m : List Thread) : weigh s (l ++ m) = weigh s l + weigh s m := by simp [weigh]

theorem weigh_map (s : Nat) (f : Thread → Thread) : ∀ l : List Thread, (∀ t ∈ l, weight s (f t) = weight s t) → weigh s (l.map f) = weigh s l
  | [], _ => rfl
  | t :: l, h => by
    rw [List.map_cons, weigh_cons, weigh_cons, h t List.mem_cons_self, weigh_map s f l fun u hu => h u (List.mem_cons_of_mem _ hu)]

theorem upd_of_not_mem (p : Pid) (f : Thread → Thread) (l : List Thread) (h : p ∉ l.map (·.id)) : upd p f l = l := by
  unfold upd
  rw [List.map_congr_left (g := id), List.map_id]
  intro t ht
  rw [if_neg]
  · rfl
  · rintro rfl; exact h (List.mem_map.mpr ⟨t, ht, rfl⟩)

theorem weigh_upd (s : Nat) (p : Pid) (f : Thread → Thread) (t : Thread) (hp : t.id = p) : ∀ l : List Thread, (l.map (·.id)).Nodup → t ∈ l →
    weigh s (upd p f l) + weight s t = weigh s l + weight s (f t)
  | [], _, h => by cases h
  | a :: l, hn, h => by
    rw [List.map_cons, List.nodup_cons] at hn
    have e : upd p f (a :: l) = (if a.id = p then f a else a) :: upd p f l := rfl
    rw [e, weigh_cons, weigh_cons]
    by_cases ha : a.id = p
    · have : t = a := by
        rcases List.mem_cons.mp h with h' | h'
        · exact h'
        · exact absurd (List.mem_map.mpr ⟨t, h', hp.trans ha.symm⟩ : a.id ∈ l.map (·.id)) hn.1
      subst this
      rw [if_pos ha, upd_of_not_mem p f l (by rw [← ha]; exact hn.1)]
      omega
    · rw [if_neg ha]
      have h' : t ∈ l := by
        rcases List.mem_cons.mp h with h' | h'
        · subst h'; exact absurd hp ha
        · exact h'
      have := weigh_upd s p f t hp l hn.2 h'
      omega

theorem filter_ne_id (p : Pid) (l : List Thread) (h : p ∉ l.map (·.id)) : (l.filter fun u => u.id ≠ p) = l := by
  rw [List.filter_eq_self]
  intro t ht
  simp only [decide_eq_true_eq, ne_eq]
  rintro rfl
  exact h (List.mem_map.mpr ⟨t, ht, rfl⟩)

theorem weigh_filter (s : Nat) (t : Thread) : ∀ l : List Thread, (l.map (·.id)).Nodup → t ∈ l →
    weigh s (l.filter fun u => u.id ≠ t.id) + weight s t = weigh s l
  | [], _, h => by cases h
  | a :: l, hn, h => by
    rw [List.map_cons, List.nodup_cons] at hn
    rw [weigh_cons]
    by_cases ha : a.id = t.id
    · have : t = a := by
        rcases List.mem_cons.mp h with h' | h'
        · exact h'
        · exact absurd (List.mem_map.mpr ⟨t, h', ha.symm⟩ : a.id ∈ l.map (·.id)) hn.1
      subst this
      rw [List.filter_cons_of_neg (by simp), filter_ne_id t.id l hn.1]
      omega
    · rw [List.filter_cons_of_pos (by simpa using ha), weigh_cons]
      have h' : t ∈ l := by
        rcases List.mem_cons.mp h with h' | h'
        · subst h'; exact absurd rfl ha
        · exact h'
      have := weigh_filter s t l hn.2 h'
      omega

/-- Everything sent is somewhere; `n` times the signal has been suppressed. -/
structure Kept (s n : Nat) (k : System) : Prop where
  nodup : k.ids.Nodup
  kept : k.sent.count s = n + k.reached s + k.dropped.count s + k.shared.count s + weigh s k.threads

theorem reached_snoc (k : System) (s : Nat) (p : Pid) (x : Nat) :
    ((k.delivered ++ [(p, x)]).map (·.2)).count s = k.reached s + if x = s then 1 else 0 := by
  unfold System.reached
  rw [List.map_append, List.count_append]
  congr 1
  simp only [List.map_singleton, List.count_singleton, beq_iff_eq]

theorem count_filter_ne (s x : Nat) (h : s ≠ x) (l : List Nat) : (l.filter (· ≠ x)).count s = l.count s := by
  rw [List.count_filter]
  simpa using h

theorem count_snoc (l : List Nat) (x s : Nat) : (l ++ [x]).count s = l.count s + if x = s then 1 else 0 := by
  rw [List.count_append]
  simp only [List.count_singleton, beq_iff_eq]

section
variable {s n : Nat} {k : System}

theorem groupStop_kept (h : Kept s n k) : Kept s n k.groupStop := by
  refine ⟨?_, ?_⟩
  · have := h.nodup
    unfold System.ids System.groupStop at *
    dsimp only
    rw [List.map_map, List.map_congr_left (g := fun t : Thread => t.id)]
    · exact this
    · intro t _
      show (if t.st = .stopped then t else { t with mustStop := true }).id = t.id
      split <;> rfl
  · show _ = _ + _ + _ + _ + weigh s (k.threads.map _)
    rw [weigh_map]
    · exact h.kept
    · intro t _; split <;> rfl

/-- A signal that is not kept any longer is delivered. -/
theorem deliver_kept (hs : s ≠ sigStop) (x : Nat) (p : Pid) (hn : k.ids.Nodup)
    (h : k.sent.count s = n + k.reached s + k.dropped.count s + k.shared.count s + weigh s k.threads + if x = s then 1 else 0) : Kept s n (k.deliver p x) := by
  unfold System.deliver
  split
  · rename_i hx
    apply groupStop_kept
    refine ⟨hn, ?_⟩
    rw [hx, if_neg (fun he => hs he.symm)] at h
    exact h
  · refine ⟨hn, ?_⟩
    show k.sent.count s = n + ((k.delivered ++ [(p, x)]).map (·.2)).count s + k.dropped.count s + k.shared.count s + weigh s k.threads
    rw [reached_snoc, h]
    omega

theorem resume_weight (hs : s ≠ sigStop) (t : Thread) : weight s t.resume = weight s t := by
  unfold weight Thread.resume
  dsimp only
  rw [count_filter_ne s sigStop hs]
  congr 1
  cases ht : t.st <;> simp only
  · split <;> simp
  · split <;> simp

theorem generate_kept (hs : s ≠ sigStop) (hc : s ≠ sigCont) (h : Kept s n k) (x : Nat) : Kept s n (k.generate x) := by
  unfold System.generate
  split
  · refine ⟨?_, ?_⟩
    · show ((k.threads.map Thread.resume).map (·.id)).Nodup
      rw [List.map_map]
      exact h.nodup
    · show k.sent.count s = n + k.reached s + k.dropped.count s + (k.shared.filter (· ≠ sigStop)).count s + weigh s (k.threads.map Thread.resume)
      rw [count_filter_ne s sigStop hs, weigh_map s _ _ fun t _ => resume_weight hs t]
      exact h.kept
  · split
    · refine ⟨?_, ?_⟩
      · show ((k.threads.map fun t => { t with pending := t.pending.filter (· ≠ sigCont) }).map (·.id)).Nodup
        rw [List.map_map]
        exact h.nodup
      · show k.sent.count s = n + k.reached s + k.dropped.count s + (k.shared.filter (· ≠ sigCont)).count s +
          weigh s (k.threads.map fun t => { t with pending := t.pending.filter (· ≠ sigCont) })
        rw [count_filter_ne s sigCont hc, weigh_map s _ _ fun t _ => by unfold weight; dsimp only; rw [count_filter_ne s sigCont hc]]
        exact h.kept
    · exact h

theorem queue_kept (h : Kept s n k) (x : Nat) (to : Option Pid) : Kept s n (k.queue x to) := by
  have hk := h.kept
  cases to with
  | none =>
    refine ⟨h.nodup, ?_⟩
    show (k.sent ++ [x]).count s = n + k.reached s + k.dropped.count s + (k.shared ++ [x]).count s + weigh s k.threads
    rw [count_snoc, count_snoc]
    omega
  | some p =>
    simp only [System.queue]
    split
    · rename_i hp
      obtain ⟨t, hm, hp⟩ := List.mem_map.mp hp
      refine ⟨?_, ?_⟩
      · show ((upd p (fun t => { t with pending := t.pending ++ [x] }) k.threads).map (·.id)).Nodup
        rw [upd_ids p (fun t => { t with pending := t.pending ++ [x] }) fun _ => rfl]
        exact h.nodup
      · show (k.sent ++ [x]).count s = n + k.reached s + k.dropped.count s + k.shared.count s +
          weigh s (upd p (fun t => { t with pending := t.pending ++ [x] }) k.threads)
        have hw := weigh_upd s p (fun t => { t with pending := t.pending ++ [x] }) t hp k.threads h.nodup hm
        have e : weight s { t with pending := t.pending ++ [x] } = weight s t + if x = s then 1 else 0 := by
          unfold weight
          dsimp only
          rw [count_snoc]
          omega
        rw [count_snoc]
        simp only [e] at hw
        omega
    · exact h

theorem die_kept (h : Kept s n k) {t : Thread} (ht : t ∈ k.threads) (hst : ∀ x, t.st ≠ .trapped (.signal x)) : Kept s n (k.die t) := by
  have hk := h.kept
  refine ⟨?_, ?_⟩
  · exact (List.filter_sublist.map _).nodup h.nodup
  · show k.sent.count s = n + k.reached s + (k.dropped ++ t.pending).count s + k.shared.count s + weigh s (k.threads.filter fun u => u.id ≠ t.id)
    have hw := weigh_filter s t k.threads h.nodup ht
    have e : weight s t = t.pending.count s := by unfold weight; rw [if_neg (hst s)]; rfl
    rw [List.count_append]
    omega

/-- A thread changes, and what waits for it does not. -/
theorem upd_kept (h : Kept s n k) {t : Thread} {p : Pid} (ht : t ∈ k.threads) (hp : t.id = p) (f : Thread → Thread) (hf : ∀ t, (f t).id = t.id)
    (hw : weight s (f t) = weight s t) : Kept s n { k with threads := upd p f k.threads } := by
  have hk := h.kept
  refine ⟨?_, ?_⟩
  · show ((upd p f k.threads).map (·.id)).Nodup
    rw [upd_ids p f hf]
    exact h.nodup
  · show k.sent.count s = n + k.reached s + k.dropped.count s + k.shared.count s + weigh s (upd p f k.threads)
    have := weigh_upd s p f t hp k.threads h.nodup ht
    omega

/-- A signal that does not wait any longer is taken by a thread. -/
theorem taken_kept (hs : s ≠ sigStop) (x : Nat) (hn : k.ids.Nodup)
    (h : k.sent.count s = n + k.reached s + k.dropped.count s + k.shared.count s + weigh s k.threads + if x = s then 1 else 0)
    {t u : Thread} (ht : t ∈ k.threads) (hid : t.id = u.id) (hr : t.st = .running) : Kept s n (k.taken u x) := by
  unfold System.taken
  split
  · refine ⟨?_, ?_⟩
    · show ((upd u.id (fun t => { t with st := .trapped (.signal x) }) k.threads).map (·.id)).Nodup
      rw [upd_ids u.id (fun t => { t with st := .trapped (.signal x) }) fun _ => rfl]
      exact hn
    · show k.sent.count s = n + k.reached s + k.dropped.count s + k.shared.count s + weigh s (upd u.id (fun t => { t with st := .trapped (.signal x) }) k.threads)
      have hw := weigh_upd s u.id (fun t => { t with st := .trapped (.signal x) }) t hid k.threads hn ht
      have e1 : weight s t = t.pending.count s := by unfold weight; rw [hr]; simp
      have e2 : weight s { t with st := .trapped (.signal x) } = t.pending.count s + if x = s then 1 else 0 := by unfold weight; simp
      simp only [e1, e2] at hw
      omega
  · exact deliver_kept hs x _ hn h

theorem event_kept (hs : s ≠ sigStop) (hc : s ≠ sigCont) (h : Kept s n k) (e : Event) : Kept s n (k.event e) := by
  have hk := h.kept
  cases e with
  | send x to => exact queue_kept (generate_kept hs hc h x) x to
  | take p own x =>
    simp only [System.event]
    cases hp : k.thread? p with
    | none => exact h
    | some t =>
      obtain ⟨ht, hid⟩ := thread?_some hp
      dsimp only
      split
      · rename_i hr
        split
        · split
          · rename_i hx
            have ht' : { t with pending := t.pending.erase x } ∈ upd p (fun t => { t with pending := t.pending.erase x }) k.threads :=
              List.mem_map.mpr ⟨t, ht, by rw [if_pos hid]⟩
            refine taken_kept (k := { k with threads := upd p (fun t => { t with pending := t.pending.erase x }) k.threads }) hs x ?_ ?_ ht' rfl hr.1
            · show ((upd p (fun t => { t with pending := t.pending.erase x }) k.threads).map (·.id)).Nodup
              rw [upd_ids p (fun t => { t with pending := t.pending.erase x }) fun _ => rfl]
              exact h.nodup
            · show k.sent.count s = n + k.reached s + k.dropped.count s + k.shared.count s +
                weigh s (upd p (fun t => { t with pending := t.pending.erase x }) k.threads) + _
              have hw := weigh_upd s p (fun t => { t with pending := t.pending.erase x }) t hid k.threads h.nodup ht
              have e : weight s { t with pending := t.pending.erase x } + (if x = s then 1 else 0) = weight s t := by
                unfold weight
                dsimp only
                by_cases hxs : x = s
                · subst hxs
                  have := List.count_pos_iff.mpr hx
                  rw [List.count_erase_self, if_pos rfl]
                  omega
                · rw [List.count_erase_of_ne (fun h => hxs h.symm), if_neg hxs]
                  omega
              omega
          · exact h
        · split
          · rename_i hx
            refine taken_kept (k := { k with shared := k.shared.erase x }) hs x h.nodup ?_ ht rfl hr.1
            show k.sent.count s = n + k.reached s + k.dropped.count s + (k.shared.erase x).count s + weigh s k.threads + _
            by_cases hxs : x = s
            · subst hxs
              have := List.count_pos_iff.mpr hx
              rw [List.count_erase_self, if_pos rfl]
              omega
            · rw [List.count_erase_of_ne (fun h => hxs h.symm), if_neg hxs]
              omega
          · exact h
      · exact h
  | halt p =>
    simp only [System.event]
    cases hp : k.thread? p with
    | none => exact h
    | some t =>
      obtain ⟨ht, hid⟩ := thread?_some hp
      dsimp only
      split
      · rename_i hr
        refine upd_kept h ht hid _ (fun _ => rfl) ?_
        unfold weight
        dsimp only
        rw [hr.1]
        split <;> simp
      · exact h
  | notice p =>
    simp only [System.event]
    cases hp : k.thread? p with
    | none => exact h
    | some t =>
      obtain ⟨ht, hid⟩ := thread?_some hp
      dsimp only
      split
      · rename_i hr
        refine upd_kept h ht hid _ (fun _ => rfl) ?_
        unfold weight
        dsimp only
        rw [hr.1]
        simp
      · exact h
  | exit p =>
    simp only [System.event]
    cases hp : k.thread? p with
    | none => exact h
    | some t =>
      obtain ⟨ht, hid⟩ := thread?_some hp
      dsimp only
      split
      · rename_i hr
        split
        · refine upd_kept h ht hid _ (fun _ => rfl) ?_
          unfold weight
          dsimp only
          rw [hr]
          simp
        · exact die_kept h ht (by simp [hr])
      · exact h
  | clone p q =>
    simp only [System.event]
    cases hp : k.thread? p with
    | none => exact h
    | some t =>
      obtain ⟨ht, hid⟩ := thread?_some hp
      dsimp only
      split
      · rename_i hr
        obtain ⟨hr, hm, hq, hz⟩ := hr
        have happ : ∀ (k : System) (u : Thread), Kept s n k → u.id ∉ k.ids → weight s u = 0 → Kept s n { k with threads := k.threads ++ [u] } := by
          intro k u h hn hw
          refine ⟨?_, ?_⟩
          · show ((k.threads ++ [u]).map (·.id)).Nodup
            rw [List.map_append, List.nodup_append]
            exact ⟨h.nodup, List.pairwise_singleton .., fun a ha b hb => by
              rw [List.map_singleton, List.mem_singleton] at hb; rintro rfl; rw [hb] at ha; exact hn ha⟩
          · show k.sent.count s = n + k.reached s + k.dropped.count s + k.shared.count s + weigh s (k.threads ++ [u])
            rw [weigh_append, weigh_cons, hw]
            exact h.kept
        split
        · refine happ { k with threads := upd p (fun t => { t with st := .trapped (.clone q) }) k.threads } _ ?_ ?_ (by simp [weight])
          · refine upd_kept h ht hid _ (fun _ => rfl) ?_
            unfold weight
            dsimp only
            rw [hr]
            simp
          · show q ∉ (upd p (fun t => { t with st := .trapped (.clone q) }) k.threads).map (·.id)
            rw [upd_ids p (fun t => { t with st := .trapped (.clone q) }) fun _ => rfl]
            exact hq
        · exact happ k _ h hq (by simp [weight])
      · exact h

theorem abandon_weight (job : Bool) (t : Thread) : weight s (t.abandon job) = weight s t := by
  obtain ⟨id, seized, mustStop, st, pending⟩ := t
  unfold Thread.abandon
  dsimp only
  split
  · cases st with
    | trapped r =>
      cases r with
      | signal x =>
        unfold weight
        cases job <;> simp [List.count_cons]
      | _ => unfold weight; cases job <;> simp
    | _ => unfold weight; cases job <;> simp
  · rfl

theorem weigh_split (l : List Thread) : weigh s l =
    weigh s (l.filter fun t => t.st ≠ .trapped .exit) + ((l.filter fun t => t.st = .trapped .exit).flatMap (·.pending)).count s := by
  induction l with
  | nil => rfl
  | cons t l ih =>
    rw [weigh_cons, ih]
    by_cases ht : t.st = .trapped .exit
    · rw [List.filter_cons_of_neg (by simp [ht]), List.filter_cons_of_pos (by simp [ht]), List.flatMap_cons, List.count_append]
      have : weight s t = t.pending.count s := by unfold weight; rw [ht]; simp
      omega
    · rw [List.filter_cons_of_pos (by simp [ht]), List.filter_cons_of_neg (by simp [ht]), weigh_cons]
      omega

theorem abandon_kept (h : Kept s n k) : Kept s n k.abandon := by
  have hk := h.kept
  refine ⟨?_, ?_⟩
  · show (((k.threads.filter fun t => t.st ≠ .trapped .exit).map (Thread.abandon k.job)).map (·.id)).Nodup
    rw [List.map_map, List.map_congr_left (f := (fun t : Thread => t.id) ∘ Thread.abandon k.job) (g := fun t : Thread => t.id) fun t _ => abandon_id k.job t]
    exact (List.filter_sublist.map _).nodup h.nodup
  · show k.sent.count s = n + k.reached s + (k.dropped ++ ((k.threads.filter fun t => t.st = .trapped .exit).flatMap (·.pending))).count s + k.shared.count s +
      weigh s ((k.threads.filter fun t => t.st ≠ .trapped .exit).map (Thread.abandon k.job))
    rw [weigh_map s _ _ fun t _ => abandon_weight k.job t, List.count_append]
    have := weigh_split (s := s) k.threads
    omega

theorem seize_kept (h : Kept s n k) {k' : System} {p : Pid} (hz : k.seize p = some k') : Kept s n k' := by
  obtain ⟨t, ht, hid, -, rfl⟩ := seize_ok (leader := p) hz
  exact upd_kept h ht hid _ (fun _ => rfl) rfl

end

theorem waitFor_kept {s n : Nat} (hs : s ≠ sigStop) {w : World} (h : Kept s n w.sys) (leader p : Pid) (next : Pc) : Kept s n (w.waitFor leader p next).sys := by
  have hk := h.kept
  unfold World.waitFor
  cases hp : w.sys.thread? p with
  | none =>
    dsimp only
    split
    · split
      · exact h
      · exact ⟨h.nodup, h.kept⟩
    · exact abandon_kept h
  | some t =>
    obtain ⟨ht, hid⟩ := thread?_some hp
    dsimp only
    split
    · rename_i hst
      refine upd_kept h ht hid _ (fun _ => rfl) ?_
      unfold weight; dsimp only; rw [hst]; simp
    · rename_i x hst
      simp only [System.cont, hst]
      refine deliver_kept (k := { w.sys with threads := upd t.id (fun t => { t with st := .running }) w.sys.threads }) hs x _ ?_ ?_
      · show ((upd t.id (fun t => { t with st := .running }) w.sys.threads).map (·.id)).Nodup
        rw [upd_ids t.id (fun t => { t with st := .running }) fun _ => rfl]
        exact h.nodup
      · show w.sys.sent.count s = n + w.sys.reached s + w.sys.dropped.count s + w.sys.shared.count s +
          weigh s (upd t.id (fun t => { t with st := .running }) w.sys.threads) + _
        have hw := weigh_upd s t.id (fun t => { t with st := .running }) t rfl w.sys.threads h.nodup ht
        have e1 : weight s t = t.pending.count s + if x = s then 1 else 0 := by unfold weight; rw [hst]; simp
        have e2 : weight s { t with st := .running } = t.pending.count s := by unfold weight; simp
        simp only [e1, e2] at hw
        omega
    · rename_i q hst
      simp only [System.cont, hst]
      refine upd_kept h ht rfl _ (fun _ => rfl) ?_
      unfold weight; dsimp only; rw [hst]; simp
    · rename_i hst
      simp only [System.cont, hst]
      exact die_kept h ht (by simp [hst])
    all_goals exact h

theorem step_kept {s n : Nat} (hs : s ≠ sigStop) (hc : s ≠ sigCont) {w : World} (h : Kept s n w.sys) (leader : Pid) : Kept s n (w.step leader).sys := by
  obtain ⟨k, pc, table⟩ := w
  unfold World.step
  dsimp only at *
  cases pc with
  | begin =>
    dsimp only
    cases hz : k.seize leader with
    | none => exact abandon_kept h
    | some k' => exact seize_kept h hz
  | stop => exact queue_kept (generate_kept hs hc h sigStop) sigStop none
  | wait => exact waitFor_kept hs h _ _ _
  | list =>
    dsimp only
    split
    · exact abandon_kept h
    · exact h
  | seize l =>
    cases l with
    | nil => exact h
    | cons p l =>
      dsimp only
      split
      · exact h
      · cases hz : k.seize p with
        | none => exact abandon_kept h
        | some k' => exact seize_kept h hz
  | await l =>
    cases l with
    | nil => exact h
    | cons p l =>
      dsimp only
      split
      · exact h
      · exact waitFor_kept hs h _ _ _
  | interrupt l =>
    cases l with
    | nil => exact h
    | cons p l =>
      dsimp only
      cases k.thread? p with
      | none => exact abandon_kept h
      | some t =>
        dsimp only
        split
        · exact h
        · exact abandon_kept h
  | resume => exact queue_kept (generate_kept hs hc h sigCont) sigCont none
  | returned => exact h
  | failed => exact h

theorem run_kept {s n : Nat} (hs : s ≠ sigStop) (hc : s ≠ sigCont) (leader : Pid) : ∀ (l : List Move) (w : World), Kept s n w.sys → Kept s n (run leader w l).sys
  | [], _, h => h
  | .event e :: l, _, h => run_kept hs hc leader l _ (event_kept hs hc h e)
  | .tracer :: l, _, h => run_kept hs hc leader l _ (step_kept hs hc h leader)

theorem weigh_pending (s : Nat) (l : List Thread) : weigh s l = (l.flatMap (·.pending)).count s + l.countP fun t => t.st = .trapped (.signal s) := by
  induction l with
  | nil => rfl
  | cons t l ih =>
    rw [weigh_cons, ih, List.flatMap_cons, List.count_append, List.countP_cons]
    unfold weight
    simp only [decide_eq_true_eq]
    omega

theorem start_kept {s : Nat} {k : System} (h : k.Untraced) : Kept s 0 k := by
  obtain ⟨hn, -, hd, hp, hs, ht, -⟩ := h
  refine ⟨hn, ?_⟩
  have h0 : (k.threads.countP fun t => t.st = .trapped (.signal s)) = 0 := by
    rw [List.countP_eq_zero]
    intro t hm
    rcases (ht t hm).2 with h | h <;> simp [h]
  rw [weigh_pending, h0, hs, List.count_append]
  unfold System.reached
  rw [hd, hp]
  simp

end Ptr.Attach
