import Verif.Ptracer.SpecCounters
import Verif.Ptracer.PropsLoop

/-!
# C116: the counters of skipping; C117: the limit of open files
-/

namespace Ptr.Cnt
open Ptr Ptr.Cnt.Spec

/-- An entry of the table and its counter. -/
def pair (period : BitVec 64) (x : Pid × Nat) : Nat × Counter := (x.2, wanted period x.1)

/-- The counters that are open are those of the table and those that were open before. -/
def Inv (base : Sys) (period : BitVec 64) (t : Table) (s : Sys) : Prop :=
  s.files = base.files ∧ (s.counters.map (·.1)).Nodup ∧ ∃ news, s.counters = news ++ base.counters ∧ news.Perm (t.map (pair period))

theorem change_fresh {s : Sys} {fd : Nat} {c : Counter} {f : Counter → Counter} (h : fd ∉ s.counters.map (·.1)) :
    change { s with counters := (fd, c) :: s.counters } fd f = { s with counters := (fd, f c) :: s.counters } := by
  unfold change
  rw [List.map_cons, if_pos rfl]
  congr 2
  conv => rhs; rw [← List.map_id s.counters]
  apply List.map_congr_left
  intro x hx
  rw [if_neg, id]
  rintro rfl
  exact h (List.mem_map_of_mem hx)

theorem setup_fresh {s s' : Sys} {p : Pid} {period : BitVec 64} {a : Ans} {fd : Nat} (hf : Unused s a) (h : setup s p period a = some (fd, s')) :
    s' = { s with counters := (fd, wanted period p) :: s.counters } ∧ fd ∉ s.counters.map (·.1) := by
  unfold setup at h
  split at h
  · cases h
  · next n hn =>
    have hn' := (hf n hn).2
    dsimp only at h
    split at h
    · cases h
    · split at h
      · cases h
      · simp only [Option.some.injEq, Prod.mk.injEq] at h
        obtain ⟨rfl, rfl⟩ := h
        rw [change_fresh hn', change_fresh hn']
        exact ⟨rfl, hn'⟩

theorem inv_setup {base s s' : Sys} {p : Pid} {period : BitVec 64} {a : Ans} {fd : Nat} {t : Table} (hi : Inv base period t s) (hf : Unused s a)
    (h : setup s p period a = some (fd, s')) : Inv base period (t ++ [(p, fd)]) s' := by
  obtain ⟨h1, h2, news, h3, h4⟩ := hi
  obtain ⟨rfl, hn⟩ := setup_fresh hf h
  refine ⟨h1, ?_, (fd, wanted period p) :: news, ?_, ?_⟩
  · rw [List.map_cons, List.nodup_cons]
    exact ⟨hn, h2⟩
  · dsimp only
    rw [h3, List.cons_append]
  · rw [List.map_append]
    exact ((List.Perm.cons _ h4).trans (List.perm_append_comm (l₁ := [_])))

theorem find_split {t : Table} {p : Pid} {x : Pid × Nat} (h : t.find? (·.1 == p) = some x) :
    x.1 = p ∧ ∃ l r, t = l ++ x :: r ∧ t.eraseP (·.1 == p) = l ++ r := by
  obtain ⟨h1, l, r, rfl, h3⟩ := List.find?_eq_some_iff_append.1 h
  refine ⟨beq_iff_eq.1 h1, l, r, rfl, ?_⟩
  rw [List.eraseP_append_right _ (by
    intro b hb
    have := h3 b hb
    simpa using this), List.eraseP_cons_of_pos (p := fun y : Pid × Nat => y.1 == p) h1]

theorem inv_teardown {base s s' : Sys} {period : BitVec 64} {l r : Table} {x : Pid × Nat} (hi : Inv base period (l ++ x :: r) s)
    (h : teardown s x.2 = some s') : Inv base period (l ++ r) s' := by
  obtain ⟨h1, h2, news, h3, h4⟩ := hi
  unfold teardown at h
  split at h
  · simp only [Option.some.injEq] at h
    subst h
    refine ⟨h1, ?_, news.filter (·.1 != x.2), ?_, ?_⟩
    · exact h2.sublist (List.Sublist.map _ List.filter_sublist)
    · dsimp only
      rw [h3, List.filter_append]
      congr 1
      rw [List.filter_eq_self]
      intro y hy
      rw [h3, List.map_append, List.nodup_append] at h2
      have hx : x.2 ∈ news.map (·.1) := List.mem_map.2 ⟨pair period x, h4.symm.subset (List.mem_map_of_mem (by simp)), rfl⟩
      have := h2.2.2 _ hx _ (List.mem_map_of_mem hy)
      simpa using fun e => this e.symm
    · have hn : ((l ++ x :: r).map (pair period)).map (·.1) |>.Nodup := by
        refine ((h4.map (·.1)).nodup_iff).1 ?_
        rw [h3, List.map_append] at h2
        exact (List.nodup_append.1 h2).1
      have k : ((l ++ x :: r).map (pair period)).filter (·.1 != x.2) = (l ++ r).map (pair period) := by
        rw [List.map_append, List.map_cons, List.filter_append, List.filter_cons_of_neg (by simp [pair]), List.map_append]
        rw [List.map_append, List.map_cons, List.map_append, List.map_cons, List.nodup_append, List.nodup_cons] at hn
        obtain ⟨-, ⟨n2, -⟩, n3⟩ := hn
        congr 1
        · rw [List.filter_eq_self]
          intro y hy
          simpa using n3 y.1 (List.mem_map_of_mem hy) x.2 List.mem_cons_self
        · rw [List.filter_eq_self]
          intro y hy
          have : y.1 ≠ x.2 := fun e => n2 (List.mem_map.2 ⟨y, hy, e⟩)
          simpa using this
      rw [← k]
      exact h4.filter _
  · cases h

theorem inv_setupAll {base : Sys} {period : BitVec 64} : ∀ (l : List (Pid × Ans)) (t₀ : Table) (s : Sys), Inv base period t₀ s → FreshAll period s l →
    ∀ t s', setupAll period s l = some (t, s') → Inv base period (t₀ ++ t) s' ∧ t.map (·.1) = l.map (·.1) := by
  intro l
  induction l with
  | nil =>
    intro t₀ s hi _ t s' h
    simp only [setupAll, Option.some.injEq, Prod.mk.injEq] at h
    obtain ⟨rfl, rfl⟩ := h
    exact ⟨by rw [List.append_nil]; exact hi, rfl⟩
  | cons x l ih =>
    obtain ⟨p, a⟩ := x
    intro t₀ s hi hf t s' h
    unfold setupAll at h
    split at h
    · cases h
    · next fd s₁ he =>
      split at h
      · cases h
      · next t₁ s₂ hr =>
        simp only [Option.some.injEq, Prod.mk.injEq] at h
        obtain ⟨rfl, rfl⟩ := h
        obtain ⟨k1, k2⟩ := ih (t₀ ++ [(p, fd)]) s₁ (inv_setup hi hf.1 he) (hf.2 _ _ he) _ _ hr
        rw [List.append_assoc] at k1
        exact ⟨k1, by rw [List.map_cons, k2]; rfl⟩

theorem erase_pids {t : Table} {p : Pid} {x : Pid × Nat} (h : t.find? (·.1 == p) = some x) : (t.eraseP (·.1 == p)).map (·.1) = removePid (t.map (·.1)) p := by
  obtain ⟨h1, l, r, rfl, h3⟩ := List.find?_eq_some_iff_append.1 h
  obtain ⟨-, l', r', e1, e2⟩ := find_split h
  have hi : findPid ((l ++ x :: r).map (·.1)) p = some l.length := by
    unfold findPid
    rw [List.findIdx?_map, List.findIdx?_append, List.findIdx?_cons]
    have : List.findIdx? ((fun y => y == p) ∘ fun x : Pid × Nat => x.1) l = none := by
      rw [List.findIdx?_eq_none_iff]
      intro y hy
      simpa using h3 y hy
    rw [this]
    have h1' : ((fun y => y == p) ∘ fun x : Pid × Nat => x.1) x = true := h1
    rw [h1']
    simp
  unfold removePid
  rw [hi]
  dsimp only
  rw [List.eraseP_append_right _ (by
    intro b hb
    have := h3 b hb
    simpa using this), List.eraseP_cons_of_pos (p := fun y : Pid × Nat => y.1 == p) h1]
  simp [List.map_append, List.take_append, List.drop_append]

/-- A step keeps the invariant, and the table has the ids that the table of `forwardStep` has. -/
theorem step_inv {base : Sys} {period : BitVec 64} {t t' : Table} {s s' : Sys} {e : Stop} {a : Ans} (hi : Inv base period t s) (hf : Unused s a)
    (h : step period t s e a = .go t' s') : Inv base period t' s' ∧ t'.map (·.1) = tableAfter (t.map (·.1)) [e] := by
  unfold step at h
  change _ ∧ _ = if _ then _ else if _ then _ else _
  split at h
  · cases h
  · split at h
    · next hb =>
      rw [if_pos hb]
      split at h
      · cases h
      · next hl =>
        split at h
        · cases h
        · next fd s₁ he =>
          simp only [Out.go.injEq] at h
          obtain ⟨rfl, rfl⟩ := h
          refine ⟨inv_setup hi hf he, ?_⟩
          unfold addPid' addPid
          rw [if_neg (by rw [List.length_map]; exact hl), List.map_append]
          rfl
    · next hb =>
      rw [if_neg hb]
      split at h
      · next hx =>
        rw [if_pos hx]
        split at h
        · cases h
        · next x hx' =>
          split at h
          · cases h
          · next s₁ he =>
            simp only [Out.go.injEq] at h
            obtain ⟨rfl, rfl⟩ := h
            obtain ⟨-, l, r, e1, e2⟩ := find_split hx'
            refine ⟨?_, erase_pids hx'⟩
            rw [e2]
            exact inv_teardown (e1 ▸ hi) he
      · next hx =>
        rw [if_neg hx]
        split at h
        · split at h
          · cases h
          · cases h
        · simp only [Out.go.injEq] at h
          obtain ⟨rfl, rfl⟩ := h
          exact ⟨hi, rfl⟩

theorem step_chosen {period : BitVec 64} {t t' : Table} {s s' : Sys} {e : Stop} {a : Ans} {p : Pid} {fd : Nat} (h : step period t s e a = .chosen t' s' p fd) :
    t' = t ∧ s' = s ∧ p = e.pid ∧ t.find? (·.1 == p) = some (p, fd) := by
  unfold step at h
  split at h
  · cases h
  · split at h
    · split at h
      · cases h
      · split at h <;> cases h
    · split at h
      · split at h
        · cases h
        · split at h <;> cases h
      · split at h
        · split at h
          · cases h
          · next x hx =>
            simp only [Out.chosen.injEq] at h
            obtain ⟨rfl, rfl, rfl, rfl⟩ := h
            refine ⟨rfl, rfl, rfl, ?_⟩
            rw [hx, ← (find_split hx).1]
        · cases h

theorem run_go {base : Sys} {period : BitVec 64} : ∀ (l : List (Stop × Ans)) (t : Table) (s : Sys), Inv base period t s → FreshRun period t s l →
    ∀ t' s', run period t s l = .go t' s' → Inv base period t' s' ∧ t'.map (·.1) = tableAfter (t.map (·.1)) (l.map (·.1)) := by
  intro l
  induction l with
  | nil =>
    intro t s hi _ t' s' h
    simp only [run, Out.go.injEq] at h
    obtain ⟨rfl, rfl⟩ := h
    exact ⟨hi, rfl⟩
  | cons x l ih =>
    obtain ⟨e, a⟩ := x
    intro t s hi hf t' s' h
    unfold run at h
    cases hs : step period t s e a with
    | go t₁ s₁ =>
      rw [hs] at h
      obtain ⟨k1, k2⟩ := step_inv hi hf.1 hs
      obtain ⟨j1, j2⟩ := ih t₁ s₁ k1 (hf.2 _ _ hs) t' s' h
      refine ⟨j1, ?_⟩
      rw [j2, k2]
      unfold tableAfter
      rw [List.map_cons, ← List.foldl_append]
      rfl
    | chosen t₁ s₁ p fd => rw [hs] at h; cases h
    | exit => rw [hs] at h; cases h
    | crash => rw [hs] at h; cases h

theorem run_chosen {base : Sys} {period : BitVec 64} : ∀ (l : List (Stop × Ans)) (t : Table) (s : Sys), Inv base period t s → FreshRun period t s l →
    ∀ t' s' p fd, run period t s l = .chosen t' s' p fd → Inv base period t' s' ∧ t'.find? (·.1 == p) = some (p, fd) := by
  intro l
  induction l with
  | nil =>
    intro t s _ _ t' s' p fd h
    cases h
  | cons x l ih =>
    obtain ⟨e, a⟩ := x
    intro t s hi hf t' s' p fd h
    unfold run at h
    cases hs : step period t s e a with
    | go t₁ s₁ =>
      rw [hs] at h
      exact ih t₁ s₁ (step_inv hi hf.1 hs).1 (hf.2 _ _ hs) t' s' p fd h
    | chosen t₁ s₁ q n =>
      rw [hs] at h
      simp only [Out.chosen.injEq] at h
      obtain ⟨rfl, rfl, rfl, rfl⟩ := h
      obtain ⟨rfl, rfl, -, k⟩ := step_chosen hs
      exact ⟨hi, k⟩
    | exit => rw [hs] at h; cases h
    | crash => rw [hs] at h; cases h

theorem inv_teardownAll {base : Sys} {period : BitVec 64} : ∀ (t : Table) (s : Sys), Inv base period t s → teardownAll s t = some base := by
  intro t
  induction t with
  | nil =>
    intro s ⟨h1, h2, news, h3, h4⟩
    have : news = [] := h4.eq_nil
    subst this
    obtain ⟨f, c⟩ := s
    obtain ⟨f', c'⟩ := base
    simp only at h1
    simp only [List.nil_append] at h3
    rw [h1, h3]
    rfl
  | cons x t ih =>
    intro s hi
    have ht : ∃ s', teardown s x.2 = some s' := by
      obtain ⟨h1, h2, news, h3, h4⟩ := hi
      refine ⟨_, if_pos ?_⟩
      rw [List.any_eq_true]
      exact ⟨pair period x, by rw [h3]; exact List.mem_append_left _ (h4.symm.subset (List.mem_map_of_mem List.mem_cons_self)), beq_self_eq_true _⟩
    obtain ⟨s', hs⟩ := ht
    unfold teardownAll
    rw [hs]
    exact ih s' (inv_teardown (l := []) hi hs)

theorem inv_start {base : Sys} {period : BitVec 64} (h : Sane base) : Inv base period [] base := ⟨rfl, h, [], rfl, List.Perm.nil⟩

/-- While threads run and are skipped over, whatever is reported of them: the counters that are open are those that were open before and, for each thread of the table, one
that counts it and stops it; the other files are as before. -/
theorem C116_counters {skip : BitVec 64} {base s₁ s : Sys} {before : List (Pid × Ans)} {stops : List (Stop × Ans)} {t₁ t : Table} (hb : Sane base)
    (h1 : FreshAll (ffPeriod skip) base before) (e1 : setupAll (ffPeriod skip) base before = some (t₁, s₁)) (h2 : FreshRun (ffPeriod skip) t₁ s₁ stops)
    (e2 : run (ffPeriod skip) t₁ s₁ stops = .go t s) :
    s.files = base.files ∧ (s.counters.map (·.1)).Nodup ∧ s.counters.Perm (t.map (fun x => (x.2, wanted (skip - 200#64) x.1)) ++ base.counters) := by
  obtain ⟨k1, -⟩ := inv_setupAll before [] base (inv_start hb) h1 t₁ s₁ e1
  obtain ⟨⟨j1, j2, news, j3, j4⟩, -⟩ := run_go stops t₁ s₁ k1 h2 t s e2
  refine ⟨j1, j2, ?_⟩
  rw [j3]
  exact j4.append_right _

/-- If the reports come in the order of the events and there are not too many threads: exactly the threads that live have such a counter, and each has one. -/
theorem C116_living_partial {skip : BitVec 64} {base s₁ s : Sys} {before : List (Pid × Ans)} {stops : List (Stop × Ans)} {t₁ t : Table} (hb : Sane base)
    (h1 : FreshAll (ffPeriod skip) base before) (e1 : setupAll (ffPeriod skip) base before = some (t₁, s₁)) (h2 : FreshRun (ffPeriod skip) t₁ s₁ stops)
    (e2 : run (ffPeriod skip) t₁ s₁ stops = .go t s) (hn : (before.map (·.1)).Nodup) (ho : Ordered (before.map (·.1)) (stops.map (·.1)))
    (hc : before.length + births (stops.map (·.1)) ≤ maxPids) (p : Pid) :
    (Lives (before.map (·.1)) (stops.map (·.1)) p → ∃ fd, fd ∉ base.counters.map (·.1) ∧ ∀ c, c ∈ s.counters ∧ c.2.tid = p ∧ c ∉ base.counters ↔ c = (fd, wanted (skip - 200#64) p)) ∧
    (¬ Lives (before.map (·.1)) (stops.map (·.1)) p → ∀ c, c ∈ s.counters → c.2.tid = p → c ∈ base.counters) := by
  obtain ⟨k1, k2⟩ := inv_setupAll before [] base (inv_start hb) h1 t₁ s₁ e1
  obtain ⟨⟨j1, j2, news, j3, j4⟩, j5⟩ := run_go stops t₁ s₁ k1 h2 t s e2
  rw [k2] at j5
  obtain ⟨l1, l2, l3⟩ := table_lives (before.map (·.1)) hn (stops.map (·.1)) ho (by rw [List.length_map]; exact hc)
  rw [← j5] at l1 l3
  rw [j3, List.map_append, List.nodup_append] at j2
  refine ⟨fun hl => ?_, fun hl c hc' ht => ?_⟩
  · obtain ⟨x, hx, rfl⟩ := List.mem_map.1 ((l3 p).2 hl)
    have hx' : pair (ffPeriod skip) x ∈ news := j4.symm.subset (List.mem_map_of_mem hx)
    refine ⟨x.2, fun h => j2.2.2 _ (List.mem_map_of_mem hx') _ h rfl, fun c => ⟨fun ⟨c1, c2, c3⟩ => ?_, ?_⟩⟩
    · rw [j3, List.mem_append] at c1
      rcases c1 with c1 | c1
      · obtain ⟨y, hy, rfl⟩ := List.mem_map.1 (j4.subset c1)
        have : y.1 = x.1 := c2
        have e : y = x := by
          obtain ⟨i, hi, rfl⟩ := List.getElem_of_mem hy
          obtain ⟨j, hj, rfl⟩ := List.getElem_of_mem hx
          have := (List.getElem_inj (i := i) (j := j) (h₀ := by rw [List.length_map]; exact hi) (h₁ := by rw [List.length_map]; exact hj) l1).1
            (by rw [List.getElem_map, List.getElem_map]; exact this)
          subst this
          rfl
        rw [e]
        rfl
      · exact absurd c1 c3
    · rintro rfl
      refine ⟨by rw [j3]; exact List.mem_append_left _ hx', rfl, fun h => j2.2.2 _ (List.mem_map_of_mem hx') _ (List.mem_map_of_mem h) rfl⟩
  · rw [j3, List.mem_append] at hc'
    rcases hc' with c1 | c1
    · obtain ⟨y, hy, rfl⟩ := List.mem_map.1 (j4.subset c1)
      exact absurd ((l3 p).1 (List.mem_map.2 ⟨y, hy, ht⟩)) hl
    · exact c1

/-- When skipping is over, none of the counters is left, and no other descriptor is touched; the end is never that a counter cannot be given back; and what is still to be
skipped is what was asked for less what the counter of the chosen thread says. -/
theorem C116_end {skip : BitVec 64} {base s₁ s₂ : Sys} {before : List (Pid × Ans)} {stops : List (Stop × Ans)} {t₁ t₂ : Table} {p : Pid} {fd : Nat} (hb : Sane base)
    (h1 : FreshAll (ffPeriod skip) base before) (e1 : setupAll (ffPeriod skip) base before = some (t₁, s₁)) (h2 : FreshRun (ffPeriod skip) t₁ s₁ stops)
    (e2 : run (ffPeriod skip) t₁ s₁ stops = .chosen t₂ s₂ p fd) (count : Nat → BitVec 64) :
    (fd, wanted (skip - 200#64) p) ∈ s₂.counters ∧ ∃ left, forward skip base before stops count = some ⟨p, left, base⟩ ∧ left.toNat = skip.toNat - (count fd).toNat := by
  obtain ⟨k1, -⟩ := inv_setupAll before [] base (inv_start hb) h1 t₁ s₁ e1
  obtain ⟨k3, k4⟩ := run_chosen stops t₁ s₁ k1 h2 t₂ s₂ p fd e2
  refine ⟨?_, fastForward skip (count fd), ?_, ?_⟩
  · obtain ⟨-, -, news, j3, j4⟩ := k3
    rw [j3]
    exact List.mem_append_left _ (j4.symm.subset (List.mem_map.2 ⟨(p, fd), List.mem_of_find?_eq_some k4, rfl⟩))
  · unfold forward
    rw [e1]
    dsimp only
    rw [e2]
    dsimp only
    rw [inv_teardownAll t₂ s₂ k3]
  · unfold fastForward
    split
    · next h =>
      have : skip.toNat < (count fd).toNat := h
      change 0 = _
      omega
    · next h =>
      have : ¬ skip.toNat < (count fd).toNat := h
      rw [BitVec.toNat_sub_of_le (by rw [BitVec.le_def]; omega)]

/-! ### The limit of open files -/

theorem turns_some {nrOpen : Nat} {l : Limit} (hn : l.hard ≤ nrOpen) : ∀ (n new : Nat), new < 2 ^ n → ∃ l', turns nrOpen l (n + 1) new = some l' ∧ l'.hard = l.hard ∧
    l'.soft ≤ l.hard ∧ (l'.soft = new ∨ new > l.hard ∧ l.hard < 2 * l'.soft + 2) ∧ l'.soft ≤ new := by
  intro n
  induction n with
  | zero =>
    intro new h
    have : new = 0 := by omega
    subst this
    refine ⟨{ l with soft := 0 }, ?_, rfl, Nat.zero_le _, Or.inl rfl, Nat.le_refl _⟩
    unfold turns turn setLimit
    rw [if_pos ⟨Nat.zero_le _, hn⟩]
  | succ n ih =>
    intro new h
    unfold turns turn setLimit
    by_cases hh : new ≤ l.hard
    · rw [if_pos ⟨hh, hn⟩]
      exact ⟨_, rfl, rfl, hh, Or.inl rfl, Nat.le_refl _⟩
    · rw [if_neg (fun k => hh k.1)]
      dsimp only
      obtain ⟨l', k1, k2, k3, k4, k5⟩ := ih (new / 2) (by omega)
      refine ⟨l', k1, k2, k3, Or.inr ?_, by omega⟩
      rcases k4 with k4 | k4 <;> omega

theorem turns_mono {nrOpen : Nat} {l l' : Limit} : ∀ (n new m : Nat), turns nrOpen l n new = some l' → n ≤ m → turns nrOpen l m new = some l' := by
  intro n
  induction n with
  | zero => intro _ _ h; cases h
  | succ n ih =>
    intro new m h hm
    obtain ⟨m, rfl⟩ : ∃ k, m = k + 1 := ⟨m - 1, by omega⟩
    unfold turns at h ⊢
    split at h
    · exact h
    · exact ih _ m h (by omega)

/-- The limit of open files: after at most 16 turns the soft limit is 16384 or more, or more than half of the hard limit (as nearly as whole numbers allow); the hard limit
stays, and the soft limit is not lowered if the hard limit is 16384 or more or the soft limit at most half of it. -/
theorem C117_limit_partial {nrOpen : Nat} {l : Limit} (hn : l.hard ≤ nrOpen) (hs : l.soft ≤ l.hard) : ∃ l', (∀ n, 16 ≤ n → raise nrOpen l n = some l') ∧ l'.hard = l.hard ∧ l'.soft ≤ l.hard ∧
    (16384 ≤ l'.soft ∨ l.hard < 2 * l'.soft + 2) ∧ (16384 ≤ l.hard ∨ 2 * l.soft ≤ l.hard → l.soft ≤ l'.soft) := by
  by_cases h : l.soft > nrFiles
  · refine ⟨l, fun n _ => by unfold raise; rw [if_pos h], rfl, hs, Or.inl ?_, fun _ => Nat.le_refl _⟩
    unfold nrFiles at h
    omega
  · obtain ⟨l', k1, k2, k3, k4, k5⟩ := turns_some (l := l) hn 15 nrFiles (by decide)
    refine ⟨l', fun n hn => by unfold raise; rw [if_neg h]; exact turns_mono 16 _ n k1 hn, k2, k3, ?_, ?_⟩
    · rcases k4 with k4 | k4
      · left; rw [k4]; decide
      · exact Or.inr k4.2
    · intro hh
      unfold nrFiles at h k4 k5
      omega

/-- A hard limit that is no power of two: the limit is lowered from 10000 to 8192. -/
theorem C117_lowered_refuted : raise 1048576 ⟨10000, 12000⟩ 16 = some ⟨8192, 12000⟩ := by decide +kernel

/-- If the hard limit is larger than the system allows by now (fs.nr_open was lowered), `setrlimit` always fails and the loop never ends. -/
theorem C117_endless_refuted (n : Nat) : raise 4096 ⟨1024, 8192⟩ n = none := by
  have : ∀ n new, turns 4096 ⟨1024, 8192⟩ n new = none := by
    intro n
    induction n with
    | zero => intro _; rfl
    | succ n ih =>
      intro new
      unfold turns turn setLimit
      rw [if_neg (by intro h; exact absurd h.2 (by decide))]
      exact ih _
  unfold raise
  rw [if_neg (by decide)]
  exact this n _

/-- The limit is never raised to what the table of threads has room for. -/
theorem C117_threads_refuted {nrOpen : Nat} {l l' : Limit} {n : Nat} (h : l.soft ≤ 16384) (hr : raise nrOpen l n = some l') : l'.soft < maxPids := by
  have key : ∀ n new, turns nrOpen l n new = some l' → l'.soft ≤ new := by
    intro n
    induction n with
    | zero => intro _ h; cases h
    | succ n ih =>
      intro new h
      unfold turns turn setLimit at h
      by_cases hc : new ≤ l.hard ∧ l.hard ≤ nrOpen
      · rw [if_pos hc] at h
        simp only [Option.some.injEq] at h
        rw [← h]
        exact Nat.le_refl _
      · rw [if_neg hc] at h
        have := ih _ h
        omega
  unfold raise at hr
  rw [if_neg (by unfold nrFiles; omega)] at hr
  have := key n _ hr
  unfold nrFiles at this
  unfold maxPids
  omega

example : raise 1048576 ⟨1024, 4096⟩ 16 = some ⟨4096, 4096⟩ ∧ raise 1048576 ⟨1024, 1048576⟩ 16 = some ⟨16384, 1048576⟩ ∧ raise 1048576 ⟨20000, 20000⟩ 16 = some ⟨20000, 20000⟩ := by
  decide +kernel

/-! ### Examples for the counters -/

/-- An answer of the system that gives this descriptor. -/
def yes (fd : Nat) : Ans := ⟨some fd, true, true⟩

/-- The thread 7 makes the thread 11, which makes 12 and exits; then the counter of 12 runs over. -/
def exStops : List (Stop × Ans) :=
  [(cloneAt 7#32 (exX 0) 11#32, yes 6), (cloneAt 11#32 (exX 0) 12#32, yes 8), (exOther 3 11#32, yes 9), ({ exOther 0 12#32 with sig := sigStkflt }, yes 9)]

def exSys : Sys := ⟨[0, 1, 2], [(4, ⟨99#32, 5#64, none, false⟩)]⟩

/-- Boolean form of `Unused`. -/
def unusedB (s : Sys) (a : Ans) : Bool := match a.fd with
  | none => true
  | some fd => !s.files.contains fd && !(s.counters.map (·.1)).contains fd

theorem unused_of {s : Sys} {a : Ans} (h : unusedB s a = true) : Unused s a := by
  intro fd hf
  unfold unusedB at h
  rw [hf] at h
  simp only [Bool.and_eq_true, Bool.not_eq_true', List.contains_eq_mem, decide_eq_false_iff_not] at h
  exact h

/-- Boolean form of `FreshRun`. -/
def freshB (period : BitVec 64) : Table → Sys → List (Stop × Ans) → Bool
  | _, _, [] => true
  | t, s, (e, a) :: l => unusedB s a && match step period t s e a with
    | .go t' s' => freshB period t' s' l
    | _ => true

theorem fresh_of {period : BitVec 64} : ∀ (l : List (Stop × Ans)) (t : Table) (s : Sys), freshB period t s l = true → FreshRun period t s l
  | [], _, _, _ => trivial
  | (e, a) :: l, t, s, h => by
    unfold freshB at h
    rw [Bool.and_eq_true] at h
    refine ⟨unused_of h.1, fun t' s' hs => fresh_of l t' s' ?_⟩
    have := h.2
    rw [hs] at this
    exact this

/-- All hypotheses of `C116_counters` and `C116_end` hold of it. -/
example : Sane exSys ∧ FreshAll (ffPeriod 1000#64) exSys [(7#32, yes 5)] ∧
    setupAll (ffPeriod 1000#64) exSys [(7#32, yes 5)] = some ([(7#32, 5)], ⟨[0, 1, 2], [(5, ⟨7#32, 800#64, some 7#32, true⟩), (4, ⟨99#32, 5#64, none, false⟩)]⟩) ∧
    FreshRun (ffPeriod 1000#64) [(7#32, 5)] ⟨[0, 1, 2], [(5, ⟨7#32, 800#64, some 7#32, true⟩), (4, ⟨99#32, 5#64, none, false⟩)]⟩ exStops ∧
    run (ffPeriod 1000#64) [(7#32, 5)] ⟨[0, 1, 2], [(5, ⟨7#32, 800#64, some 7#32, true⟩), (4, ⟨99#32, 5#64, none, false⟩)]⟩ exStops =
      .chosen [(7#32, 5), (12#32, 8)] ⟨[0, 1, 2], [(8, ⟨12#32, 800#64, some 12#32, true⟩), (5, ⟨7#32, 800#64, some 7#32, true⟩), (4, ⟨99#32, 5#64, none, false⟩)]⟩ 12#32 8 ∧
    forward 1000#64 exSys [(7#32, yes 5)] exStops (fun fd => if fd = 8 then 803#64 else 0#64) = some ⟨12#32, 197#64, exSys⟩ := by
  refine ⟨by unfold Sane; decide, ⟨?_, fun _ _ _ => trivial⟩, by decide +kernel, fresh_of _ _ _ (by decide +kernel), by decide +kernel, by decide +kernel⟩
  intro fd h
  cases h
  decide

/-- When the counter cannot be read, only a message is printed: what is skipped then depends on what was in memory. -/
theorem C116_read_refuted : ∃ count count' : Nat → BitVec 64,
    (forward 1000#64 exSys [(7#32, yes 5)] exStops count).map (·.left) = some 0#64 ∧ (forward 1000#64 exSys [(7#32, yes 5)] exStops count').map (·.left) = some 1000#64 :=
  ⟨fun _ => -1#64, fun _ => 0#64, by decide +kernel, by decide +kernel⟩

end Ptr.Cnt
