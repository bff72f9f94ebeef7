import Verif.Ptracer.Pids

/-! # The table of traced processes as a set (C40) -/

namespace Ptr

/-- Specification: after the history, the process is traced: it was added and not removed since. -/
def Live (ops : List PidOp) (p : Pid) : Prop := ∃ pre post, ops = pre ++ .add p :: post ∧ PidOp.remove p ∉ post

/-- Only processes that are not traced are added (what the kernel guarantees for the ids of new threads). -/
def Fresh (ops : List PidOp) : Prop := ∀ pre post p, ops = pre ++ .add p :: post → ¬ Live pre p

theorem snocInd {α : Type} {P : List α → Prop} (h0 : P []) (h1 : ∀ l a, P l → P (l ++ [a])) : ∀ l, P l := by
  intro l
  have : ∀ n (l : List α), l.length = n → P l := by
    intro n
    induction n with
    | zero => intro l h; rw [List.length_eq_zero_iff.1 h]; exact h0
    | succ n ih =>
      intro l h
      have hne : l ≠ [] := by intro e; rw [e] at h; cases h
      rw [← List.dropLast_concat_getLast hne]
      exact h1 _ _ (ih _ (by rw [List.length_dropLast]; omega))
  exact this _ l rfl

theorem live_nil (p : Pid) : ¬ Live [] p := by
  rintro ⟨pre, post, h, _⟩
  cases pre <;> cases h

theorem live_snoc_add (ops : List PidOp) (q p : Pid) : Live (ops ++ [.add q]) p ↔ Live ops p ∨ p = q := by
  constructor
  · rintro ⟨pre, post, h, hn⟩
    rcases List.eq_nil_or_concat post with rfl | ⟨post', x, rfl⟩
    · have := List.append_inj' h rfl
      injection this.2 with h2
      injection h2 with h2
      exact .inr h2.symm
    · rw [List.concat_eq_append] at h hn
      have e : pre ++ PidOp.add p :: (post' ++ [x]) = (pre ++ PidOp.add p :: post') ++ [x] := by simp
      rw [e] at h
      have := List.append_inj' h rfl
      exact .inl ⟨pre, post', this.1, fun hm => hn (List.mem_append_left _ hm)⟩
  · rintro (⟨pre, post, h, hn⟩ | rfl)
    · refine ⟨pre, post ++ [.add q], by rw [h]; simp, fun hm => ?_⟩
      rcases List.mem_append.1 hm with hm | hm
      · exact hn hm
      · rw [List.mem_singleton] at hm; cases hm
    · exact ⟨ops, [], rfl, fun hm => by cases hm⟩

theorem live_snoc_remove (ops : List PidOp) (q p : Pid) : Live (ops ++ [.remove q]) p ↔ Live ops p ∧ p ≠ q := by
  constructor
  · rintro ⟨pre, post, h, hn⟩
    rcases List.eq_nil_or_concat post with rfl | ⟨post', x, rfl⟩
    · have := List.append_inj' h rfl
      injection this.2 with h2
      cases h2
    · rw [List.concat_eq_append] at h hn
      have e : pre ++ PidOp.add p :: (post' ++ [x]) = (pre ++ PidOp.add p :: post') ++ [x] := by simp
      rw [e] at h
      have := List.append_inj' h rfl
      injection this.2 with h2
      refine ⟨⟨pre, post', this.1, fun hm => hn (List.mem_append_left _ hm)⟩, fun hpq => ?_⟩
      subst hpq
      exact hn (List.mem_append_right _ (by rw [h2]; exact List.mem_cons_self))
  · rintro ⟨⟨pre, post, h, hn⟩, hne⟩
    refine ⟨pre, post ++ [.remove q], by rw [h]; simp, fun hm => ?_⟩
    rcases List.mem_append.1 hm with hm | hm
    · exact hn hm
    · rw [List.mem_singleton] at hm
      injection hm with hm
      exact hne hm

theorem find_none {t : Pids} {p : Pid} : findPid t p = none ↔ p ∉ t := by
  unfold findPid
  rw [List.findIdx?_eq_none_iff]
  constructor
  · intro h hm; have := h p hm; simp at this
  · intro h x hx; simp only [beq_eq_false_iff_ne]; intro e; exact h (e ▸ hx)

theorem find_isSome {t : Pids} {p : Pid} : (findPid t p).isSome ↔ p ∈ t := by
  rw [← Option.ne_none_iff_isSome, Ne, find_none, Classical.not_not]

/-- Removing is erasing the first occurrence. -/
theorem removePid_eq (t : Pids) (p : Pid) : removePid t p = t.erase p := by
  unfold removePid findPid
  induction t with
  | nil => rfl
  | cons a t ih =>
    rw [List.findIdx?_cons]
    by_cases h : a = p
    · subst h; simp
    · have hb : (a == p) = false := by simp [h]
      rw [hb, List.erase_cons_tail (by simp [h]), ← ih]
      cases List.findIdx? (· == p) t with
      | none => rfl
      | some i => rfl

theorem runPids_snoc (ops : List PidOp) (o : PidOp) : runPids (ops ++ [o]) = (runPids ops).bind fun t => stepPids t o := by
  unfold runPids
  rw [List.foldlM_append]
  show (List.foldlM stepPids [] ops).bind (fun t => List.foldlM stepPids t [o]) = _
  congr 1
  funext t
  show (stepPids t o).bind some = _
  cases stepPids t o <;> rfl

theorem fresh_prefix {ops : List PidOp} {o : PidOp} (h : Fresh (ops ++ [o])) : Fresh ops := by
  intro pre post p e
  exact h pre (post ++ [o]) p (by rw [e]; simp)

/-- C40 (partial). For every history in which only untraced processes are added, a lookup finds a process
exactly if it was added and not removed since; it stays within the table, no process is in it twice, and
the table never exceeds its capacity. Missing: histories that add a process twice (`C40_refuted`). -/
theorem C40_set_partial (ops : List PidOp) (t : Pids) (h : runPids ops = some t) (hf : Fresh ops) :
    (∀ p, (findPid t p).isSome ↔ Live ops p) ∧ t.Nodup ∧ t.length ≤ 30000 := by
  simp only [find_isSome]
  revert t
  induction ops using snocInd with
  | h0 =>
    intro t h
    injection h with h; subst h
    exact ⟨fun p => ⟨fun h => (by cases h), fun h => absurd h (live_nil p)⟩, List.nodup_nil, by simp⟩
  | h1 ops o ih =>
    intro t h
    rw [runPids_snoc] at h
    cases hr : runPids ops with
    | none => rw [hr] at h; cases h
    | some t0 =>
      rw [hr] at h
      obtain ⟨i1, i2, i3⟩ := ih (fresh_prefix hf) t0 hr
      replace h : stepPids t0 o = some t := h
      cases o with
      | add q =>
        unfold stepPids addPid at h
        dsimp only at h
        split at h
        · cases h
        · next hl =>
          injection h with h; subst h
          have hq : q ∉ t0 := fun hm => hf ops [] q rfl ((i1 q).1 hm)
          refine ⟨fun p => ?_, ?_, ?_⟩
          · rw [live_snoc_add, ← i1 p, List.mem_append, List.mem_singleton]
          · rw [List.nodup_append]
            refine ⟨i2, List.nodup_cons.2 ⟨fun h => (by cases h), List.nodup_nil⟩, fun a ha b hb => ?_⟩
            rw [List.mem_singleton] at hb
            subst hb
            exact fun e => hq (e ▸ ha)
          · rw [List.length_append, List.length_singleton]
            unfold maxPids at hl; omega
      | remove q =>
        unfold stepPids at h
        dsimp only at h
        injection h with h
        rw [removePid_eq] at h; subst h
        refine ⟨fun p => ?_, i2.erase q, Nat.le_trans List.length_erase_le i3⟩
        rw [live_snoc_remove, ← i1 p, i2.mem_erase_iff]
        exact ⟨fun ⟨a, b⟩ => ⟨b, a⟩, fun ⟨a, b⟩ => ⟨b, a⟩⟩

/-- Entries keep their order and an index found is that of the process. -/
theorem C40_index (t : Pids) (p : Pid) (i : Nat) (h : findPid t p = some i) : t[i]? = some p := by
  unfold findPid at h
  obtain ⟨hi, h2, _⟩ := List.findIdx?_eq_some_iff_getElem.1 h
  have : t[i] = p := by simpa using h2
  rw [List.getElem?_eq_getElem hi, this]

/-- Adds are refused exactly when the table holds 30000 entries. -/
theorem C40_capacity (t : Pids) (p : Pid) : addPid t p = none ↔ t.length = 30000 := by
  unfold addPid maxPids
  split <;> simp [*]

/-- The hypotheses of `C40_set_partial` are met by a history with a removal and a later add of the same id. -/
example : runPids [.add 5#32, .add 7#32, .remove 5#32, .add 9#32, .add 5#32] = some [7#32, 9#32, 5#32] := by decide

example : Fresh [.add 5#32, .remove 5#32, .add 5#32] := by
  intro pre post p h hl
  rcases pre with _ | ⟨a, pre⟩
  · exact live_nil p hl
  · rcases pre with _ | ⟨b, pre⟩
    · cases h
    · rcases pre with _ | ⟨c, pre⟩
      · injection h with h1 h2; injection h2 with h2 h3; injection h3 with h3 h4; injection h3 with h3
        subst h1 h2 h3
        have := (live_snoc_remove [.add 5#32] 5#32 5#32).1 hl
        exact this.2 rfl
      · cases pre <;> cases h

/-- C40 in full is violated: a process added twice and removed once is still found. -/
theorem C40_refuted : ∃ (ops : List PidOp) (t : Pids) (p : Pid),
    runPids ops = some t ∧ ¬ Live ops p ∧ (findPid t p).isSome :=
  ⟨[.add 5#32, .add 5#32, .remove 5#32], [5#32], 5#32, by decide,
    fun h => ((live_snoc_remove [.add 5#32, .add 5#32] 5#32 5#32).1 h).2 rfl, by decide⟩

end Ptr
