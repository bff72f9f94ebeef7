import Verif.Ptracer.SeqLemmas

/-! # Stepping over atomic sequences (C38, C39, C61) -/

namespace Ptr
open IsaMem IsaSeq

/-- The memory with which the thread is continued, if it is continued. -/
def resumed (m : Mem) (p : Addr) : Option Mem :=
  match readInsn m p with
  | none => none
  | some w =>
    if isLarx w then
      match plan m p with
      | none => none
      | some (_, b) =>
        match insertAll m b with
        | .inl _ => none
        | .inr (m1, _) => some m1
    else none

/-- `resumed` is what the process is run on: the result of stepping depends on the process only through
its behaviour on that memory. -/
theorem resumed_spec (m : Mem) (p : Addr) (r r' : Run) :
    match resumed m p with
    | none => stepOver m p r = stepOver m p r'
    | some m1 => r m1 = r' m1 → stepOver m p r = stepOver m p r' := by
  unfold resumed stepOver
  cases readInsn m p with
  | none => rfl
  | some w =>
    dsimp only
    by_cases hl : isLarx w = true
    · rw [if_pos hl, if_pos hl, if_pos hl]
      cases plan m p with
      | none => rfl
      | some eb =>
        obtain ⟨e, b⟩ := eb
        dsimp only
        cases insertAll m b with
        | inl m' => rfl
        | inr ms =>
          obtain ⟨m1, s⟩ := ms
          dsimp only
          intro he
          rw [he]
    · rw [if_neg hl, if_neg hl, if_neg hl]

/-- C38 (partial). When stepping over a sequence completes, every word that the process did not write
itself while it ran is what it was before. Not covered: the tracer exiting while it inserts the
breakpoints (`C38_refuted`). -/
theorem C38_text_partial (m : Mem) (p : Addr) (run : Run) (m' : Mem) (cs : List Addr)
    (h : stepOver m p run = .done m' cs) (a : Addr) (hrun : ∀ m1, (run m1).mem a = m1 a) : m' a = m a := by
  unfold stepOver at h
  split at h
  · cases h
  · split at h
    · split at h
      · cases h
      · next e b hp =>
        split at h
        · cases h
        · next m1 saved hi =>
          split at h
          · cases h
          · next m2 hr =>
            split at h
            · injection h with h1 h2
              subst h1
              unfold plan at hp
              split at hp
              · cases hp
              · injection hp with hp; injection hp with hp1 hp2
                subst hp2
                exact restore (prune_distinct _ _ _) hi hr (hrun m1)
            · cases h
    · cases h

/-- C38 (partial), when the tracer gives up: if all of memory is readable (and stays so while the process
runs), the text is unchanged as well when the tracer exits, for whatever reason. -/
theorem C38_exit_partial (m : Mem) (p : Addr) (run : Run) (m' : Mem)
    (hm : ∀ a, ∃ w, m a = some w ∧ w ≠ 0xffffffff#32)
    (hrun : ∀ m1 : Mem, (∀ a, ∃ w, m1 a = some w ∧ w ≠ 0xffffffff#32) →
      ∀ a, ∃ w, (run m1).mem a = some w ∧ w ≠ 0xffffffff#32)
    (h : stepOver m p run = .exited m') (a : Addr) (ha : ∀ m1, (run m1).mem a = m1 a) : m' a = m a := by
  have hP : Plain m := hm
  unfold stepOver at h
  split at h
  · injection h with h; rw [h]
  · split at h
    · split at h
      · injection h with h; rw [h]
      · next e b hp =>
        obtain ⟨m1, s, hi, hp1, hs⟩ := hP.insertAll (l := b)
        rw [hi] at h
        dsimp only at h
        obtain ⟨m2, hr⟩ := Plain.removeAll hs (hrun m1 hp1 : Plain (run m1).mem)
        rw [hr] at h
        dsimp only at h
        split at h
        · cases h
        · injection h with h
          subst h
          unfold plan at hp
          split at hp
          · cases hp
          · injection hp with hp; injection hp with hp1 hp2
            subst hp2
            exact restore (prune_distinct _ _ _) hi hr (ha m1)
    · cases h

/-- A text of words at consecutive addresses from `0x1000` on, nothing else mapped. -/
def textAt (l : List Word) : Mem := fun a =>
  if 0x1000 ≤ a.toNat ∧ a.toNat % 4 = 0 then l[(a.toNat - 0x1000) / 4]? else none

/-- `lwarx r3,0,r4; bne- +16; stwcx. r3,0,r4; nop; nop; nop`: a loop with one exit. -/
def demo : Mem := textAt [0x7c602028#32, 0x40820010#32, 0x7c60212d#32, 0x60000000#32, 0x60000000#32, 0x60000000#32, 0x60000000#32]

/-- The process runs through to the word after the `stwcx.`, changing nothing. -/
def straight : Run := fun m => ⟨m, true, 0x100c#64⟩

/-- The hypotheses of `C38_text_partial` are met: the sequence of `demo` is stepped over, two breakpoints are
in the text meanwhile, and four instructions are reported. -/
example : (∃ m', stepOver demo 0x1000#64 straight = .done m' [0x1000#64, 0x1004#64, 0x1008#64, 0x100c#64]) ∧
    ∃ m1, resumed demo 0x1000#64 = some m1 ∧ m1 0x100c#64 = some brk ∧ m1 0x1014#64 = some brk :=
  ⟨⟨_, rfl⟩, _, rfl, rfl, rfl⟩

/-- The hypotheses of `C38_exit_partial` are met: a text of `nop`s everywhere but for a `lwarx` at the
start, so that the tracer gives up for want of a `stcx`. -/
example : ∃ m : Mem, (∀ a, ∃ w, m a = some w ∧ w ≠ 0xffffffff#32) ∧
    ∃ m', stepOver m 0x1000#64 straight = .exited m' :=
  ⟨fun a => if a = 0x1000#64 then some 0x7c602028#32 else some 0x60000000#32,
    fun a => by dsimp only; split <;> exact ⟨_, rfl, by decide⟩, _, rfl⟩

/-- C38 in full is violated: two conditional branches leave the sequence, the second one to an address
that is not mapped. The tracer exits on it with the breakpoint of the first branch in the text, although
the process has not run at all. -/
theorem C38_refuted : ∃ (m : Mem) (p a : Addr), ∀ run : Run,
    ∃ m', stepOver m p run = .exited m' ∧ m a = some 0x60000000#32 ∧ m' a = some 0x00b00b00#32 :=
  ⟨textAt [0x7c602028#32, 0x40820010#32, 0x40824000#32, 0x7c60212d#32, 0x60000000#32, 0x60000000#32, 0x60000000#32],
    0x1000#64, 0x1014#64, fun _ => ⟨_, rfl, rfl, rfl⟩⟩

theorem add_mul4 {p : Addr} {k : Nat} (h : p.toNat + 4 * k < 2 ^ 64) : (p + BitVec.ofNat 64 (4 * k)).toNat = p.toNat + 4 * k := by
  rw [BitVec.toNat_add, BitVec.toNat_ofNat]; omega

/-- C39 (partial). Let the text have a `larx` at `p`, its first `stcx` at `p + 4k`, and no control transfer
other than `bc` in between. Then a thread that runs from `p` in the text it is resumed with is, until it
meets the breakpoint word, at one of the addresses `p, p+4, .., p+4k`: whatever else it gets to holds a
breakpoint. Not covered: sequences containing other branches (`C39_refuted`). -/
theorem C39_contained_partial (m : Mem) (p : Addr) (k : Nat) (ws : Word)
    (hs : m (p + BitVec.ofNat 64 (4 * k)) = some ws) (hsc : StoreConditional ws)
    (hno : ∀ j < k, ∀ w, m (p + BitVec.ofNat 64 (4 * j)) = some w → ¬ StoreConditional w ∧ ¬ OtherTransfer w)
    (hal : p.toNat % 4 = 0) (hw : p.toNat + 4 * k + 4 < 2 ^ 64)
    (m1 : Mem) (hr : resumed m p = some m1) (x : Addr) (hx : Reach m1 0x00b00b00#32 p x) :
    (∃ j ≤ k, x = p + BitVec.ofNat 64 (4 * j)) ∨ m1 x = some 0x00b00b00#32 := by
  -- unpack the plan
  unfold resumed at hr
  split at hr
  · cases hr
  split at hr
  case isFalse => cases hr
  split at hr
  · cases hr
  next e b hp =>
  split at hr
  · cases hr
  next m1' saved hi =>
  injection hr with hr; subst hr
  unfold plan at hp
  split at hp
  · cases hp
  next s b0 hsc0 =>
  injection hp with hp; injection hp with hp1 hp2
  subst hp1 hp2
  obtain ⟨k', hk', hs', ⟨w', hw', hst'⟩, -, hbr⟩ := scan_some hsc0
  have hkk : k' = k := by
    rcases Nat.lt_trichotomy k' k with h | h | h
    · have := (hno k' h w' (by rw [← hs']; exact hw')).1
      exact absurd ((isStcx_iff w').1 hst') this
    · exact h
    · obtain ⟨w, h1, h2, _⟩ := hbr k h
      rw [hs] at h1; injection h1 with h1; subst h1
      rw [(isStcx_iff ws).2 hsc] at h2; cases h2
  subst hkk
  obtain ⟨i1, -, -⟩ := insertAll_inr (prune_distinct _ _ _) hi
  have hse : s.toNat = p.toNat + 4 * k' := by rw [hs']; exact add_mul4 (by omega)
  have hend : (s + 4#64).toNat = p.toNat + 4 * k' + 4 := by
    rw [BitVec.toNat_add, hse]; simp only [BitVec.toNat_ofNat]; omega
  have hno1 : noAddr.toNat = 2 ^ 64 - 1 := by decide
  -- the text of the region is not changed
  have hreg : ∀ j ≤ k', m1' (p + BitVec.ofNat 64 (4 * j)) = m (p + BitVec.ofNat 64 (4 * j)) := by
    intro j hj
    rw [i1, if_neg]
    intro ⟨h1, h2⟩
    rcases mem_prune h1 with h | ⟨_, h⟩
    · exact h2 h
    · refine h ⟨?_, ?_⟩
      · rw [BitVec.le_def, add_mul4 (by omega)]; omega
      · rw [BitVec.lt_def, hend, add_mul4 (by omega)]; omega
  -- every exit is a breakpoint
  have hexit : ∀ y, y ∈ b0 ++ [s + 4#64] → y.toNat % 4 = 0 →
      (∃ j ≤ k', y = p + BitVec.ofNat 64 (4 * j)) ∨ m1' y = some 0x00b00b00#32 := by
    intro y hy hy4
    by_cases hin : p ≤ y ∧ y < s + 4#64
    · left
      rw [BitVec.le_def, BitVec.lt_def, hend] at hin
      refine ⟨(y.toNat - p.toNat) / 4, by omega, ?_⟩
      apply BitVec.eq_of_toNat_eq
      rw [add_mul4 (by omega)]; omega
    · right
      have hne : y ≠ noAddr := by
        intro h; rw [h, hno1] at hy4; omega
      rw [i1, if_pos ⟨prune_mem hy hne hin, hne⟩]; rfl
  have hsucc : ∀ j ≤ k', (∃ i ≤ k', p + BitVec.ofNat 64 (4 * j) + 4#64 = p + BitVec.ofNat 64 (4 * i)) ∨
      m1' (p + BitVec.ofNat 64 (4 * j) + 4#64) = some 0x00b00b00#32 := by
    intro j hj
    by_cases hjk : j = k'
    · subst hjk
      rw [← hs']
      have := hexit (s + 4#64) (List.mem_append_right _ List.mem_cons_self) (by rw [hend]; omega)
      exact this
    · left
      refine ⟨j + 1, by omega, ?_⟩
      apply BitVec.eq_of_toNat_eq
      rw [BitVec.toNat_add, add_mul4 (by omega), add_mul4 (by omega)]
      simp only [BitVec.toNat_ofNat]; omega
  induction hx with
  | start => exact .inl ⟨0, by omega, by simp⟩
  | @step a c w ha hma hne hnext ih =>
    rcases ih with ⟨j, hj, rfl⟩ | hb
    · rw [hreg j hj] at hma
      have hnt : bits w 0 6 = 16 ∨ (¬ bits w 0 6 = 16 ∧ ¬ OtherTransfer w) := by
        by_cases hjk : j = k'
        · subst hjk
          rw [hs] at hma; injection hma with hma; subst hma
          right
          have := hsc.1
          unfold OtherTransfer
          omega
        · by_cases h16 : bits w 0 6 = 16
          · exact .inl h16
          · exact .inr ⟨h16, (hno j (by omega) w hma).2⟩
      unfold Next at hnext
      rcases hnt with h16 | ⟨h16, hnt⟩
      · rw [if_pos h16] at hnext
        rcases hnext with rfl | rfl
        · exact hsucc j hj
        · have hjk : j < k' := by
            rcases Nat.lt_or_eq_of_le hj with h | h
            · exact h
            · subst h
              rw [hs] at hma; injection hma with hma; subst hma
              rw [hsc.1] at h16; omega
          obtain ⟨w2, g1, _, g3⟩ := hbr j hjk
          rw [hma] at g1; injection g1 with g1; subst g1
          have := g3 ((isBc_iff w).2 h16)
          rw [branchTarget_eq] at this
          exact hexit _ (List.mem_append_left _ this) (bcTarget_aligned w (by rw [add_mul4 (by omega)]; omega))
      · rw [if_neg h16, if_neg hnt] at hnext
        subst hnext
        exact hsucc j hj
    · rw [hb] at hma; injection hma with hma
      exact absurd hma.symm hne

/-- The hypotheses of `C39_contained_partial` are met by `demo` (`k = 2`). -/
example : (∃ m1, resumed demo 0x1000#64 = some m1) ∧ demo (0x1000#64 + BitVec.ofNat 64 (4 * 2)) = some 0x7c60212d#32 ∧
    StoreConditional 0x7c60212d#32 ∧
    ∀ j < 2, ∀ w, demo (0x1000#64 + BitVec.ofNat 64 (4 * j)) = some w → ¬ StoreConditional w ∧ ¬ OtherTransfer w := by
  refine ⟨⟨_, rfl⟩, rfl, ⟨by decide, by decide, by decide⟩, fun j hj w h => ?_⟩
  have : j = 0 ∨ j = 1 := by omega
  rcases this with rfl | rfl <;>
  · injection h with h
    subst h
    refine ⟨?_, by decide⟩
    unfold StoreConditional
    decide

/-- C39 in full is violated: an unconditional branch inside the sequence leaves it without meeting a
breakpoint. `lwarx; b +0x10; stwcx.; nop; nop; nop`: the thread gets to `0x1014`, which holds a `nop`. -/
theorem C39_refuted : ∃ (m : Mem) (p x : Addr) (m1 : Mem), resumed m p = some m1 ∧ Reach m1 0x00b00b00#32 p x ∧
    ¬ (0x1000 ≤ x.toNat ∧ x.toNat ≤ 0x1008) ∧ m1 x = some 0x60000000#32 :=
  ⟨textAt [0x7c602028#32, 0x48000010#32, 0x7c60212d#32, 0x60000000#32, 0x60000000#32, 0x60000000#32, 0x60000000#32],
    0x1000#64, 0x1014#64, _, rfl,
    .step (.step .start (w := 0x7c602028#32) rfl (by decide) (by unfold Next; decide : Next _ _ 0x1004#64)) (w := 0x48000010#32)
      rfl (by decide) (by unfold Next; rw [if_neg (by decide), if_pos (by decide)]; trivial), by decide, rfl⟩

/-- C61 (partial). If the thread stops at the `n`-th word after `p`, the words from `p` to that one are
reported, in order. So a sequence executed straight through is recorded as it was executed, followed by
the instruction the thread is stopped at (which is executed next). -/
theorem C61_straight_partial (m : Mem) (p : Addr) (run : Run) (m' : Mem) (cs : List Addr) (n : Nat)
    (h : stepOver m p run = .done m' cs) (hw : p.toNat + 4 * n < 2 ^ 64)
    (hpc : ∀ m1, (run m1).pc = p + BitVec.ofNat 64 (4 * n)) :
    cs = (List.range (n + 1)).map fun j => p + BitVec.ofNat 64 (4 * j) := by
  unfold stepOver at h
  split at h
  · cases h
  · split at h
    · split at h
      · cases h
      · split at h
        · cases h
        · split at h
          · cases h
          · split at h
            · injection h with _ h2
              subst h2
              unfold calls
              rw [hpc]
              have ht := add_mul4 hw
              rw [if_pos (by rw [BitVec.le_def, ht]; omega), ht, show (p.toNat + 4 * n - p.toNat) / 4 = n by omega]
            · cases h
    · cases h

/-- The hypotheses of `C61_straight_partial` are met by `demo` with `n = 3`. -/
example : ∀ m1, (straight m1).pc = 0x1000#64 + BitVec.ofNat 64 (4 * 3) := fun _ => rfl

/-- C61 in full is violated: the thread takes the exit branch after two instructions and stops at its
target; the tracer reports the whole address range up to the target, in particular the `stwcx.`, which
was not executed. -/
theorem C61_refuted : ∃ (m m1 m' : Mem) (p : Addr) (run : Run) (executed cs : List Addr),
    resumed m p = some m1 ∧ Executes m1 p executed (run m1).pc ∧ executed = [0x1000#64, 0x1004#64] ∧
    stepOver m p run = .done m' cs ∧ cs ≠ executed ∧ cs ≠ executed ++ [(run m1).pc] ∧ 0x1008#64 ∈ cs := by
  refine ⟨demo, _, _, 0x1000#64, fun m => ⟨m, true, 0x1014#64⟩, _,
    [0x1000#64, 0x1004#64, 0x1008#64, 0x100c#64, 0x1010#64, 0x1014#64], rfl,
    .cons (w := 0x7c602028#32) rfl (by unfold Next; decide : Next _ _ 0x1004#64)
      (.cons (w := 0x40820010#32) rfl (by unfold Next; decide : Next _ _ 0x1014#64) .nil), rfl, rfl, by decide, by decide, by decide⟩

end Ptr
