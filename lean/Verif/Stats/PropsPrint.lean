import Verif.Stats.Print
import Verif.Stats.PropsImix
/-!
C58: the printed tables are complete and ordered.  C59: how large the idle counter can get.
-/
namespace Stats
open Spec

/-! ### Printed tables -/

theorem compare_eq {a b : Line} (ha : a.2.toNat < 2 ^ 31) (hb : b.2.toNat < 2 ^ 31) : compare a b = (b.2.toNat : Int) - a.2.toNat := by
  unfold compare
  rw [BitVec.toInt_eq_toNat_bmod, BitVec.toNat_setWidth, BitVec.toNat_sub]
  have h : (2 ^ 64 - a.2.toNat + b.2.toNat) % 2 ^ 64 % 2 ^ 32 = if a.2.toNat ≤ b.2.toNat then b.2.toNat - a.2.toNat else 2 ^ 32 - (a.2.toNat - b.2.toNat) := by
    split <;> omega
  rw [h]
  unfold Int.bmod
  split <;> (dsimp only; split <;> omega)

theorem compare_consistent {l : List Line} (h : ∀ a ∈ l, a.2.toNat < 2 ^ 31) : Consistent compare l where
  trans a ha b hb c hc h1 h2 := by
    rw [compare_eq (h a ha) (h b hb)] at h1
    rw [compare_eq (h b hb) (h c hc)] at h2
    rw [compare_eq (h a ha) (h c hc)]
    omega
  anti a ha b hb := by
    rw [compare_eq (h a ha) (h b hb), compare_eq (h b hb) (h a ha)]
    omega

theorem takeWhile_eq_filter {l : List Line} (h : l.Pairwise fun a b => b.2.toNat ≤ a.2.toNat) : printStop l = printSkip l := by
  unfold printStop printSkip
  induction l with
  | nil => rfl
  | cons a l ih =>
    rw [List.pairwise_cons] at h
    by_cases ha : a.2 = 0
    · have hz : ∀ b ∈ a :: l, ¬ (decide (b.2 ≠ 0) = true) := by
        intro b hb
        have hle : b.2.toNat ≤ a.2.toNat := by
          rcases List.mem_cons.1 hb with rfl | hb
          · exact Nat.le_refl _
          · exact h.1 b hb
        have : b.2 = 0 := by
          apply BitVec.eq_of_toNat_eq
          rw [ha] at hle
          exact Nat.le_antisymm hle (Nat.zero_le _)
        simp [this]
      rw [List.filter_eq_nil_iff.2 hz, List.takeWhile_cons_of_neg (by simpa using hz a List.mem_cons_self)]
    · rw [List.takeWhile_cons_of_pos (by simpa using ha), List.filter_cons_of_pos (by simpa using ha), ih h.2]

/-- The lines that should be printed for a table: those with a counter that is not 0, each once, in descending order. -/
def Spec.Complete (c : List (BitVec 64)) (printed : List Line) : Prop :=
  printed.Nodup ∧ (∀ i v, (i, v) ∈ printed ↔ c[i]? = some v ∧ v ≠ 0) ∧ printed.Pairwise fun a b => b.2.toNat ≤ a.2.toNat

theorem mem_linesOf {c : List (BitVec 64)} {i : Nat} {v : BitVec 64} : (i, v) ∈ linesOf c ↔ c[i]? = some v := by
  unfold linesOf
  rw [List.mem_mapIdx]
  constructor
  · rintro ⟨j, hj, he⟩
    cases he
    exact List.getElem?_eq_getElem hj
  · intro h
    obtain ⟨hi, rfl⟩ := List.getElem?_eq_some_iff.1 h
    exact ⟨i, hi, rfl⟩

theorem linesOf_nodup (c : List (BitVec 64)) : (linesOf c).Nodup := by
  unfold linesOf List.Nodup
  rw [List.pairwise_iff_getElem]
  intro i j hi hj hij he
  simp only [List.getElem_mapIdx, Prod.mk.injEq] at he
  omega

/-- **C58**, for counters below 2^31: the printed table has every entry whose counter is not 0, in descending order, with either way to end the loop. -/
theorem C58_printed_partial (c : List (BitVec 64)) (hc : ∀ v ∈ c, v.toNat < 2 ^ 31) {out : List Line} (hq : QSort compare (linesOf c) out) :
    Complete c (printSkip out) ∧ Complete c (printStop out) := by
  have hl : ∀ a ∈ linesOf c, a.2.toNat < 2 ^ 31 := by
    rintro ⟨i, v⟩ ha
    exact hc v (List.mem_of_getElem? (mem_linesOf.1 ha))
  have hs := hq.sorted (compare_consistent hl)
  have hd : out.Pairwise fun a b => b.2.toNat ≤ a.2.toNat := by
    refine List.Pairwise.imp_of_mem (fun {a b} ha hb h => ?_) hs
    rw [compare_eq (hl a (hq.perm.mem_iff.1 ha)) (hl b (hq.perm.mem_iff.1 hb))] at h
    omega
  have h1 : Complete c (printSkip out) := by
    refine ⟨(hq.perm.nodup_iff.2 (linesOf_nodup c)).filter _, fun i v => ?_, hd.filter _⟩
    unfold printSkip
    rw [List.mem_filter, hq.perm.mem_iff, mem_linesOf]
    simp
  exact ⟨h1, by rw [takeWhile_eq_filter hd]; exact h1⟩

/-- Every table can be sorted, so that `QSort` has a solution. -/
example : QSort compare (linesOf [3, 0, 5]) [(2, 5), (0, 3), (1, 0)] :=
  ⟨by decide, fun _ => by decide⟩

/-- `li r0,4` and then `n` times `sc`, newest first. -/
def calls (n : Nat) : List Insn := List.replicate n ⟨0, 0x44000002⟩ ++ [⟨0, 0x38000004⟩]

theorem calls_r0 : ∀ n, Spec.r0 (calls n) = 4
  | 0 => by decide
  | n + 1 => by
    have := calls_r0 n
    unfold calls at this ⊢
    rw [List.replicate_succ, List.cons_append, r0_sc rfl, this]

theorem calls_count (f : Nat → Bool) : ∀ n, count (fun h x => x.insn == sc && f (Spec.r0 h)) (calls n) = if f 4 then n else 0
  | 0 => by
    show 0 + (if ((0x38000004 : BitVec 32) == sc && f (Spec.r0 [])) = true then 1 else 0) = _
    rw [show ((0x38000004 : BitVec 32) == sc) = false by decide, Bool.false_and]
    simp
  | n + 1 => by
    have h1 := calls_count f n
    have h2 := calls_r0 n
    unfold calls at h1 h2 ⊢
    rw [List.replicate_succ, List.cons_append, count, h1, h2]
    show _ + (if (sc == sc && f 4) = true then 1 else 0) = _
    rw [show (sc == sc) = true by decide, Bool.true_and]
    split <;> rfl

theorem calls_stats (n : Nat) : ∃ s, run tables (init tables) (⟨0, 0x38000004⟩ :: List.replicate n ⟨0, 0x44000002⟩) = some s ∧
    s.syscallnum = BitVec.ofNat 64 n ∧ s.syscalls = counters 390 fun k => if isKind 390 k 4 then n else 0 := by
  obtain ⟨s, h1, h2⟩ := C27_counts tables_good (⟨0, 0x38000004⟩ :: List.replicate n ⟨0, 0x44000002⟩)
  refine ⟨s, h1, ?_, ?_⟩
  · rw [h2.syscallnum, List.reverse_cons, List.reverse_replicate]
    have := calls_count (fun _ => true) n
    simp only [Bool.and_true, if_true] at this
    show BitVec.ofNat 64 (count _ (calls n)) = _
    rw [this]
  · rw [h2.syscalls, List.reverse_cons, List.reverse_replicate]
    apply counters_congr
    intro k _
    exact calls_count _ n

/-- **C58** (every kind of call that occurred is printed) **is refuted**: after 2^32 equal system calls the comparison finds no difference between the
counters 2^32 and 0, the table may stay as it is, and nothing is printed, because the first entry has counter 0. -/
theorem C58_refuted : ∃ l s out, run tables (init tables) l = some s ∧ s.syscalls[4]? = some (BitVec.ofNat 64 (2 ^ 32)) ∧
    Consistent compare (linesOf s.syscalls) ∧ QSort compare (linesOf s.syscalls) out ∧ printStop out = [] := by
  obtain ⟨s, h1, _, h3⟩ := calls_stats (2 ^ 32)
  have hz : ∀ a ∈ linesOf s.syscalls, (a.2 : BitVec 64) = 0 ∨ a.2 = BitVec.ofNat 64 (2 ^ 32) := by
    rintro ⟨i, v⟩ ha
    have := mem_linesOf.1 ha
    rw [h3, counters_get] at this
    split at this
    · simp only [Option.some.injEq] at this
      subst this
      show BitVec.ofNat 64 _ = 0 ∨ BitVec.ofNat 64 _ = _
      split
      · exact Or.inr rfl
      · exact Or.inl rfl
    · cases this
  have hc : ∀ a ∈ linesOf s.syscalls, ∀ b ∈ linesOf s.syscalls, compare a b = 0 := by
    intro a ha b hb
    unfold compare
    rcases hz a ha with h | h <;> rcases hz b hb with h' | h' <;> rw [h, h'] <;> decide +kernel
  have hg : s.syscalls[4]? = some (BitVec.ofNat 64 (2 ^ 32)) := by
    rw [h3, counters_get, if_pos (by decide)]; rfl
  refine ⟨_, s, linesOf s.syscalls, h1, hg, ⟨fun a ha b hb c hc' _ _ => Int.le_of_eq (hc a ha c hc'), fun a ha b hb => by rw [hc a ha b hb, hc b hb a ha]⟩,
    ⟨List.Perm.refl _, fun _ => ?_⟩, ?_⟩
  · exact List.Pairwise.imp_of_mem (fun {a b} ha hb _ => Int.le_of_eq (hc a ha b hb)) (linesOf_nodup s.syscalls)
  · have h0 : s.syscalls[0]? = some 0 := by rw [h3, counters_get, if_pos (by decide)]; rfl
    cases hs : s.syscalls with
    | nil => rw [hs] at h0; cases h0
    | cons v r =>
      rw [hs] at h0
      simp only [List.getElem?_cons_zero, Option.some.injEq] at h0
      unfold linesOf printStop
      rw [List.mapIdx_cons, h0]
      rfl

/-! ### Idle instructions -/

/-- The fields that only the idle counter uses. -/
structure Keeps (s s' : Stats) : Prop where
  total : s'.total = s.total
  idle : s'.idle = s.idle
  mftb : s'.mftbLast = s.mftbLast
  mr : s'.mr3131Last = s.mr3131Last

theorem Keeps.refl (s : Stats) : Keeps s s := ⟨rfl, rfl, rfl, rfl⟩

theorem Keeps.trans {a b c : Stats} (h : Keeps a b) (h' : Keeps b c) : Keeps a c :=
  ⟨h'.total.trans h.total, h'.idle.trans h.idle, h'.mftb.trans h.mftb, h'.mr.trans h.mr⟩

theorem space_keeps (ea : BitVec 64) (s : Stats) : Keeps s (space ea s) := by
  unfold space
  split
  · exact ⟨rfl, rfl, rfl, rfl⟩
  · split
    · exact ⟨rfl, rfl, rfl, rfl⟩
    · split <;> exact ⟨rfl, rfl, rfl, rfl⟩

theorem exceptionEntry_keeps {t : Tables} {ea : BitVec 64} {s s' : Stats} (h : exceptionEntry t ea s = some s') : Keeps s s' := by
  unfold exceptionEntry at h
  split at h
  · cases h; exact Keeps.refl _
  · split at h
    · cases h; exact Keeps.refl _
    · split at h
      · cases h
      · cases h; exact ⟨rfl, rfl, rfl, rfl⟩

theorem registers_keeps (w : BitVec 32) (s : Stats) : Keeps s (registers w s) := by
  unfold registers
  dsimp only
  repeat' split
  all_goals exact ⟨rfl, rfl, rfl, rfl⟩

theorem syscall_keeps {t : Tables} {w : BitVec 32} {s s' : Stats} (h : syscall t w s = some s') : Keeps s s' := by
  unfold syscall at h
  split at h
  · split at h
    · cases h
    · cases h; exact ⟨rfl, rfl, rfl, rfl⟩
  · cases h; exact Keeps.refl _

theorem hcall_keeps {t : Tables} {w : BitVec 32} {s s' : Stats} (h : hcall t w s = some s') : Keeps s s' := by
  unfold hcall at h
  split at h
  · split at h
    · cases h
    · cases h; exact ⟨rfl, rfl, rfl, rfl⟩
  · cases h; exact Keeps.refl _

theorem opalcall_keeps {t : Tables} {ea : BitVec 64} {s s' : Stats} (h : opalcall t ea s = some s') : Keeps s s' := by
  unfold opalcall at h
  split at h
  · split at h
    · cases h
    · cases h; exact ⟨rfl, rfl, rfl, rfl⟩
  · cases h; exact Keeps.refl _

theorem context_keeps (x : Insn) (s : Stats) : Keeps s (context x.ea x.insn s) := by
  obtain ⟨a, m, h⟩ := context_eq x s
  rw [h]
  exact ⟨rfl, rfl, rfl, rfl⟩

theorem log_keeps {t : Tables} {s s' : Stats} {x : Insn} (h : log t s x = some s') :
    ∃ s1, Keeps { s with total := s.total + 1 } s1 ∧ s' = { mr3131 x.ea x.insn (mftb x.ea x.insn s1) with opallast := isOpal x.ea } := by
  unfold log logStats at h
  split at h
  · cases h
  · rename_i a ha
    split at h
    · cases h
    · rename_i b hb
      split at h
      · cases h
      · rename_i c hc
        split at h
        · cases h
        · rename_i d hd
          cases h
          exact ⟨_, ((((((space_keeps _ _).trans (exceptionEntry_keeps ha)).trans (registers_keeps _ _)).trans (syscall_keeps hb)).trans (hcall_keeps hc)).trans
            (opalcall_keeps hd)).trans (context_keeps x _), rfl⟩

theorem since_le (p : Insn → Bool) : ∀ h : List Insn, since p h ≤ h.length
  | [] => Nat.le_refl _
  | x :: h => by
    have := since_le p h
    rw [since, List.length_cons]
    split <;> omega

theorem looping_le (p : Insn → Bool) : ∀ h : List Insn, looping p h + since p h ≤ h.length
  | [] => Nat.le_refl _
  | x :: h => by
    have := looping_le p h
    rw [looping, since, List.length_cons]
    cases hp : p x with
    | false => simp only [Bool.false_and, Bool.false_eq_true, if_false]; omega
    | true =>
      simp only [Bool.true_and, if_true, decide_eq_true_eq]
      split <;> omega

/-- After the history `h`. -/
structure Idle (h : List Insn) (s : Stats) : Prop where
  total : s.total.toNat = h.length
  idle : s.idle.toNat = looping readsTime h + looping lowPriority h
  mftb : s.mftbLast.toNat + since readsTime h = h.length
  mr : s.mr3131Last.toNat + since lowPriority h = h.length

theorem readsTime_iff (x : Insn) : readsTime x = true ↔ isSystem x.ea = true ∧ x.insn &&& 0xfc1fffff = 0x7c0c42a6 := by
  unfold readsTime
  rw [Bool.and_eq_true, beq_iff_eq, isSystem_iff, mftb_mask, List.any_eq_true]
  constructor
  · rintro ⟨h1, t, h2, h3⟩; exact ⟨h1, t, List.mem_range.1 h2, beq_iff_eq.1 h3⟩
  · rintro ⟨h1, t, h2, h3⟩; exact ⟨h1, t, List.mem_range.2 h2, beq_iff_eq.2 h3⟩

theorem lowPriority_iff (x : Insn) : lowPriority x = true ↔ isSystem x.ea = true ∧ x.insn = 0x7ffffb78 := by
  unfold lowPriority
  rw [Bool.and_eq_true, beq_iff_eq, beq_iff_eq, isSystem_iff, ← BitVec.toNat_inj]
  rfl

theorem idleFor_toNat {s : Stats} {last : BitVec 64} {g : Nat} (h : last.toNat + g = s.total.toNat) (ht : s.total.toNat < 2 ^ 32)
    (hi : s.idle.toNat + g < 2 ^ 64) : (idleFor last s).idle.toNat = s.idle.toNat + if decide (g < 10) then g else 0 := by
  unfold idleFor
  have hle : last ≤ s.total := by rw [BitVec.le_def]; omega
  have hg : ((s.total - last).setWidth 32).toNat = g := by
    rw [BitVec.toNat_setWidth, BitVec.toNat_sub_of_le hle]; omega
  have hiff : (s.total - last).setWidth 32 < (10 : BitVec 32) ↔ g < 10 := by rw [BitVec.lt_def, hg]; rfl
  dsimp only
  by_cases h10 : g < 10
  · rw [if_pos (hiff.2 h10), if_pos (decide_eq_true h10)]
    show (s.idle + ((s.total - last).setWidth 32).setWidth 64).toNat = _
    rw [BitVec.toNat_add, BitVec.toNat_setWidth, hg]
    omega
  · rw [if_neg (fun h => h10 (hiff.1 h)), if_neg (by simpa using h10)]
    rfl

theorem idleFor_rest (last : BitVec 64) (s : Stats) : (idleFor last s).total = s.total ∧ (idleFor last s).mftbLast = s.mftbLast ∧ (idleFor last s).mr3131Last = s.mr3131Last := by
  obtain ⟨i, h⟩ := idleFor_eq last s
  rw [h]
  exact ⟨rfl, rfl, rfl⟩

theorem step_idle {t : Tables} {h : List Insn} {s s' : Stats} {x : Insn} (hs : Idle h s) (ht : h.length + 1 < 2 ^ 32) (hl : log t s x = some s') : Idle (x :: h) s' := by
  obtain ⟨s1, hk, rfl⟩ := log_keeps hl
  have htot : s1.total.toNat = h.length + 1 := by
    rw [hk.total]
    show (s.total + 1).toNat = _
    rw [BitVec.toNat_add, hs.total]
    show (h.length + 1) % 2 ^ 64 = _
    omega
  have hb1 := looping_le readsTime h
  have hb2 := looping_le lowPriority h
  -- the marker `mftb`
  have h1 : (mftb x.ea x.insn s1).total = s1.total ∧ (mftb x.ea x.insn s1).mr3131Last = s1.mr3131Last ∧
      (mftb x.ea x.insn s1).idle.toNat = looping readsTime (x :: h) + looping lowPriority h ∧
      (mftb x.ea x.insn s1).mftbLast.toNat + since readsTime (x :: h) = h.length + 1 := by
    unfold mftb
    rw [looping, since]
    by_cases hx : readsTime x = true
    · rw [if_pos ((readsTime_iff x).1 hx), hx, if_pos rfl]
      obtain ⟨a, b, c⟩ := idleFor_rest s1.mftbLast s1
      refine ⟨a, c, ?_, htot⟩
      have := idleFor_toNat (s := s1) (last := s1.mftbLast) (g := since readsTime h + 1) (by rw [hk.mftb, htot, ← hs.mftb]; rfl) (by omega)
        (by rw [hk.idle]; show s.idle.toNat + _ < _; rw [hs.idle]; omega)
      show (idleFor s1.mftbLast s1).idle.toNat = _
      rw [this, hk.idle]
      show s.idle.toNat + _ = _
      rw [hs.idle, Bool.true_and]
      omega
    · rw [if_neg (fun h => hx ((readsTime_iff x).2 h)), Bool.eq_false_iff.2 hx]
      simp only [Bool.false_and, Bool.false_eq_true, if_false]
      refine ⟨trivial, trivial, ?_, ?_⟩
      · rw [hk.idle]
        exact hs.idle
      · rw [hk.mftb, ← hs.mftb]; rfl
  obtain ⟨h2, h3, h4, h5⟩ := h1
  generalize mftb x.ea x.insn s1 = s2 at h2 h3 h4 h5 ⊢
  have h6 : (mr3131 x.ea x.insn s2).total = s2.total ∧ (mr3131 x.ea x.insn s2).mftbLast = s2.mftbLast ∧
      (mr3131 x.ea x.insn s2).idle.toNat = looping readsTime (x :: h) + looping lowPriority (x :: h) ∧
      (mr3131 x.ea x.insn s2).mr3131Last.toNat + since lowPriority (x :: h) = h.length + 1 := by
    unfold mr3131
    have hb3 := looping_le readsTime (x :: h)
    rw [List.length_cons] at hb3
    rw [looping.eq_2 lowPriority, since.eq_2 lowPriority]
    by_cases hx : lowPriority x = true
    · rw [if_pos ((lowPriority_iff x).1 hx), hx, if_pos rfl]
      obtain ⟨a, b, c⟩ := idleFor_rest s2.mr3131Last s2
      refine ⟨a, b, ?_, by show s2.total.toNat + 0 = _; rw [h2, htot]⟩
      have := idleFor_toNat (s := s2) (last := s2.mr3131Last) (g := since lowPriority h + 1) (by rw [h3, hk.mr, h2, htot, ← hs.mr]; rfl) (by rw [h2]; omega)
        (by rw [h4]; omega)
      show (idleFor s2.mr3131Last s2).idle.toNat = _
      rw [this, h4, Bool.true_and]
      omega
    · rw [if_neg (fun h => hx ((lowPriority_iff x).2 h)), Bool.eq_false_iff.2 hx]
      simp only [Bool.false_and, Bool.false_eq_true, if_false]
      refine ⟨trivial, trivial, ?_, ?_⟩
      · rw [h4]; rfl
      · rw [h3, hk.mr, ← hs.mr]; rfl
  obtain ⟨h7, h8, h9, h10⟩ := h6
  constructor
  · show (mr3131 x.ea x.insn s2).total.toNat = _
    rw [h7, h2, htot]; rfl
  · exact h9
  · show (mr3131 x.ea x.insn s2).mftbLast.toNat + _ = _
    rw [h8, h5]; rfl
  · exact h10

theorem run_idle {t : Tables} : ∀ (l h : List Insn) (s s' : Stats), Idle h s → h.length + l.length < 2 ^ 32 → run t s l = some s' → Idle (l.reverse ++ h) s'
  | [], h, s, s', hs, _, hr => by cases hr; exact hs
  | x :: l, h, s, s', hs, hl, hr => by
    rw [run] at hr
    split at hr
    · cases hr
    · rename_i s1 h1
      rw [List.length_cons] at hl
      rw [List.reverse_cons, List.append_assoc]
      exact run_idle l (x :: h) s1 s' (step_idle hs (by omega) h1) (by rw [List.length_cons]; omega) hr

/-- **C59**, for traces of fewer than 2^32 instructions: the idle instructions are those in short loops around `mftb`, and those in short loops around
`mr r31,r31`, added. -/
theorem C59_idle_partial {t : Tables} (ht : t.Good) (l : List Insn) (hl : l.length < 2 ^ 32) :
    ∃ s, run t (init t) l = some s ∧ s.idle.toNat = looping readsTime l.reverse + looping lowPriority l.reverse ∧ s.idle.toNat ≤ 2 * s.total.toNat := by
  obtain ⟨s, h1, _⟩ := C27_counts ht l
  have h2 := run_idle l [] (init t) s ⟨rfl, rfl, rfl, rfl⟩ (by rw [List.length_nil, Nat.zero_add]; exact hl) h1
  rw [List.append_nil] at h2
  refine ⟨s, h1, h2.idle, ?_⟩
  have h3 := looping_le readsTime l.reverse
  have h4 := looping_le lowPriority l.reverse
  rw [h2.idle, h2.total]
  omega

/-- **C59** (idle instructions are system instructions) **is refuted**: an interrupted idle loop counts user instructions as idle, and with both markers
instructions are counted twice, so that there are more idle instructions than instructions. -/
theorem C59_refuted :
    ((run tables (init tables) (⟨0xc000000000100000, 0x7d2c42a6⟩ :: (List.replicate 8 ⟨0x10000000, 0x60000000⟩ ++ [⟨0xc000000000100000, 0x7d2c42a6⟩]))).map
      fun s => (s.system, s.idle)) = some (2, 10) ∧
    ((run tables (init tables) [⟨0xc000000000100000, 0x7ffffb78⟩, ⟨0xc000000000100004, 0x7d2c42a6⟩, ⟨0xc000000000100008, 0x7ffffb78⟩,
      ⟨0xc00000000010000c, 0x7d2c42a6⟩]).map fun s => (s.total, s.idle)) = some (4, 7) := by
  decide +kernel

/-- C59 where it holds: in a trace of the kernel alone with only one of the markers. -/
theorem C59_kernel_partial {t : Tables} (ht : t.Good) (l : List Insn) (hl : l.length < 2 ^ 32) (hk : ∀ x ∈ l, region x.ea = .kernel)
    (hm : (∀ x ∈ l, readsTime x = false) ∨ ∀ x ∈ l, lowPriority x = false) :
    ∃ s, run t (init t) l = some s ∧ s.idle.toNat ≤ s.system.toNat := by
  obtain ⟨s, h1, h2, _⟩ := C59_idle_partial ht l hl
  obtain ⟨s', h3, h4⟩ := C27_counts ht l
  rw [h1] at h3; cases h3
  refine ⟨s, h1, ?_⟩
  have hz : ∀ (p : Insn → Bool) (g : List Insn), (∀ x ∈ g, p x = false) → looping p g = 0 := by
    intro p g
    induction g with
    | nil => intro _; rfl
    | cons x g ih =>
      intro h
      rw [looping, ih (fun y hy => h y (List.mem_cons_of_mem _ hy)), h x List.mem_cons_self, Bool.false_and]
      rfl
  have hc : ∀ g : List Insn, (∀ x ∈ g, region x.ea = .kernel) → count (fun _ x => region x.ea == .kernel) g = g.length := by
    intro g
    induction g with
    | nil => intro _; rfl
    | cons x g ih =>
      intro h
      rw [count, ih (fun y hy => h y (List.mem_cons_of_mem _ hy)), h x List.mem_cons_self]
      rfl
  rw [h4.system, hc l.reverse (fun x hx => hk x (List.mem_reverse.1 hx)), BitVec.toNat_ofNat, List.length_reverse, Nat.mod_eq_of_lt (by omega), h2]
  have h5 := looping_le readsTime l.reverse
  have h6 := looping_le lowPriority l.reverse
  rw [List.length_reverse] at h5 h6
  rcases hm with hm | hm
  · rw [hz readsTime l.reverse (fun x hx => hm x (List.mem_reverse.1 hx))]; omega
  · rw [hz lowPriority l.reverse (fun x hx => hm x (List.mem_reverse.1 hx))]; omega

/-- An idle loop of three instructions, twice. -/
example : ((run tables (init tables) [⟨0xc000000000100000, 0x7d2c42a6⟩, ⟨0xc000000000100004, 0x60000000⟩, ⟨0xc000000000100008, 0x48000000⟩,
    ⟨0xc000000000100000, 0x7d2c42a6⟩]).map fun s => (s.idle, s.system)) = some (4, 4) := by decide +kernel

end Stats
