import Verif.Stats.PropsPrint
/-! Helper lemmas: context switches away from where the first one was counted. -/
namespace Stats
open Spec

/-- The two fields of the warning. -/
structure Still (s s' : Stats) : Prop where
  ea : s'.ctxswitchEa = s.ctxswitchEa
  multiple : s'.ctxswitchEaMultiple = s.ctxswitchEaMultiple

theorem Still.refl (s : Stats) : Still s s := ⟨rfl, rfl⟩

theorem Still.trans {a b c : Stats} (h : Still a b) (h' : Still b c) : Still a c :=
  ⟨h'.ea.trans h.ea, h'.multiple.trans h.multiple⟩

theorem space_still (ea : BitVec 64) (s : Stats) : Still s (space ea s) := by
  unfold space
  split
  · exact ⟨rfl, rfl⟩
  · split
    · exact ⟨rfl, rfl⟩
    · split <;> exact ⟨rfl, rfl⟩

theorem exceptionEntry_still {t : Tables} {ea : BitVec 64} {s s' : Stats} (h : exceptionEntry t ea s = some s') : Still s s' := by
  unfold exceptionEntry at h
  split at h
  · cases h; exact Still.refl _
  · split at h
    · cases h; exact Still.refl _
    · split at h
      · cases h
      · cases h; exact ⟨rfl, rfl⟩

theorem registers_still (w : BitVec 32) (s : Stats) : Still s (registers w s) := by
  unfold registers
  dsimp only
  repeat' split
  all_goals exact ⟨rfl, rfl⟩

theorem syscall_still {t : Tables} {w : BitVec 32} {s s' : Stats} (h : syscall t w s = some s') : Still s s' := by
  unfold syscall at h
  split at h
  · split at h
    · cases h
    · cases h; exact ⟨rfl, rfl⟩
  · cases h; exact Still.refl _

theorem hcall_still {t : Tables} {w : BitVec 32} {s s' : Stats} (h : hcall t w s = some s') : Still s s' := by
  unfold hcall at h
  split at h
  · split at h
    · cases h
    · cases h; exact ⟨rfl, rfl⟩
  · cases h; exact Still.refl _

theorem opalcall_still {t : Tables} {ea : BitVec 64} {s s' : Stats} (h : opalcall t ea s = some s') : Still s s' := by
  unfold opalcall at h
  split at h
  · split at h
    · cases h
    · cases h; exact ⟨rfl, rfl⟩
  · cases h; exact Still.refl _

theorem idleFor_still (since : BitVec 64) (s : Stats) : Still s (idleFor since s) := by
  obtain ⟨i, h⟩ := idleFor_eq since s
  rw [h]; exact ⟨rfl, rfl⟩

theorem mftb_still (ea : BitVec 64) (w : BitVec 32) (s : Stats) : Still s (mftb ea w s) := by
  unfold mftb
  split
  · exact ⟨(idleFor_still s.mftbLast s).ea, (idleFor_still s.mftbLast s).multiple⟩
  · exact Still.refl _

theorem mr3131_still (ea : BitVec 64) (w : BitVec 32) (s : Stats) : Still s (mr3131 ea w s) := by
  unfold mr3131
  split
  · exact ⟨(idleFor_still s.mr3131Last s).ea, (idleFor_still s.mr3131Last s).multiple⟩
  · exact Still.refl _

theorem log_still {t : Tables} {s s' : Stats} {x : Insn} (h : log t s x = some s') :
    ∃ d, Still s d ∧ Still (context x.ea x.insn d) s' := by
  unfold log logStats at h
  split at h
  · cases h
  · rename_i a ha
    split at h
    · cases h
    · rename_i b hb
      split at h
      · cases h
      · rename_i c hc
        split at h
        · cases h
        · rename_i d hd
          cases h
          have h0 : Still s { s with total := s.total + 1 } := ⟨rfl, rfl⟩
          have h9 := (mftb_still x.ea x.insn (context x.ea x.insn d)).trans (mr3131_still x.ea x.insn _)
          exact ⟨d, h0.trans ((((((space_still _ _).trans (exceptionEntry_still ha)).trans (registers_still _ _)).trans
            (syscall_still hb)).trans (hcall_still hc)).trans (opalcall_still hd)), ⟨h9.ea, h9.multiple⟩⟩

theorem log_fuzzy {t : Tables} {s s' : Stats} {x : Insn} (h : log t s x = some s') :
    (switches x = false → Still s s') ∧
    (switches x = true → s.ctxswitchEa = 0 → s'.ctxswitchEa = x.ea ∧ s'.ctxswitchEaMultiple = s.ctxswitchEaMultiple) ∧
    (switches x = true → s.ctxswitchEa ≠ 0 → s'.ctxswitchEa = s.ctxswitchEa ∧
      s'.ctxswitchEaMultiple = s.ctxswitchEaMultiple + BitVec.ofNat 64 (if x.ea = s.ctxswitchEa then 0 else 1)) := by
  obtain ⟨d, h1, h2⟩ := log_still h
  refine ⟨fun hs => ?_, fun hs h0 => ?_, fun hs h0 => ?_⟩
  · have hc : context x.ea x.insn d = d := by
      unfold context
      rw [if_neg]
      intro hh
      rw [(switches_iff x).2 hh] at hs
      cases hs
    rw [hc] at h2
    exact h1.trans h2
  · have hc : context x.ea x.insn d = { d with ctxswitch := d.ctxswitch + 1, ctxswitchEa := x.ea } := by
      unfold context
      rw [if_pos ((switches_iff x).1 hs)]
      have : d.ctxswitchEa = 0 := h1.ea.trans h0
      simp [this]
    rw [hc] at h2
    exact ⟨h2.ea, h2.multiple.trans h1.multiple⟩
  · have hd : d.ctxswitchEa ≠ 0 := by rw [h1.ea]; exact h0
    by_cases he : x.ea = s.ctxswitchEa
    · have hc : context x.ea x.insn d = { d with ctxswitch := d.ctxswitch + 1 } := by
        unfold context
        rw [if_pos ((switches_iff x).1 hs)]
        have : x.ea = d.ctxswitchEa := by rw [h1.ea]; exact he
        dsimp only
        rw [if_neg hd, if_neg (show ¬ x.ea ≠ d.ctxswitchEa from fun h => h this)]
      rw [hc] at h2
      rw [if_pos he]
      exact ⟨h2.ea.trans h1.ea, by rw [h2.multiple]; show d.ctxswitchEaMultiple = _; rw [h1.multiple]; simp⟩
    · have hc : context x.ea x.insn d = { d with ctxswitch := d.ctxswitch + 1, ctxswitchEaMultiple := d.ctxswitchEaMultiple + 1 } := by
        unfold context
        rw [if_pos ((switches_iff x).1 hs)]
        have : x.ea ≠ d.ctxswitchEa := by rw [h1.ea]; exact he
        dsimp only
        rw [if_neg hd, if_pos (show x.ea ≠ d.ctxswitchEa from this)]
      rw [hc] at h2
      rw [if_neg he]
      exact ⟨h2.ea.trans h1.ea, by rw [h2.multiple]; show d.ctxswitchEaMultiple + 1 = _; rw [h1.multiple]; rfl⟩

theorem run_fuzzy {t : Tables} : ∀ (l : List Insn) {s s' : Stats}, run t s l = some s' → s.ctxswitchEa ≠ 0 →
    s'.ctxswitchEaMultiple = s.ctxswitchEaMultiple + BitVec.ofNat 64 (((l.filter switches).map (·.ea)).countP (· != s.ctxswitchEa))
  | [], s, s', h, _ => by
    rw [run] at h
    cases h
    simp
  | x :: l, s, s', h, h0 => by
    rw [run] at h
    cases hx : log t s x with
    | none => rw [hx] at h; cases h
    | some s1 =>
      rw [hx] at h
      obtain ⟨f1, -, f3⟩ := log_fuzzy hx
      cases hs : switches x with
      | false =>
        have hst := f1 hs
        rw [List.filter_cons_of_neg (by rw [hs]; decide)]
        have := run_fuzzy l h (by rw [hst.ea]; exact h0)
        rw [hst.ea, hst.multiple] at this
        exact this
      | true =>
        obtain ⟨g1, g2⟩ := f3 hs h0
        rw [List.filter_cons_of_pos hs, List.map_cons, List.countP_cons]
        have := run_fuzzy l h (by rw [g1]; exact h0)
        rw [g1, g2] at this
        rw [this, BitVec.add_assoc, ← BitVec.ofNat_add, Nat.add_comm]
        by_cases he : x.ea = s.ctxswitchEa <;> simp [he]

/-- Counted context switches at other addresses than the first one. -/
def elsewhere (l : List Insn) : Nat :=
  match (l.filter switches).map (·.ea) with
  | [] => 0
  | a :: r => r.countP (· != a)

theorem run_elsewhere {t : Tables} : ∀ (l : List Insn) {s s' : Stats}, run t s l = some s' → s.ctxswitchEa = 0 →
    s'.ctxswitchEaMultiple = s.ctxswitchEaMultiple + BitVec.ofNat 64 (elsewhere l)
  | [], s, s', h, _ => by
    rw [run] at h
    cases h
    simp [elsewhere]
  | x :: l, s, s', h, h0 => by
    rw [run] at h
    cases hx : log t s x with
    | none => rw [hx] at h; cases h
    | some s1 =>
      rw [hx] at h
      obtain ⟨f1, f2, -⟩ := log_fuzzy hx
      unfold elsewhere
      cases hs : switches x with
      | false =>
        have hst := f1 hs
        rw [List.filter_cons_of_neg (by rw [hs]; decide)]
        have := run_elsewhere l h (by rw [hst.ea]; exact h0)
        rw [hst.multiple] at this
        exact this
      | true =>
        obtain ⟨g1, g2⟩ := f2 hs h0
        rw [List.filter_cons_of_pos hs, List.map_cons]
        have hne : x.ea ≠ 0 := by
          intro h
          have := (switches_iff x).1 hs
          rw [h] at this
          exact absurd this.1 (by decide)
        have := run_fuzzy l h (by rw [g1]; exact hne)
        rw [g1, g2] at this
        exact this

theorem elsewhere_le (l : List Insn) : elsewhere l ≤ l.countP switches := by
  unfold elsewhere
  rw [List.countP_eq_length_filter]
  cases h : (l.filter switches).map (·.ea) with
  | nil => exact Nat.zero_le _
  | cons a r =>
    have h1 := congrArg List.length h
    rw [List.length_map, List.length_cons] at h1
    have : r.countP (· != a) ≤ r.length := List.countP_le_length
    show r.countP (· != a) ≤ _
    omega

end Stats
