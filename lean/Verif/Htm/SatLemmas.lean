import Verif.Htm.Sat
/-!
Every record of the decoder can be stored, for every trace.
-/
namespace Htm
open Htm.Pwc Htm.Xl

/-- A record that can be stored by itself, at any place of a trace but for its instruction word. -/
def Storable (r : Qt.Record) : Prop := Qt.Spec.RecordOk r ∧ (¬ Qt.Spec.NoWalk r.radixInsn → r.insnRaValid = true)

/-- What the memory of the uninitialised record must not contain. -/
structure QuietJunk (j : Qt.Record) : Prop where
  insn : j.radixInsn.nrPtes = 0
  data : j.radixData.nrPtes = 0
  guestInsn : j.guestInsnPageShiftValid = false
  guestData : j.guestDataPageShiftValid = false

theorem fit_walkOk {x : Qt.Radix} (h : Fit x) : Qt.Spec.WalkOk x := by
  unfold Qt.Spec.WalkOk
  have h1 := h.ptes
  have h2 := h.walks
  have h3 := h.some
  by_cases h0 : x.nrPtes = 0
  · exact Or.inl h0
  · by_cases hw : x.nrWalks = 1
    · exact Or.inr (Or.inl ⟨hw, h.typed hw⟩)
    · exact Or.inr (Or.inr (by have := h3 h0; omega))

theorem shift_lt {s : Nat} (h : Shift s) : s < 64 := by unfold Shift PageSize at h; omega

/-- The translations of the state fit the format. -/
structure DInv (s : Dec) : Prop where
  xl : Inv s.xl
  fit : Fit s.radix
  host : Shift s.hostShift
  guest : Shift s.guestShift

theorem good_any {r : Res} (h : Good r) : Fit r.rcd ∧ Shift r.host ∧ Shift r.guest := by
  cases hk : r.ok with
  | true => exact h.success hk
  | false =>
    obtain ⟨h1, h2, h3⟩ := h.failure hk
    rw [h1, h2, h3]
    exact ⟨⟨by decide, by decide, by decide, by decide⟩, Or.inl rfl, Or.inl rfl⟩

/-! ### POWER9 -/

/-- The page sizes of an instruction. -/
def Sizes9 (i : I9) : Prop := i.iraSize < 64 ∧ i.draSize < 64

theorem storable9 {c : Conf} (hq : QuietJunk c.junk) (s : Dec) {i : I9} (hi : Sizes9 i) : Storable (record9 c s i) := by
  have hn : (record9 c s i).radixInsn = c.junk.radixInsn := rfl
  have hd : (record9 c s i).radixData = c.junk.radixData := rfl
  refine ⟨⟨⟨?_, ?_, ?_, ?_⟩, ?_, ?_⟩, ?_⟩
  · intro h
    have h : (i.ira && !i.esid && decide (i.iraSize > 0)) = true := h
    show (if (i.ira && !i.esid && decide (i.iraSize > 0)) = true then i.iraSize else _) < 64
    rw [if_pos h]; exact hi.1
  · intro h
    have h : c.junk.guestInsnPageShiftValid = true := h
    rw [hq.guestInsn] at h; cases h
  · intro h
    have h : (i.dra && !i.esid && decide (i.draSize > 0)) = true := h
    show (if (i.dra && !i.esid && decide (i.draSize > 0)) = true then i.draSize else _) < 64
    rw [if_pos h]; exact hi.2
  · intro h
    have h : c.junk.guestDataPageShiftValid = true := h
    rw [hq.guestData] at h; cases h
  · intro _; rw [hn]; exact Or.inl hq.insn
  · intro _; rw [hd]; exact Or.inl hq.data
  · intro h; rw [hn] at h; exact absurd hq.insn h

abbrev Keeps (p : Dec × Bool) : Prop := DInv p.1

theorem sat_finish9 {c : Conf} (hq : QuietJunk c.junk) {s : Dec} (hs : DInv s) {i : I9} (hi : Sizes9 i) : (finish9 c s i).Sat Storable Keeps := by
  unfold finish9
  split
  · exact hs
  · refine ⟨trivial, ?_⟩
    split
    · refine sat_tellAll ?_ _ ?_
      · refine ⟨storable9 hq _ hi, ?_⟩
        exact ⟨hs.xl, hs.fit, hs.host, hs.guest⟩
      · intro e he
        unfold jumpEvents at he
        split at he
        · split at he
          · rcases List.mem_singleton.1 he with rfl; trivial
          · split at he
            · rcases List.mem_singleton.1 he with rfl; trivial
            · cases he
        · cases he
    · exact ⟨hs.xl, hs.fit, hs.host, hs.guest⟩

theorem dra9_size {v a : BitVec 64} {n : Nat} (h : dra9 v = some (a, n)) : n < 64 := by
  unfold dra9 at h
  repeat' split at h
  all_goals first | (cases h; decide) | cases h

theorem ira9_size {v b a : BitVec 64} {n : Nat} (h : ira9 v b = some (a, n)) : n < 64 := by
  unfold ira9 at h
  dsimp only at h
  repeat' split at h
  all_goals first | (cases h; decide) | (cases h; omega) | cases h

theorem shiftOf_lt (b : BitVec 64) : shiftOf b < 64 := by
  unfold shiftOf
  repeat' split
  all_goals decide

theorem dataPages9_ok (n : Nat) : ∀ e ∈ dataPages9 n, EvOk Storable e := by
  intro e he
  unfold dataPages9 at he
  split at he
  · rcases List.mem_singleton.1 he with rfl; trivial
  · split at he
    · rcases List.mem_singleton.1 he with rfl; trivial
    · split at he
      · rcases List.mem_singleton.1 he with rfl; trivial
      · cases he

theorem sat_draStep9 {c : Conf} (hq : QuietJunk c.junk) {s : Dec} (hs : DInv s) {i : I9} (hi : Sizes9 i) : (draStep9 c s i).Sat Storable Keeps := by
  unfold draStep9
  split
  · intro o
    cases o with
    | none => exact hs
    | some v =>
      dsimp only
      split
      · exact sat_finish9 hq hs hi
      · split
        · split
          · exact sat_finish9 hq hs hi
          · exact ⟨trivial, trivial, sat_finish9 hq hs hi⟩
        · split
          · exact sat_finish9 hq hs hi
          · rename_i hd
            refine sat_tellAll ?_ _ (dataPages9_ok _)
            refine ⟨trivial, ?_⟩
            refine sat_finish9 hq hs ?_
            exact ⟨hi.1, dra9_size hd⟩
  · exact sat_finish9 hq hs hi

theorem sat_deaStep9 {c : Conf} (hq : QuietJunk c.junk) {s : Dec} (hs : DInv s) {i : I9} (hi : Sizes9 i) : (deaStep9 c s i).Sat Storable Keeps := by
  unfold deaStep9
  split
  · intro o
    cases o with
    | none => exact hs
    | some v =>
      dsimp only
      split
      · exact sat_draStep9 hq hs hi
      · split
        · exact sat_finish9 hq hs hi
        · split
          · exact sat_draStep9 hq hs hi
          · exact sat_draStep9 hq hs hi
  · exact sat_draStep9 hq hs hi

theorem sat_iraStep9 {c : Conf} (hq : QuietJunk c.junk) {s : Dec} (hs : DInv s) {i : I9} (hi : Sizes9 i) : (iraStep9 c s i).Sat Storable Keeps := by
  unfold iraStep9
  refine ⟨trivial, ?_⟩
  split
  · intro o
    cases o with
    | none => exact hs
    | some v =>
      dsimp only
      split
      · exact sat_deaStep9 hq hs hi
      · split
        · exact sat_finish9 hq hs hi
        · rename_i hd
          refine ⟨trivial, trivial, trivial, ?_⟩
          split
          · trivial
          · refine ⟨trivial, sat_deaStep9 hq ?_ ?_⟩
            · exact ⟨hs.xl, hs.fit, hs.host, hs.guest⟩
            · exact ⟨ira9_size hd, hi.2⟩
  · exact ⟨trivial, sat_deaStep9 hq hs hi⟩

theorem sat_cached9 {c : Conf} (hq : QuietJunk c.junk) {s : Dec} (hs : DInv s) {i : I9} (hi : Sizes9 i) : (cached9 c s i).Sat Storable Keeps := by
  unfold cached9
  split
  · refine ⟨trivial, ?_⟩
    split
    · trivial
    · exact sat_iraStep9 hq hs hi
    · exact sat_iraStep9 hq hs ⟨shiftOf_lt _, hi.2⟩
  · exact sat_iraStep9 hq hs hi

theorem sat_insn9 {c : Conf} (hq : QuietJunk c.junk) (s : Dec) (v : BitVec 64) (hs : DInv s) : (insn9 c s v).Sat Storable Keeps := by
  unfold insn9
  refine ⟨trivial, trivial, ?_⟩
  split
  · exact hs
  · rename_i i hinfo
    have hi : Sizes9 i := by
      unfold info9 at hinfo
      repeat' split at hinfo
      all_goals first | (cases hinfo; exact ⟨Nat.zero_lt_succ 63, Nat.zero_lt_succ 63⟩) | cases hinfo
    split
    · refine ⟨trivial, ?_⟩
      unfold ieaStep9
      split
      · intro o
        cases o with
        | none => exact hs
        | some w =>
          dsimp only
          split
          · refine sat_finish9 hq ?_ hi; exact ⟨hs.xl, hs.fit, hs.host, hs.guest⟩
          · refine sat_cached9 hq ?_ hi; exact ⟨hs.xl, hs.fit, hs.host, hs.guest⟩
      · refine sat_iraStep9 hq ?_ hi; exact ⟨hs.xl, hs.fit, hs.host, hs.guest⟩
    · exact hs

/-! ### POWER10 -/

theorem gotIeara_inv {s s' : Dec} {ix : List Xlate} {l l' : I10} {a r : BitVec 64} (hs : DInv s) (h : gotIeara s ix l a r = .ok (s', l')) : DInv s' := by
  unfold gotIeara at h
  split at h
  · cases h
  · split at h
    · cases h
    · cases h; exact ⟨hs.xl, hs.fit, hs.host, hs.guest⟩

theorem sat_walks10 {E : Qt.Record → Prop} : ∀ (k : Nat) (x : Xlate) (i : Nat), (walks10 x k i).Sat E (fun _ => True)
  | 0, _, _ => trivial
  | k + 1, x, i => by
    intro o
    cases o with
    | none => trivial
    | some v =>
      dsimp only
      split
      · trivial
      · exact sat_walks10 k _ _

theorem sat_head10 : ∀ (n : Nat) (s : Dec) (ix : List Xlate) (l : I10) (v : BitVec 64), DInv s →
    (head10 n s ix l v).Sat Storable (fun p => DInv p.1)
  | 0, _, _, _, _, _ => trivial
  | n + 1, s, ix, l, v, hs => by
    have hs2 : DInv { s with rpt := true } := ⟨hs.xl, hs.fit, hs.host, hs.guest⟩
    rw [head10]
    split
    · refine sat_bind (P := fun _ => True) ?_ _ ?_
      · intro a _
        cases a with
        | none => exact hs
        | some p =>
          dsimp only
          split
          · trivial
          · rename_i hg
            intro o
            cases o with
            | none => exact gotIeara_inv hs hg
            | some w => exact sat_head10 n _ _ _ _ (gotIeara_inv hs hg)
      · intro o
        cases o with
        | none => trivial
        | some w => intro o; cases o <;> trivial
    · split
      · split
        · split
          · refine sat_bind (P := fun _ => True) ?_ _ (sat_walks10 _ _ _)
            intro a _
            cases a with
            | none => exact hs2
            | some x =>
              intro o
              cases o with
              | none => exact hs2
              | some w => exact sat_head10 n _ _ _ _ hs2
          · trivial
        · split
          · refine sat_bind (P := fun _ => True) ?_ _ (sat_walks10 _ _ _)
            intro a _
            cases a with
            | none => exact hs2
            | some x =>
              intro o
              cases o with
              | none => exact hs2
              | some w => exact sat_head10 n _ _ _ _ hs2
          · trivial
      · exact hs

theorem pageEvents_ok (f : Nat → Counter) (n : Nat) : OutOk Storable (pageEvents f n) := by
  intro e he
  unfold pageEvents at he
  split at he
  · rcases List.mem_singleton.1 he with rfl; trivial
  · cases he

theorem orKept_inv {x : Option Xlate} {xl : St} {a r : BitVec 64} (h : Inv xl) : Inv (orKept x xl a r).2 := by
  unfold orKept
  split <;> exact h

theorem newLine_inv {s s' : Dec} {l : I10} {es : List Ev} (hs : DInv s) (h : newLine s l = .ok (s', es)) : DInv s' ∧ OutOk Storable es := by
  unfold newLine at h
  have hk := orKept_inv (x := l.ixlate) (a := s.insnAddr) (r := s.realAddr) hs.xl
  generalize orKept l.ixlate s.xl s.insnAddr s.realAddr = o at h hk
  obtain ⟨x, xl⟩ := o
  dsimp only at h hk
  split at h
  · split at h
    · cases h
    · rename_i hd
      cases h
      obtain ⟨hg, hi⟩ := decode_ok hk hd
      obtain ⟨g1, g2, g3⟩ := good_any hg
      refine ⟨⟨hi, g1, g2, g3⟩, ?_⟩
      intro e he
      rcases List.mem_cons.1 he with rfl | he
      · trivial
      · exact pageEvents_ok _ _ e he
  · obtain ⟨res, h1, hg⟩ := lookup_ok hk l.hv l.ir s.insnAddr s.realAddr
    rw [h1] at h
    cases h
    obtain ⟨g1, g2, g3⟩ := good_any hg
    exact ⟨⟨hk, g1, g2, g3⟩, fun e he => by rcases List.mem_singleton.1 he with rfl; trivial⟩

theorem iside_inv {s s' : Dec} {l : I10} {es : List Ev} (hs : DInv s) (h : iside s l = .ok (s', es)) : DInv s' ∧ OutOk Storable es := by
  unfold iside at h
  split at h
  · split at h
    · exact newLine_inv hs h
    · unfold sameLine at h
      split at h
      · split at h
        · split at h
          · cases h
          · cases h
            refine ⟨⟨hs.xl, ⟨hs.fit.ptes, hs.fit.walks, hs.fit.typed, hs.fit.some⟩, hs.host, hs.guest⟩, ?_⟩
            intro e he; rcases List.mem_singleton.1 he with rfl; trivial
        · cases h
          exact ⟨hs, fun e he => by rcases List.mem_singleton.1 he with rfl; trivial⟩
      · cases h; exact ⟨hs, fun e he => by cases he⟩
  · cases h; exact ⟨hs, fun e he => by cases he⟩

theorem dside_inv {xl xl' : St} {l l' : I10} {a r : BitVec 64} {res : Res} {es : List Ev} (hx : Inv xl)
    (h : dside xl l a r = .ok (res, es, xl', l')) : Good res ∧ OutOk Storable es ∧ Inv xl' := by
  unfold dside at h
  dsimp only at h
  have hk := orKept_inv (x := (selectD (l.dxlates.take l.ndxlates) r).bind fun i => l.dxlates[i]?) (a := a) (r := r) hx
  generalize orKept ((selectD (l.dxlates.take l.ndxlates) r).bind fun i => l.dxlates[i]?) xl a r = o at h hk
  obtain ⟨x, xl2⟩ := o
  dsimp only at h hk
  split at h
  · split at h
    · cases h
    · rename_i hd
      cases h
      obtain ⟨hg, hi⟩ := decode_ok hk hd
      refine ⟨hg, ?_, hi⟩
      intro e he
      rcases List.mem_cons.1 he with rfl | he
      · trivial
      · exact pageEvents_ok _ _ e he
  · obtain ⟨res, h1, hg⟩ := lookup_ok hk l.hv l.dr a r
    rw [h1] at h
    cases h
    exact ⟨hg, fun e he => by rcases List.mem_singleton.1 he with rfl; trivial, hk⟩

theorem storable10 {c : Conf} (hq : QuietJunk c.junk) {s : Dec} (hs : DInv s) (l : I10) {d : Res} (hd : Good d) : Storable (record10 c s l d) := by
  obtain ⟨g1, g2, g3⟩ := good_any hd
  have e1 : (record10 c s l d).insnRaValid = (!l.esid && decide (s.hostShift ≠ 0)) := rfl
  have e2 : (record10 c s l d).radixInsn = if (!l.esid && decide (s.hostShift ≠ 0)) = true then s.radix else c.junk.radixInsn := rfl
  refine ⟨⟨⟨?_, ?_, ?_, ?_⟩, ?_, ?_⟩, ?_⟩
  · intro h
    have h : (!l.esid && decide (s.hostShift ≠ 0)) = true := h
    show (if (!l.esid && decide (s.hostShift ≠ 0)) = true then s.hostShift else _) < 64
    rw [if_pos h]; exact shift_lt hs.host
  · intro h
    have h : decide (s.guestShift ≠ 0) = true := h
    show (if s.guestShift ≠ 0 then s.guestShift else _) < 64
    rw [if_pos (of_decide_eq_true h)]; exact shift_lt hs.guest
  · intro h
    have h : (decide (l.dra ≠ 0) && !l.esid && decide (d.host ≠ 0)) = true := h
    show (if (decide (l.dra ≠ 0) && !l.esid && decide (d.host ≠ 0)) = true then d.host else _) < 64
    rw [if_pos h]; exact shift_lt g2
  · intro h
    have h : decide (d.guest ≠ 0) = true := h
    show (if d.guest ≠ 0 then d.guest else _) < 64
    rw [if_pos (of_decide_eq_true h)]; exact shift_lt g3
  · intro h; rw [e2, if_pos (e1 ▸ h)]; exact fit_walkOk hs.fit
  · intro h
    have h : (decide (l.dra ≠ 0) && !l.esid && decide (d.host ≠ 0)) = true := h
    show Qt.Spec.WalkOk (if (decide (l.dra ≠ 0) && !l.esid && decide (d.host ≠ 0)) = true then d.rcd else _)
    rw [if_pos h]; exact fit_walkOk g1
  · intro h
    rw [e2] at h
    rw [e1]
    cases hb : (!l.esid && decide (s.hostShift ≠ 0)) with
    | true => rfl
    | false => rw [hb, if_neg (by decide)] at h; exact absurd hq.insn h

theorem good_none : Good { ok := true } :=
  ⟨fun _ => ⟨⟨by decide, by decide, by decide, by decide⟩, Or.inl rfl, Or.inl rfl⟩, by intro h; cases h⟩

theorem sat_emit10 {c : Conf} (hq : QuietJunk c.junk) {s : Dec} (hs : DInv s) (l : I10) : (emit10 c s l).Sat Storable Keeps := by
  unfold emit10
  split
  · trivial
  · rename_i s1 e1 h1
    obtain ⟨hs1, ho1⟩ := iside_inv (s := { s with prevAddr := s.insnAddr, prevBranch := l.branch || isCall s.insn }) ⟨hs.xl, hs.fit, hs.host, hs.guest⟩ h1
    split
    · trivial
    · rename_i d e2 xl l2 h2
      have hd : Good d ∧ OutOk Storable e2 ∧ Inv xl := by
        unfold dside0 at h2
        split at h2
        · exact dside_inv hs1.xl h2
        · cases h2; exact ⟨good_none, (fun e he => by cases he), hs1.xl⟩
      split
      · trivial
      · rename_i xl3 l3 h3
        have hx3 : Inv xl3 := by
          unfold dside1 at h3
          split at h3
          · split at h3
            · cases h3
            · rename_i hd1; cases h3; exact (dside_inv hd.2.2 hd1).2.2
          · cases h3; exact hd.2.2
        split
        · trivial
        · rename_i xl4 h4
          have hx4 : Inv xl4 := by
            unfold keepData at h4
            split at h4
            · split at h4
              · cases h4
              · cases h4; exact hx3
            · cases h4; exact hx3
          refine sat_tellAll ?_ _ ?_
          · exact ⟨hx4, hs1.fit, hs1.host, hs1.guest⟩
          refine outOk_append (outOk_append (outOk_append ho1 hd.2.1) ?_) ?_
          · intro e he
            rcases List.mem_singleton.1 he with rfl
            exact storable10 hq hs1 l3 hd.1
          · intro e he
            unfold suffix10 at he
            split at he
            · rcases List.mem_singleton.1 he with rfl
              refine ⟨⟨⟨?_, ?_, ?_, ?_⟩, ?_, ?_⟩, ?_⟩
              · intro h; cases h
              · intro h; cases h
              · intro h; cases h
              · intro h; cases h
              · intro h; cases h
              · intro h; cases h
              · intro h; exact absurd rfl h
            · cases he

theorem place_inv {s : Dec} (hs : DInv s) (l : I10) : DInv (place s l) := by
  unfold place
  split <;> exact ⟨hs.xl, hs.fit, hs.host, hs.guest⟩

theorem sat_finish10 {c : Conf} (hq : QuietJunk c.junk) {s : Dec} (hs : DInv s) (l : I10) : (finish10 c s l).Sat Storable Keeps := by
  have hp := place_inv hs l
  unfold finish10
  split
  · exact hp
  · refine ⟨trivial, trivial, ?_⟩
    split
    · refine sat_emit10 hq ?_ l; exact ⟨hp.xl, hp.fit, hp.host, hp.guest⟩
    · exact ⟨hp.xl, hp.fit, hp.host, hp.guest⟩

theorem sat_draStep10 {E : Qt.Record → Prop} (c : Conf) (i : Nat) (l : I10) : (draStep10 c i l).Sat E (fun _ => True) := by
  unfold draStep10
  split
  · intro o
    cases o with
    | none => trivial
    | some v =>
      dsimp only
      repeat' split
      all_goals trivial
  · trivial

theorem sat_dataStep10 {E : Qt.Record → Prop} (c : Conf) (i : Nat) (l : I10) : (dataStep10 c i l).Sat E (fun _ => True) := by
  unfold dataStep10
  split
  · intro o
    cases o with
    | none => trivial
    | some v =>
      dsimp only
      split
      · exact sat_draStep10 ..
      · split
        · split
          · trivial
          · exact sat_draStep10 ..
        · split <;> exact sat_draStep10 ..
  · exact sat_draStep10 ..

theorem sat_data10 {E : Qt.Record → Prop} (c : Conf) (l : I10) : (data10 c l).Sat E (fun _ => True) := by
  unfold data10
  split
  · refine sat_bind ?_ _ (sat_dataStep10 c 0 l)
    intro o _
    split
    · trivial
    · trivial
    · split
      · refine sat_bind ?_ _ (sat_dataStep10 ..); intro _ _; trivial
      · trivial
  · trivial

theorem sat_body10 {c : Conf} (hq : QuietJunk c.junk) {s : Dec} (hs : DInv s) (l : I10) : (body10 c s l).Sat Storable Keeps := by
  unfold body10
  refine sat_bind ?_ _ (sat_data10 c l)
  intro o _
  cases o with
  | none => exact hs
  | some l => exact sat_finish10 hq hs l

theorem sat_insn10 {c : Conf} (hq : QuietJunk c.junk) (n : Nat) (s : Dec) (v : BitVec 64) (hs : DInv s) : (insn10 c n s v).Sat Storable Keeps := by
  unfold insn10
  refine ⟨trivial, trivial, sat_bind ?_ _ (sat_head10 n s [] {} v hs)⟩
  rintro ⟨s1, o⟩ h1
  cases o with
  | none => exact h1
  | some p =>
    dsimp only
    split
    · exact h1
    · refine ⟨trivial, ?_⟩
      unfold msr10
      intro o
      cases o with
      | none => exact h1
      | some v =>
        dsimp only
        unfold prefix10
        split
        · intro o
          cases o with
          | none => exact h1
          | some w => exact sat_body10 hq h1 _
        · exact sat_body10 hq h1 _

/-- Every record of every trace can be stored. -/
theorem decoded_storable {c : Conf} (hq : QuietJunk c.junk) {eof failing : Bool} {bytes : List (BitVec 8)} {fill phantom : BitVec 64} {l : List Qt.Record}
    (h : decoded c eof bytes failing fill phantom = some l) : ∀ r ∈ l, Storable r := by
  unfold decoded at h
  cases hd : decode c eof bytes failing fill phantom with
  | error e => rw [hd] at h; cases h
  | ok p =>
    rw [hd] at h
    cases h
    obtain ⟨s, r⟩ := p
    unfold decode at hd
    exact outOk_instructions (sat_decodeLoop (I := DInv) (fun s v hs => sat_insn9 hq s v hs) (fun n s v hs => sat_insn10 hq n s v hs)
      _ _ _ _ _ _ ⟨inv_init, ⟨by decide, by decide, by decide, by decide⟩, Or.inl rfl, Or.inl rfl⟩ (fun e he => by cases he) hd)

end Htm
