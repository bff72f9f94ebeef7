import Verif.Qt.PropsAbort
/-! Property C06 for calls of the writer whose effect C leaves undefined. -/
namespace Qt
open Spec

/-- A real address whose page is said to be of at least 2 ^ 64 bytes; the writer keeps the shift in a byte. -/
def TooFar (raValid shiftValid : Bool) (shift : Nat) : Prop := raValid = true ∧ shiftValid = true ∧ 64 ≤ shift % 256

/-- The record `prev`, which is stored now, or the one that is jumped to has such a page. -/
def TooFarPair (prev cur : Record) : Prop :=
  TooFar prev.dataRaValid prev.dataPageShiftValid prev.dataPageShift ∨
  cur.insnAddr ≠ prev.insnAddr + 4 ∧ TooFar cur.insnRaValid cur.insnPageShiftValid cur.insnPageShift

theorem bind_ub {α β} {x : WRes α} {f : α → WRes β} : (x >>= f) = .ub ↔ x = .ub ∨ ∃ a, x = .ok a ∧ f a = .ub := by
  cases x with
  | ok a =>
    refine ⟨fun h => .inr ⟨a, rfl, h⟩, fun h => ?_⟩
    rcases h with h | ⟨b, h1, h2⟩
    · cases h
    · cases h1; exact h2
  | ub => exact ⟨fun _ => .inl rfl, fun _ => rfl⟩
  | abort =>
    refine ⟨(fun h => by cases h), fun h => ?_⟩
    rcases h with h | ⟨b, h1, h2⟩
    · cases h
    · cases h1

theorem putRpnIf_ub (c : Bool) (ra : BitVec 64) (v : Bool) (n : Nat) : putRpnIf c ra v n = .ub ↔ TooFar c v n := by
  unfold putRpnIf rpnBytes TooFar
  cases c <;> cases v <;> simp

theorem putRpnIf_near {c : Bool} {ra : BitVec 64} {v : Bool} {n : Nat} (h : ¬ TooFar c v n) : ∃ b, putRpnIf c ra v n = .ok b := by
  cases e : putRpnIf c ra v n with
  | ok b => exact ⟨b, rfl⟩
  | abort => exact absurd e (putRpnIf_abort _ _ _ _)
  | ub => exact absurd ((putRpnIf_ub c ra v n).1 e) h

theorem headerBytes_ub (magic version : BitVec 32) (r : Record) :
    headerBytes magic version r = .ub ↔ ¬ Refused r.radixInsn ∧ TooFar r.insnRaValid r.insnPageShiftValid r.insnPageShift := by
  unfold headerBytes
  rw [bind_ub]
  constructor
  · rintro (h | ⟨w, e, h⟩)
    · exact absurd h (radixWalk_abort _).2
    · refine ⟨fun hr => ?_, ?_⟩
      · rw [(radixWalk_abort _).1.2 hr] at e; cases e
      · rw [bind_ub, putRpnIf_ub] at h
        rcases h with h | ⟨_, _, h⟩
        · exact h
        · cases h
  · rintro ⟨h1, h2⟩
    cases e : radixWalk r.radixInsn with
    | ok w => exact .inr ⟨w, rfl, by rw [bind_ub, putRpnIf_ub]; exact .inl h2⟩
    | abort => exact absurd ((radixWalk_abort _).1.1 e) h1
    | ub => exact .inl rfl

theorem walkIf_ub (c : Bool) (x : Radix) : walkIf c x ≠ .ub := by
  unfold walkIf
  cases c with
  | false => exact fun h => by cases h
  | true => rw [if_pos rfl]; exact (radixWalk_abort x).2

theorem recordBytes_ub (prev cur : Record) : recordBytes prev cur = .ub ↔ ¬ RefusedPair prev cur ∧ TooFarPair prev cur := by
  have hc : (cur.insnRaValid && iarChange prev cur) = true ↔ cur.insnRaValid = true ∧ cur.insnAddr ≠ prev.insnAddr + 4 := by
    unfold iarChange
    rw [Bool.and_eq_true, bne_iff_ne]
  have ht : TooFar (cur.insnRaValid && iarChange prev cur) cur.insnPageShiftValid cur.insnPageShift ↔
      cur.insnAddr ≠ prev.insnAddr + 4 ∧ TooFar cur.insnRaValid cur.insnPageShiftValid cur.insnPageShift := by
    unfold TooFar
    rw [hc]
    exact ⟨fun ⟨⟨a, b⟩, c⟩ => ⟨b, a, c⟩, fun ⟨b, a, c⟩ => ⟨⟨a, b⟩, c⟩⟩
  have hr : RefusedPair prev cur ↔ (prev.dataRaValid = true ∧ Refused prev.radixData) ∨ ((cur.insnRaValid && iarChange prev cur) = true ∧ Refused cur.radixInsn) := by
    unfold RefusedPair
    rw [hc]
  rw [hr]
  unfold recordBytes TooFarPair
  rw [← ht]
  dsimp only
  by_cases h1 : prev.dataRaValid = true ∧ Refused prev.radixData
  · rw [(walkIf_abort _ _).2 h1]
    exact ⟨(fun h => by cases h), fun h => absurd (.inl h1) h.1⟩
  · obtain ⟨dw, e1⟩ := walkIf_ok h1
    rw [e1]
    by_cases h2 : (cur.insnRaValid && iarChange prev cur) = true ∧ Refused cur.radixInsn
    · show (walkIf _ _ >>= _) = _ ↔ _
      rw [(walkIf_abort _ _).2 h2]
      exact ⟨(fun h => by cases h), fun h => absurd (.inr h2) h.1⟩
    · obtain ⟨iw, e2⟩ := walkIf_ok h2
      show (walkIf _ _ >>= _) = _ ↔ _
      rw [e2]
      show (putRpnIf _ _ _ _ >>= _) = _ ↔ _
      rw [bind_ub, putRpnIf_ub]
      constructor
      · rintro (h | ⟨_, _, h⟩)
        · exact ⟨fun h' => h'.elim h1 h2, .inl h⟩
        · rw [bind_ub, putRpnIf_ub] at h
          rcases h with h | ⟨_, _, h⟩
          · exact ⟨fun h' => h'.elim h1 h2, .inr h⟩
          · cases h
      · rintro ⟨-, h⟩
        by_cases h3 : TooFar prev.dataRaValid prev.dataPageShiftValid prev.dataPageShift
        · exact .inl h3
        · obtain ⟨b, e3⟩ := putRpnIf_near (ra := prev.dataRa) h3
          exact .inr ⟨b, e3, by rw [bind_ub, putRpnIf_ub]; exact .inl (h.resolve_left h3)⟩

/-- C06. The effect of a call is undefined exactly if it does not fail to grow the file or fail an assertion, and a real address is shifted by 64 or more: that of
the first record, or of the data of the record before, or of a record that is jumped to. -/
theorem C06_undefined (s : WState) (r : Record) (g : Bool) :
    writeRecord s r g = .ub ↔ ¬ (s.mapped < s.out.length + BUFFER ∧ g = false) ∧
      if s.headerWritten then ¬ RefusedPair s.prev r ∧ TooFarPair s.prev r
      else ¬ Refused r.radixInsn ∧ TooFar r.insnRaValid r.insnPageShiftValid r.insnPageShift := by
  unfold writeRecord
  by_cases hg : s.mapped < s.out.length + BUFFER ∧ g = false
  · rw [if_pos (by simp [hg])]
    exact ⟨(fun h => by cases h), fun h => absurd hg h.1⟩
  · rw [if_neg (by simpa using hg)]
    dsimp only
    cases hw : s.headerWritten with
    | false =>
      rw [if_pos rfl, bind_ub, headerBytes_ub]
      exact ⟨fun h => ⟨hg, h.elim id fun ⟨_, _, h⟩ => by cases h⟩, fun h => .inl h.2⟩
    | true =>
      rw [if_neg (by decide), bind_ub, recordBytes_ub]
      exact ⟨fun h => ⟨hg, h.elim id fun ⟨_, _, h⟩ => by cases h⟩, fun h => .inl h.2⟩

/-- C06 fails of histories with such a record: nothing in the writer rejects it, so that nothing is known of where the bytes go.  An instruction that reads
memory is followed by the next one. -/
theorem C06_shift_refuted : ∃ (s : WState) (a b : Record), a.dataPageShift = 64 ∧ b.insnAddr = a.insnAddr + 4 ∧
    runWrites (writerOpen 0) [(a, true)] = .ok ([true], s) ∧ writeRecord s b true = .ub := by
  obtain ⟨a, ha⟩ : ∃ a : Record, a = { insn := 0xe8610000, insnAddr := 0x1000, dataAddrValid := true, dataRaValid := true, dataPageShiftValid := true, dataPageShift := 64 } := ⟨_, rfl⟩
  have hok : ∃ b, headerBytes 0 QTWRITER_VERSION a = .ok b := by
    cases e : headerBytes 0 QTWRITER_VERSION a with
    | ok b => exact ⟨b, rfl⟩
    | abort => exact absurd ((headerBytes_abort _ _ _).1 e) (by subst ha; exact fun h => h.1 rfl)
    | ub => exact absurd ((headerBytes_ub _ _ _).1 e).2 (by subst ha; exact fun h => by cases h.1)
  obtain ⟨b, hb⟩ := hok
  refine ⟨{ version := QTWRITER_VERSION, magic := 0, prev := a, headerWritten := true, mapped := BUFFER, out := [] ++ b }, a, { insn := 0x60000000, insnAddr := 0x1004 },
    by subst ha; rfl, by subst ha; decide, ?_, ?_⟩
  · have hw : writeRecord (writerOpen 0) a true = .ok (true, { version := QTWRITER_VERSION, magic := 0, prev := a, headerWritten := true, mapped := BUFFER, out := [] ++ b }) := by
      unfold writeRecord
      rw [if_neg (by simp)]
      dsimp only
      rw [if_pos (show (writerOpen 0).headerWritten = false from rfl), if_neg (by unfold writerOpen; simp)]
      show (headerBytes 0 QTWRITER_VERSION a >>= _) = _
      rw [hb]
      rfl
    show (writeRecord (writerOpen 0) a true >>= _) = _
    rw [hw]
    rfl
  · rw [C06_undefined]
    refine ⟨by simp, ?_⟩
    rw [if_pos rfl]
    subst ha
    refine ⟨?_, .inl ⟨rfl, rfl, show 64 ≤ 64 % 256 by decide⟩⟩
    rintro (⟨-, h, -⟩ | ⟨⟨h, -⟩, -⟩)
    · exact h rfl
    · cases h

end Qt
