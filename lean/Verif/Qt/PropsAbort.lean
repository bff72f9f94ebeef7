import Verif.Qt.Abort
import Verif.Qt.PropsWriter
/-! Property C06 for calls of the writer that end in a failed assertion. -/
namespace Qt
open Spec

/-- The counts of a walk that the writer does not accept. -/
def Refused (x : Radix) : Prop :=
  x.nrPtes ≠ 0 ∧ (x.nrWalks = 1 ∧ x.type = .unspecified ∨ 2 ≤ x.nrWalks ∧ (4 < x.nrPtes ∨ 5 < x.nrWalks))

theorem radixWalk_abort (x : Radix) : (radixWalk x = .abort ↔ Refused x) ∧ radixWalk x ≠ .ub := by
  unfold radixWalk Refused NR_RADIX_PTES MAX_RADIX_WALKS
  by_cases h0 : x.nrPtes = 0
  · simp [h0]
  · by_cases h1 : x.nrWalks = 1
    · cases ht : x.type <;> simp [h0, h1]
    · by_cases h2 : x.nrWalks > 1
      · by_cases h3 : x.nrPtes ≤ 4 ∧ x.nrWalks ≤ 5
        · simp [h0, h1, h2, h3] <;> omega
        · simp [h0, h1, h2, h3] <;> omega
      · simp [h0, h1, h2] <;> omega

theorem putRpnIf_abort (c : Bool) (ra : BitVec 64) (v : Bool) (n : Nat) : putRpnIf c ra v n ≠ .abort := by
  unfold putRpnIf rpnBytes
  cases c with
  | false => exact fun h => by cases h
  | true =>
    rw [if_pos rfl]
    dsimp only
    generalize (if v then n % 256 else 16) = p
    split <;> exact fun h => by cases h

theorem bind_abort {α β} {x : WRes α} {f : α → WRes β} : (x >>= f) = .abort ↔ x = .abort ∨ ∃ a, x = .ok a ∧ f a = .abort := by
  cases x with
  | ok a =>
    refine ⟨fun h => .inr ⟨a, rfl, h⟩, fun h => ?_⟩
    rcases h with h | ⟨b, h1, h2⟩
    · cases h
    · cases h1; exact h2
  | abort => exact ⟨fun _ => .inl rfl, fun _ => rfl⟩
  | ub =>
    refine ⟨(fun h => by cases h), fun h => ?_⟩
    rcases h with h | ⟨b, h1, h2⟩
    · cases h
    · cases h1

theorem headerBytes_abort (magic version : BitVec 32) (r : Record) : headerBytes magic version r = .abort ↔ Refused r.radixInsn := by
  unfold headerBytes
  rw [bind_abort, (radixWalk_abort _).1]
  refine ⟨fun h => h.elim id fun ⟨w, _, h⟩ => ?_, .inl⟩
  rw [bind_abort] at h
  rcases h with h | ⟨_, _, h⟩
  · exact absurd h (putRpnIf_abort _ _ _ _)
  · cases h

theorem walkIf_abort (c : Bool) (x : Radix) : walkIf c x = .abort ↔ c = true ∧ Refused x := by
  unfold walkIf
  cases c with
  | false => exact ⟨(fun h => by cases h), fun h => by cases h.1⟩
  | true => rw [if_pos rfl, (radixWalk_abort x).1]; exact ⟨fun h => ⟨rfl, h⟩, fun h => h.2⟩

theorem walkIf_ok {c : Bool} {x : Radix} (h : ¬ (c = true ∧ Refused x)) : ∃ w, walkIf c x = .ok w := by
  cases e : walkIf c x with
  | ok w => exact ⟨w, rfl⟩
  | abort => exact absurd ((walkIf_abort c x).1 e) h
  | ub =>
    unfold walkIf at e
    cases c with
    | false => cases e
    | true => exact absurd e (radixWalk_abort x).2

/-- The record `prev`, which is stored now, or the one that follows has a walk that is not accepted. -/
def RefusedPair (prev cur : Record) : Prop :=
  prev.dataRaValid = true ∧ Refused prev.radixData ∨ (cur.insnRaValid = true ∧ cur.insnAddr ≠ prev.insnAddr + 4) ∧ Refused cur.radixInsn

theorem recordBytes_abort (prev cur : Record) : recordBytes prev cur = .abort ↔ RefusedPair prev cur := by
  have hc : (cur.insnRaValid && iarChange prev cur) = true ↔ cur.insnRaValid = true ∧ cur.insnAddr ≠ prev.insnAddr + 4 := by
    unfold iarChange
    rw [Bool.and_eq_true, bne_iff_ne]
  unfold recordBytes RefusedPair
  dsimp only
  rw [bind_abort, walkIf_abort, ← hc]
  by_cases hd : prev.dataRaValid = true ∧ Refused prev.radixData
  · exact ⟨fun _ => .inl hd, fun _ => .inl hd⟩
  · obtain ⟨dw, e⟩ := walkIf_ok hd
    refine ⟨fun h => h.elim .inl fun ⟨w, _, h⟩ => .inr ?_, fun h => h.elim .inl fun h => .inr ⟨dw, e, ?_⟩⟩
    · rw [bind_abort, walkIf_abort] at h
      rcases h with h | ⟨_, _, h⟩
      · exact h
      · rw [bind_abort] at h
        rcases h with h | ⟨_, _, h⟩
        · exact absurd h (putRpnIf_abort _ _ _ _)
        · rw [bind_abort] at h
          rcases h with h | ⟨_, _, h⟩
          · exact absurd h (putRpnIf_abort _ _ _ _)
          · cases h
    · rw [bind_abort, walkIf_abort]
      exact .inl h

/-- C06. A call that ends in a failed assertion is one for a walk that is not accepted: of the first record, or of the data of the record before, or of a
record that is jumped to.  What was stored before is still there, what the call has stored comes behind it (eight bytes of a header or nothing), and all of it
is inside the mapped file. -/
theorem C06_aborted (magic : BitVec 32) (h : List (Record × Bool)) (bs : List Bool) (s : WState) (hr : runWrites (writerOpen magic) h = .ok (bs, s))
    (r : Record) (g : Bool) :
    (writeRecord s r g = .abort ↔ ¬ (s.mapped < s.out.length + BUFFER ∧ g = false) ∧ if s.headerWritten then RefusedPair s.prev r else Refused r.radixInsn) ∧
    s.out <+: (aborting s r).2 ∧ (aborting s r).2.length = s.out.length + (if s.headerWritten then 0 else 8) ∧
    (aborting s r).2.length ≤ (aborting s r).1 := by
  have hroom := (runWrites_room h _ _ _ (by simp [writerOpen, BUFFER]) hr).1
  refine ⟨?_, ⟨_, rfl⟩, ?_, ?_⟩
  · unfold writeRecord
    by_cases hg : s.mapped < s.out.length + BUFFER ∧ g = false
    · rw [if_pos (by simp [hg])]
      exact ⟨(fun h => by cases h), fun h => absurd hg h.1⟩
    · rw [if_neg (by simpa using hg)]
      dsimp only
      cases hw : s.headerWritten with
      | false =>
        rw [if_pos rfl, bind_abort, headerBytes_abort]
        exact ⟨fun h => ⟨hg, h.elim id fun ⟨_, _, h⟩ => by cases h⟩, fun h => .inl h.2⟩
      | true =>
        rw [if_neg (by decide), bind_abort, recordBytes_abort]
        exact ⟨fun h => ⟨hg, h.elim id fun ⟨_, _, h⟩ => by cases h⟩, fun h => .inl h.2⟩
  · unfold aborting
    cases s.headerWritten <;> simp [be32, be16]
  · have h8 : (aborting s r).2.length ≤ s.out.length + 8 := by
      unfold aborting
      cases s.headerWritten <;> simp [be32, be16]
    have : s.mapped ≤ (aborting s r).1 := by
      unfold aborting
      dsimp only
      split <;> omega
    omega

/-- The second record is jumped to and has a walk of six levels. -/
example : ∃ s, runWrites (writerOpen 0) [({ insn := 0x48000100, insnAddr := 0x1000 }, true)] = .ok ([true], s) ∧
    RefusedPair { insn := 0x48000100, insnAddr := 0x1000 } { insn := 0x60000000, insnAddr := 0x1100, insnRaValid := true, radixInsn := { nrPtes := 4, nrWalks := 6 } } :=
  have ⟨s, e⟩ := of_resultsOf (x := runWrites (writerOpen 0) [({ insn := 0x48000100, insnAddr := 0x1000 }, true)]) (bs := [true]) (by decide +kernel)
  ⟨s, e, .inr ⟨⟨rfl, by decide⟩, by simp [Refused]⟩⟩

end Qt
