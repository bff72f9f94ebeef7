import Verif.Qt.Spec
import Verif.Qt.Writer
/-
The writer does not look at the translation of an instruction that is reached from the one before it.
-/
namespace Qt

/-- Two records differ in nothing but the translation of the instruction. -/
def SameButInsn (a b : Record) : Prop :=
  b = { a with insnRaValid := b.insnRaValid, insnRa := b.insnRa, insnPageShiftValid := b.insnPageShiftValid, insnPageShift := b.insnPageShift,
               guestInsnPageShiftValid := b.guestInsnPageShiftValid, guestInsnPageShift := b.guestInsnPageShift, radixInsn := b.radixInsn }

/-- Two sequences behind an instruction at `a` that differ in nothing but the translations of instructions reached from the one before. -/
inductive Refilled : BitVec 64 → List Record → List Record → Prop where
  | nil {a} : Refilled a [] []
  | same {a s l l'} : Refilled s.insnAddr l l' → Refilled a (s :: l) (s :: l')
  | next {a s s' l l'} : s.insnAddr = a + 4 → SameButInsn s s' → Refilled s.insnAddr l l' → Refilled a (s :: l) (s' :: l')

theorem recordBytes_prev {p p' : Record} (h : SameButInsn p p') (s : Record) : recordBytes p' s = recordBytes p s := by
  unfold SameButInsn at h
  rw [h]
  rfl

theorem recordBytes_cur {p s s' : Record} (h : SameButInsn s s') (hs : s.insnAddr = p.insnAddr + 4) : recordBytes p s' = recordBytes p s := by
  have hc : iarChange p s = false := by unfold iarChange; rw [hs]; exact bne_self_eq_false _
  have ha : s'.insnAddr = s.insnAddr := by unfold SameButInsn at h; rw [h]
  have hc' : iarChange p s' = false := by unfold iarChange; rw [ha, hs]; exact bne_self_eq_false _
  have e1 : recFlags p s' = recFlags p s := by
    unfold recFlags writeIsBranch; rw [hc, hc', Bool.and_false, Bool.and_false]
  have e2 : ∀ w w', recFlags2 p s' w w' = recFlags2 p s w w' := by
    intro w w'; unfold recFlags2; rw [hc, hc']; simp only [Bool.and_false]
  have e3 : writeIsBranch p s' = writeIsBranch p s := by unfold writeIsBranch; rw [hc, hc']
  have e4 : ∀ x : Radix, walkIf false x = .ok .none := fun _ => rfl
  have e5 : ∀ x y z, putRpnIf false x y z = .ok [] := fun _ _ _ => rfl
  have e6 : ∀ b, putIf false b = [] := fun _ => rfl
  have e7 : ∀ x, walkBytes .none x = [] := fun _ => rfl
  unfold recordBytes
  simp only [hc, hc', e1, e2, e3, Bool.and_false, e4, e5, e6, Bind.bind, WRes.bind, e7]

/-- The state after a record. -/
def stored (s : WState) (r : Record) (b : Bytes) : WState :=
  { s with mapped := if s.out.length + BUFFER > s.mapped then s.mapped + BUFFER else s.mapped, out := s.out ++ b, prev := r }

theorem writeRecord_stored {s : WState} (hh : s.headerWritten = true) (r : Record) :
    writeRecord s r true = (recordBytes s.prev r).bind fun b => .ok (true, stored s r b) := by
  unfold writeRecord
  rw [if_neg (by simp)]
  dsimp only
  rw [if_neg (by simp [hh])]
  rfl

/-- What remains of the file. -/
def rest (s : WState) (l : List Record) : WRes Bytes := (writeAll s l).bind fun t => writerClose t true

theorem rest_nil {s : WState} (hh : s.headerWritten = true) :
    rest s [] = (recordBytes s.prev { Record.zero with insnAddr := s.prev.insnAddr + 4 }).bind fun b => .ok (s.out ++ b) := by
  have e : rest s [] = (writeRecord s { Record.zero with insnAddr := s.prev.insnAddr + 4 } true).bind fun p => .ok p.2.out := rfl
  rw [e, writeRecord_stored hh]
  cases recordBytes s.prev { Record.zero with insnAddr := s.prev.insnAddr + 4 } <;> rfl

theorem rest_cons {s : WState} (hh : s.headerWritten = true) (r : Record) (l : List Record) :
    rest s (r :: l) = (recordBytes s.prev r).bind fun b => rest (stored s r b) l := by
  have e : rest s (r :: l) = ((writeRecord s r true).bind fun p => writeAll p.2 l).bind fun t => writerClose t true := rfl
  rw [e, writeRecord_stored hh]
  cases recordBytes s.prev r <;> rfl

/-- The rest of the file is the same, whatever the translation of the instruction that waits to be stored. -/
theorem rest_refilled {a : BitVec 64} {l l' : List Record} (h : Refilled a l l') : ∀ {s : WState} {q : Record}, s.headerWritten = true → a = s.prev.insnAddr →
    SameButInsn s.prev q → rest { s with prev := q } l' = rest s l := by
  induction h with
  | nil =>
    intro s q hh _ hp
    have ha : q.insnAddr = s.prev.insnAddr := by unfold SameButInsn at hp; rw [hp]
    rw [rest_nil hh, rest_nil (by exact hh)]
    dsimp only
    rw [ha, recordBytes_prev hp]
  | @same a r l l' h ih =>
    intro s q hh _ hp
    rw [rest_cons hh, rest_cons (by exact hh)]
    dsimp only
    rw [recordBytes_prev hp]
    cases recordBytes s.prev r with
    | abort => rfl
    | ub => rfl
    | ok b => exact ih (s := stored s r b) hh rfl rfl
  | @next a r r' l l' hn hr h ih =>
    intro s q hh ha hp
    rw [rest_cons hh, rest_cons (by exact hh)]
    dsimp only
    rw [recordBytes_prev hp, recordBytes_cur hr (by rw [hn, ha])]
    cases recordBytes s.prev r with
    | abort => rfl
    | ub => rfl
    | ok b => exact ih (s := stored s r b) hh rfl hr

theorem writeRecord_first {s : WState} (hh : s.headerWritten = false) (r : Record) :
    writeRecord s r true = (headerBytes s.magic s.version r).bind fun b => .ok (true, { stored s r b with headerWritten := true }) := by
  unfold writeRecord
  rw [if_neg (by simp)]
  dsimp only
  rw [if_pos hh]
  rfl

theorem rest_first {s : WState} (hh : s.headerWritten = false) (r : Record) {l l' : List Record} (h : Refilled r.insnAddr l l') :
    rest s (r :: l') = rest s (r :: l) := by
  have e2 : ∀ l, rest s (r :: l) = (writeRecord s r true).bind fun p => rest p.2 l := by
    intro l
    have : rest s (r :: l) = ((writeRecord s r true).bind fun p => writeAll p.2 l).bind fun t => writerClose t true := rfl
    rw [this]
    cases writeRecord s r true <;> rfl
  rw [e2, e2, writeRecord_first hh]
  cases headerBytes s.magic s.version r with
  | abort => rfl
  | ub => rfl
  | ok b => exact rest_refilled (q := r) (s := { stored s r b with headerWritten := true }) h rfl rfl rfl

/-- The file does not depend on the translations of instructions that are reached from the one before. -/
theorem writeTrace_refilled (magic : BitVec 32) (r : Record) {l l' : List Record} (h : Refilled r.insnAddr l l') :
    writeTrace magic (r :: l') = writeTrace magic (r :: l) :=
  rest_first (s := writerOpen magic) rfl r h

end Qt
