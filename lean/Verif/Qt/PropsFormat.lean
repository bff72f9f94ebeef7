import Verif.Qt.PropsRoundTrip
import Verif.Qt.PropsTranslation
import Verif.Qt.PropsWriter
/-
Sequences of records for which the round-trip properties C01, C03 and C05 fail: one for each condition of
`Spec.Expressible`, `Spec.TranslationOk`, `Spec.TranslationStep`, `Spec.FourIfSingle` and `Spec.WalkStep`.
-/
namespace Qt
open Spec

/-- C01 for one sequence of records. -/
def Spec.StreamBack (rs : List Record) : Prop :=
  ∃ file, writeTrace 0 rs = .ok file ∧ ∀ beyond,
    let R := readTrace { bytes := file, beyond := beyond } false false
    R.records.map (fun r => (r.insn, r.insnAddr)) = rs.map (fun r => (r.insn, r.insnAddr)) ∧ R.final = .fail

/-- A property of each record and its image holds after the round trip of one sequence of records. -/
def Spec.EachBack (P : Record → Record → Prop) (rs : List Record) : Prop :=
  ∃ file, writeTrace 0 rs = .ok file ∧ ∀ (beyond : Nat → Byte) (i : Nat) (r : Record), rs[i]? = some r →
    ∃ o, (readTrace { bytes := file, beyond := beyond } false false).records[i]? = some o ∧ P r o

/-- The file written, and the records read from it (with zeros following the file in memory). -/
def fileOf (rs : List Record) : Bytes := match writeTrace 0 rs with | .ok f => f | _ => []
def backOf (rs : List Record) : List Record := (readTrace { bytes := fileOf rs, beyond := fun _ => 0 } false false).records

theorem streamBack_eq {rs : List Record} (h : StreamBack rs) :
    (backOf rs).map (fun r => (r.insn, r.insnAddr)) = rs.map (fun r => (r.insn, r.insnAddr)) := by
  obtain ⟨file, e, H⟩ := h
  unfold backOf fileOf
  rw [e]
  exact (H _).1

theorem eachBack_at {P : Record → Record → Prop} {rs : List Record} (h : EachBack P rs) (i : Nat) (r : Record)
    (hr : rs[i]? = some r) : ∃ o, (backOf rs)[i]? = some o ∧ P r o := by
  obtain ⟨file, e, H⟩ := h
  unfold backOf fileOf
  rw [e]
  exact H _ i r hr

/-- If a field of the image of record `i` has a value that `P` forbids, `P` fails. -/
theorem not_eachBack {P : Record → Record → Prop} {rs : List Record} {α} [DecidableEq α] (f : Record → α) (v : α)
    (i : Nat) (r : Record) (hr : rs[i]? = some r) (hv : (backOf rs)[i]?.map f = some v)
    (hP : ∀ o, f o = v → ¬ P r o) : ¬ EachBack P rs := by
  intro h
  obtain ⟨o, ho, hp⟩ := eachBack_at h i r hr
  rw [ho] at hv
  exact hP o (Option.some.inj hv) hp

/-! ### C01: the instruction stream -/

/-- An instruction word of zero that does not follow a prefix is taken for a header: the rest is lost. -/
theorem C01_zero_word_refuted : ¬ ∀ rs : List Record, (∀ r ∈ rs, RecordOk r) → StreamBack rs := by
  intro h
  have := streamBack_eq (h
    [{ insn := 0x60000000, insnAddr := 0x1000 }, { insn := 0, insnAddr := 0x1004 },
      { insn := 0x60000000, insnAddr := 0x1008 }] (by simp [RecordOk, ShiftsOk]))
  exact absurd this (by decide +kernel)

/-- A walk on only one side of a branch (the target's real address is known, its walk is not) makes the
reader take walk bytes that are not there. -/
theorem C01_one_sided_walk_refuted : ¬ ∀ rs : List Record,
    (∀ r ∈ rs, RecordOk r ∧ r.insn ≠ 0 ∧ NoWalk r.radixInsn) → StreamBack rs := by
  intro h
  have := streamBack_eq (h
    [{ insn := 0x7C0802A6, insnAddr := 0x1000, dataAddrValid := true, dataAddr := 0x5000, dataRaValid := true,
       dataRa := 0x5000, radixData := { nrPtes := 4, nrWalks := 1, type := .hostRadix } },
      { insn := 0x60000000, insnAddr := 0x2000, insnRaValid := true, insnRa := 0x2000 },
      { insn := 0x60000000, insnAddr := 0x2004, insnRaValid := true, insnRa := 0x2004 }]
    (by simp [RecordOk, ShiftsOk, WalkOk, NoWalk]))
  exact absurd this (by decide +kernel)

/-- A nested data walk with a single instruction walk at the branch target: the kind of the instruction walk
overwrites that of the data walk and the reader loses its place. -/
theorem C01_nested_and_single_refuted : ¬ ∀ rs : List Record,
    (∀ r ∈ rs, RecordOk r ∧ r.insn ≠ 0 ∧ (r.insnRaValid = true → ¬ NoWalk r.radixInsn)) → StreamBack rs := by
  intro h
  have := streamBack_eq (h
    [{ insn := 0x7C0802A6, insnAddr := 0x1000, dataAddrValid := true, dataAddr := 0x5000, dataRaValid := true,
       dataRa := 0x5000, radixData := { nrPtes := 4, nrWalks := 5 } },
      { insn := 0x60000000, insnAddr := 0x2000, insnRaValid := true, insnRa := 0x2000,
        radixInsn := { nrPtes := 4, nrWalks := 1, type := .hostRadix } },
      { insn := 0x60000000, insnAddr := 0x2004 }]
    (by simp [RecordOk, ShiftsOk, WalkOk, NoWalk]))
  exact absurd this (by decide +kernel)

/-- A first record that carries a walk but no real address gives a file that cannot be opened properly. -/
theorem C01_header_walk_refuted : ¬ ∀ rs : List Record, (∀ r ∈ rs, RecordOk r ∧ r.insn ≠ 0) → Chain StepOk rs →
    StreamBack rs := by
  intro h
  have := streamBack_eq (h
    [{ insn := 0x60000000, insnAddr := 0x1000, radixInsn := { nrPtes := 4, nrWalks := 1, type := .hostRadix } },
      { insn := 0x60000000, insnAddr := 0x1004 }]
    (by simp [RecordOk, ShiftsOk]) (by simp [Chain, StepOk, Jumps]))
  exact absurd this (by decide +kernel)

/-- A walk of unknown kind makes the writer abort. -/
theorem C01_unknown_walk_aborts : ∃ rs : List Record, (∀ r ∈ rs, ShiftsOk r ∧ r.insn ≠ 0) ∧
    writeTrace 0 rs = .abort :=
  ⟨[{ insn := 0x60000000, insnAddr := 0x1000, insnRaValid := true, radixInsn := { nrPtes := 4, nrWalks := 1 } }],
    by simp [ShiftsOk], by decide +kernel⟩

/-- A page size of 2^64 or more makes the writer shift by the width of the address. -/
theorem C01_huge_page_undefined : ∃ rs : List Record,
    (∀ r ∈ rs, r.insn ≠ 0 ∧ NoWalk r.radixInsn ∧ NoWalk r.radixData) ∧ writeTrace 0 rs = .ub :=
  ⟨[{ insn := 0x60000000, insnAddr := 0x1000, insnRaValid := true, insnPageShiftValid := true, insnPageShift := 64 }],
    by simp [NoWalk], by decide +kernel⟩

/-! ### C03: translations -/

/-- Real page numbers are stored with 32 bits: a real address of 2^48 or more (64K pages) comes back changed. -/
theorem C03_large_real_address_refuted : ¬ ∀ rs : List Record, Expressible rs → Chain TranslationStep rs →
    EachBack SameTranslation rs := by
  intro h
  refine not_eachBack (·.insnRa) 0 0 _ rfl (by decide +kernel) ?_ (h
    [{ insn := 0x60000000, insnAddr := 0x10000, insnRaValid := true, insnRa := 0x1000000000000 }]
    (by simp [Expressible, RecordOk, ShiftsOk, WalkOk, Chain, NoWalk]) (by simp [Chain]))
  intro o ho hs
  have := hs.2.1 rfl
  rw [ho] at this
  simp at this

/-- The offset in the page is taken from the effective address. -/
theorem C03_offset_refuted : ¬ ∀ rs : List Record, Expressible rs → Chain TranslationStep rs →
    (∀ r ∈ rs, r.insnRa.toNat < 2 ^ 48) → EachBack SameTranslation rs := by
  intro h
  refine not_eachBack (·.insnRa) 0x10000 0 _ rfl (by decide +kernel) ?_ (h
    [{ insn := 0x60000000, insnAddr := 0x10000, insnRaValid := true, insnRa := 0x10008 }]
    (by simp [Expressible, RecordOk, ShiftsOk, WalkOk, Chain, NoWalk]) (by simp [Chain]) (by simp))
  intro o ho hs
  have := hs.2.1 rfl
  rw [ho] at this
  simp at this

/-- Running sequentially into another page, the old translation stays in force. -/
theorem C03_sequential_page_change_refuted : ¬ ∀ rs : List Record, Expressible rs →
    (∀ r ∈ rs, TranslationOk r ∧ r.insnRaValid = true) → EachBack SameTranslation rs := by
  intro h
  refine not_eachBack (·.insnRa) 0x70000 1 _ rfl (by decide +kernel) ?_ (h
    [{ insn := 0x60000000, insnAddr := 0x1fffc, insnRaValid := true, insnRa := 0x7fffc },
     { insn := 0x60000000, insnAddr := 0x20000, insnRaValid := true, insnRa := 0x30000 }]
    (by simp [Expressible, RecordOk, ShiftsOk, WalkOk, Chain, NoWalk, StepOk, Jumps])
    (by simp [TranslationOk, RaOk, pageShift]))
  intro o ho hs
  have := hs.2.1 rfl
  rw [ho] at this
  simp at this

/-- A real address stays known although the next instruction was written without one. -/
theorem C03_forgotten_translation_refuted : ¬ ∀ rs : List Record, Expressible rs →
    (∀ r ∈ rs, TranslationOk r) → EachBack SameTranslation rs := by
  intro h
  refine not_eachBack (·.insnRaValid) true 1 _ rfl (by decide +kernel) ?_ (h
    [{ insn := 0x60000000, insnAddr := 0x10000, insnRaValid := true, insnRa := 0x70000 },
     { insn := 0x60000000, insnAddr := 0x20000 }]
    (by simp [Expressible, RecordOk, ShiftsOk, WalkOk, Chain, NoWalk, StepOk, Jumps])
    (by simp [TranslationOk, RaOk, pageShift]))
  intro o ho hs
  have := hs.1
  rw [ho] at this
  simp at this

/-- The writer stores the guest page size of a branch target before the page size of the data access, the
reader expects the opposite: when both are stored they come back exchanged. -/
theorem C03_exchanged_page_sizes_refuted : ¬ ∀ rs : List Record, Expressible rs → (∀ r ∈ rs, TranslationOk r) →
    Chain (fun a b => Jumps a b ∧ (a.guestInsnPageShiftValid = true → b.guestInsnPageShiftValid = true)) rs →
    EachBack SameTranslation rs := by
  intro h
  refine not_eachBack (·.dataPageShift) 12 0 _ rfl (by decide +kernel) ?_ (h
    [{ insn := 0x60000000, insnAddr := 0x10000, dataAddrValid := true, dataAddr := 0x5000,
       dataPageShiftValid := true, dataPageShift := 21 },
     { insn := 0x60000000, insnAddr := 0x20000, guestInsnPageShiftValid := true, guestInsnPageShift := 12 }]
    (by simp [Expressible, RecordOk, ShiftsOk, WalkOk, Chain, NoWalk, StepOk, Jumps])
    (by simp [TranslationOk, RaOk]) (by simp [Chain, Jumps]))
  intro o ho hs
  have := hs.2.2.2.2.2.2.2.2.2.1 rfl
  rw [ho] at this
  simp at this

/-! ### C05: page walks -/

/-- C05 for one record and its image. -/
def Spec.WalksBack (r o : Record) : Prop :=
  (r.dataRaValid = true → ¬ NoWalk r.radixData → SameWalk r.radixData o.radixData) ∧
  (r.insnRaValid = true → ¬ NoWalk r.radixInsn → SameWalk r.radixInsn o.radixInsn)

/-- A single walk of two or three levels comes back with four. -/
theorem C05_short_single_walk_refuted : ¬ ∀ rs : List Record, Expressible rs → Chain WalkStep rs →
    EachBack WalksBack rs := by
  intro h
  refine not_eachBack (·.radixData.nrPtes) 4 0 _ rfl (by decide +kernel) ?_ (h
    [{ insn := 0x60000000, insnAddr := 0x10000, dataAddrValid := true, dataAddr := 0x5000, dataRaValid := true,
       dataRa := 0x5000, radixData := { nrPtes := 3, nrWalks := 1, type := .hostRadix } }]
    (by simp [Expressible, RecordOk, ShiftsOk, WalkOk, Chain, NoWalk]) (by simp [Chain]))
  intro o ho hs
  have := (hs.1 rfl (by simp [NoWalk])).1
  rw [ho] at this
  simp at this

/-- A walk belonging to an instruction reached sequentially is lost. -/
theorem C05_sequential_walk_refuted : ¬ ∀ rs : List Record, Expressible rs →
    (∀ r ∈ rs, FourIfSingle r.radixInsn ∧ FourIfSingle r.radixData) → EachBack WalksBack rs := by
  intro h
  refine not_eachBack (·.radixInsn.nrPtes) 0 1 _ rfl (by decide +kernel) ?_ (h
    [{ insn := 0x60000000, insnAddr := 0x1fffc },
     { insn := 0x60000000, insnAddr := 0x20000, insnRaValid := true, insnRa := 0x20000,
       radixInsn := { nrPtes := 4, nrWalks := 1, type := .hostRadix } }]
    (by simp [Expressible, RecordOk, ShiftsOk, WalkOk, Chain, NoWalk, StepOk, Jumps])
    (by simp [FourIfSingle, Single]))
  intro o ho hs
  have := (hs.2 rfl (by simp [NoWalk])).1
  rw [ho] at this
  simp at this

/-- The kind of a single instruction walk at a branch target is never stored where the reader looks for it:
a guest-real walk is reported with the kind of an earlier walk. -/
theorem C05_insn_walk_kind_refuted : ¬ ∀ rs : List Record, Expressible rs →
    (∀ r ∈ rs, FourIfSingle r.radixInsn ∧ FourIfSingle r.radixData) → Chain WalkStep rs →
    EachBack (fun r o => Single r.radixInsn → o.radixInsn.type = r.radixInsn.type) rs := by
  intro h
  refine not_eachBack (·.radixInsn.type) .hostRadix 1 _ rfl (by decide +kernel) ?_ (h
    [{ insn := 0x60000000, insnAddr := 0x10000, insnRaValid := true, insnRa := 0x10000,
       radixInsn := { nrPtes := 4, nrWalks := 1, type := .hostRadix } },
     { insn := 0x60000000, insnAddr := 0x20000, insnRaValid := true, insnRa := 0x20000,
       radixInsn := { nrPtes := 4, nrWalks := 1, type := .guestReal } }]
    (by simp [Expressible, RecordOk, ShiftsOk, WalkOk, Chain, NoWalk, StepOk, Jumps])
    (by simp [FourIfSingle, Single]) (by simp [Chain, WalkStep, Jumps]))
  intro o ho hs
  have := hs (by simp [Single])
  rw [ho] at this
  simp at this

/-- Instead it changes the kind of the data walk of the branch. -/
theorem C05_data_walk_kind_refuted : ¬ ∀ rs : List Record, Expressible rs →
    (∀ r ∈ rs, FourIfSingle r.radixInsn ∧ FourIfSingle r.radixData) → Chain WalkStep rs →
    EachBack (fun r o => r.dataRaValid = true → Single r.radixData → o.radixData.type = r.radixData.type) rs := by
  intro h
  refine not_eachBack (·.radixData.type) .hostRadix 0 _ rfl (by decide +kernel) ?_ (h
    [{ insn := 0x60000000, insnAddr := 0x10000, dataAddrValid := true, dataAddr := 0x5000, dataRaValid := true,
       dataRa := 0x5000, radixData := { nrPtes := 4, nrWalks := 1, type := .guestReal } },
     { insn := 0x60000000, insnAddr := 0x20000, insnRaValid := true, insnRa := 0x20000,
       radixInsn := { nrPtes := 4, nrWalks := 1, type := .hostRadix } }]
    (by simp [Expressible, RecordOk, ShiftsOk, WalkOk, Chain, NoWalk, StepOk, Jumps, WalksCompatible, Single, Nested])
    (by simp [FourIfSingle, Single]) (by simp [Chain, WalkStep, Jumps]))
  intro o ho hs
  have := hs rfl (by simp [Single])
  rw [ho] at this
  simp at this

/-! ### C06: closing -/

/-- Closing reports no error, but when the file cannot be grown the last record is lost, although its write
call returned true. -/
theorem C06_close_loses_last_record : ∃ (r : Record) (s : WState) (file : Bytes), Expressible [r] ∧
    runWrites (writerOpen 0) [(r, true)] = .ok ([true], s) ∧ writerClose s false = .ok file ∧
    (readTrace { bytes := file, beyond := fun _ => 0 } false false).records = [] := by
  obtain ⟨s, hs⟩ : ∃ s, runWrites (writerOpen 0) [({ insn := 0x60000000, insnAddr := 0x1000 }, true)] =
    .ok ([true], s) := of_resultsOf (by decide +kernel)
  obtain ⟨⟨b, s1⟩, e1, e2⟩ := WRes.bind_ok hs
  obtain rfl : s1 = s := (Prod.mk.inj (WRes.ok.inj e2)).2
  have ho : (match writeRecord (writerOpen 0) { insn := 0x60000000, insnAddr := 0x1000 } true with
    | .ok (_, s) => (s.mapped, s.out.length) | _ => (0, 0)) = (131072, 22) := by decide +kernel
  rw [e1] at ho
  have hm := Prod.mk.inj ho
  have hlen : ((readTrace { bytes := (match writeRecord (writerOpen 0)
      { insn := 0x60000000, insnAddr := 0x1000 } true with
    | .ok (_, s) => s.out | _ => []), beyond := fun _ => 0 } false false).records.map (·.insn)) = [] := by decide +kernel
  rw [e1] at hlen
  refine ⟨_, s1, s1.out, ?_, hs, ?_, ?_⟩
  · simp [Expressible, RecordOk, ShiftsOk, Chain, NoWalk]
  · unfold writerClose writeRecord
    rw [if_pos (by simp [hm.1, hm.2, BUFFER])]
    rfl
  · simpa using hlen

end Qt
