import Verif.Qt.PropsCopyGrowth
/-
Property C113: traces that meet the hypotheses of its theorems, and traces whose copies lose something.
-/
namespace Qt
open Spec

/-! ### Traces that meet the hypotheses -/

/-- A load from a page of known size, a branch, and a load at its target. -/
def copySample : List Record :=
  [{ insn := 0xE8610008, insnAddr := 0x10000, insnRaValid := true, insnRa := 0x70000,
     dataAddrValid := true, dataAddr := 0x5008, dataRaValid := true, dataRa := 0x85008,
     dataPageShiftValid := true, dataPageShift := 12 },
   { insn := 0x48010000, insnAddr := 0x10004, insnRaValid := true, insnRa := 0x70004 },
   { insn := 0xE8610010, insnAddr := 0x20004, insnRaValid := true, insnRa := 0x90004,
     dataAddrValid := true, dataAddr := 0x5010 }]

/-- The hypotheses of `C113_written_partial` hold of it. -/
example : Expressible copySample ∧ copySample ≠ [] ∧ (∀ r ∈ copySample, NoWalk r.radixInsn ∧ NoWalk r.radixData) ∧
    (∀ r ∈ copySample, TranslationOk r) ∧ Chain TranslationStep copySample := by
  refine ⟨?_, by simp [copySample], by simp [copySample, NoWalk], ?_, ?_⟩
  · simp [copySample, Expressible, RecordOk, ShiftsOk, WalkOk, Chain, NoWalk, StepOk, Jumps]
  · simp [copySample, TranslationOk, RaOk, pageShift]
  · simp [copySample, Chain, TranslationStep, Jumps, SamePage, pageShift]

/-- A trace in memory, followed by zeros. -/
def memOf (rs : List Record) : Mem := { bytes := fileOf rs, beyond := fun _ => 0 }

/-- Another one, with a walk of a data access and one of a nested translation. -/
def copyWalks : List Record :=
  [{ insn := 0xE8610008, insnAddr := 0x10000, insnRaValid := true, insnRa := 0x70000,
     dataAddrValid := true, dataAddr := 0x5008, dataRaValid := true, dataRa := 0x85008,
     radixData := { nrPtes := 4, nrWalks := 1, type := .hostRadix, hostPtes := fun _ j => BitVec.ofNat 64 (0x100 * j) } },
   { insn := 0xE8610010, insnAddr := 0x10004, insnRaValid := true, insnRa := 0x70004,
     dataAddrValid := true, dataAddr := 0x65010, dataRaValid := true, dataRa := 0x85010,
     radixData := { nrPtes := 4, nrWalks := 5, guestRas := fun i => BitVec.ofNat 64 (0x1000 * i) } },
   { insn := 0x60000000, insnAddr := 0x10008, insnRaValid := true, insnRa := 0x70008 }]

instance (r : Record) : Decidable (ShiftsOk r) := by unfold ShiftsOk; infer_instance
instance (x : Radix) : Decidable (NoWalk x) := by unfold NoWalk; infer_instance
instance (x : Radix) : Decidable (WalkOk x) := by unfold WalkOk; infer_instance
instance (x : Radix) : Decidable (FourIfSingle x) := by unfold FourIfSingle Single; infer_instance
instance (a b : Record) : Decidable (SamePage a b) := by unfold SamePage; infer_instance

/-- What the hypotheses say of sequential records without walks of instructions. -/
def plainOnes (rs : List Record) : Bool :=
  rs.all (fun r => decide (ShiftsOk r ∧ NoWalk r.radixInsn ∧ WalkOk r.radixData ∧ FourIfSingle r.radixData)) &&
  (rs.zip (rs.drop 1)).all (fun p => decide (p.2.insnAddr = p.1.insnAddr + 4 ∧ SamePage p.1 p.2))

theorem chain_zip {α} {R : α → α → Prop} : ∀ l : List α, (∀ p ∈ l.zip (l.drop 1), R p.1 p.2) → Chain R l
  | [], _ => trivial
  | [_], _ => trivial
  | a :: b :: l, h => ⟨h (a, b) (by simp), chain_zip (b :: l) (fun p hp => h p (by
      simp only [List.drop_succ_cons, List.drop_zero] at hp ⊢
      exact List.mem_cons_of_mem _ hp))⟩

theorem plainOnes_spec (rs : List Record) (h : plainOnes rs = true) :
    Copyable rs ∧ Chain PagesAtJumps rs ∧ (∀ r ∈ rs, FourIfSingle r.radixInsn ∧ FourIfSingle r.radixData) ∧ Chain WalkStep rs := by
  unfold plainOnes at h
  rw [Bool.and_eq_true, List.all_eq_true, List.all_eq_true] at h
  obtain ⟨h1, h2⟩ := h
  replace h1 := fun r hr => of_decide_eq_true (h1 r hr)
  replace h2 := fun p hp => of_decide_eq_true (h2 p hp)
  refine ⟨⟨fun r hr => ⟨(h1 r hr).1, fun _ => .inl (h1 r hr).2.1, fun _ => (h1 r hr).2.2.1⟩, ?_, ?_⟩, ?_, ?_, ?_⟩
  · exact chain_zip _ (fun p hp j => absurd (h2 p hp).1 j)
  · exact fun r hr w => absurd (h1 r (List.mem_of_mem_head? hr)).2.1 w
  · exact chain_zip _ (fun p hp => ⟨fun _ => (h2 p hp).2, fun j => absurd (h2 p hp).1 j⟩)
  · exact fun r hr => ⟨fun s => absurd (h1 r hr).2.1 s.1, (h1 r hr).2.2.2⟩
  · refine chain_zip _ (fun p hp _ _ w => absurd ?_ w)
    exact (h1 _ (List.mem_of_mem_drop (List.of_mem_zip hp).2)).2.1

/-- The hypotheses of the other theorems hold of the trace of it. -/
example : (∃ c, readerInit (memOf copyWalks) = .ok () c) ∧ (readTrace (memOf copyWalks) false false).final = .fail ∧
    Copyable (readTrace (memOf copyWalks) false false).records ∧ Chain PagesAtJumps (readTrace (memOf copyWalks) false false).records ∧
    (∀ r ∈ (readTrace (memOf copyWalks) false false).records, FourIfSingle r.radixInsn ∧ FourIfSingle r.radixData) ∧
    Chain WalkStep (readTrace (memOf copyWalks) false false).records ∧
    (readTrace (memOf copyWalks) false false).records.map (fun r => (r.dataRa, r.radixData.nrWalks)) =
      [(0x85008, 1), (0x85010, 5), (0, 0)] := by
  have k := plainOnes_spec (readTrace (memOf copyWalks) false false).records (by decide +kernel)
  have k1 : (readTrace (memOf copyWalks) false false).records.map (fun r => (r.dataRa, r.radixData.nrWalks)) =
      [(0x85008, 1), (0x85010, 5), (0, 0)] := by decide +kernel
  have k2 : (readTrace (memOf copyWalks) false false).final = .fail := by decide +kernel
  generalize (readTrace (memOf copyWalks) false false).records = rs at k k1 ⊢
  refine ⟨?_, k2, k.1, k.2.1, k.2.2.1, k.2.2.2, k1⟩
  have : (match readerInit (memOf copyWalks) with | .ok _ _ => true | .err _ _ => false) = true := by decide +kernel
  generalize readerInit (memOf copyWalks) = x at this
  cases x with
  | ok u c => exact ⟨c, rfl⟩
  | err e c => cases this

/-! ### What copies lose -/

/-- The records of the copy, if there is one (with zeros following the file in memory). -/
def copyOf (rs : List Record) : Option (List Record) :=
  match copyTrace (memOf rs) (fun _ => true) with
  | .done file => some (readTrace { bytes := file, beyond := fun _ => 0 } false false).records
  | _ => none

/-- A trace that was written, and is read to its end, need not be copied: the reader does not tell the kind of a walk of an instruction,
and the writer aborts on it. -/
theorem C113_walk_refuted : ¬ ∀ rs : List Record, Expressible rs →
    ∃ file, copyTrace (memOf rs) (fun _ => true) = .done file := by
  intro h
  obtain ⟨file, e⟩ := h
    [{ insn := 0x48001000, insnAddr := 0x1000, insnRaValid := true, insnRa := 0x1000 },
     { insn := 0x60000000, insnAddr := 0x2000, insnRaValid := true, insnRa := 0x2000,
       radixInsn := { nrPtes := 4, nrWalks := 1, type := .hostRadix } }]
    (by simp [Expressible, RecordOk, ShiftsOk, WalkOk, Chain, NoWalk, StepOk, Jumps])
  have : copyTrace (memOf
    [{ insn := 0x48001000, insnAddr := 0x1000, insnRaValid := true, insnRa := 0x1000 },
     { insn := 0x60000000, insnAddr := 0x2000, insnRaValid := true, insnRa := 0x2000,
       radixInsn := { nrPtes := 4, nrWalks := 1, type := .hostRadix } }]) (fun _ => true) = .abort := by decide +kernel
  rw [this] at e
  cases e

/-- Reading exchanges the page size of the data and the guest page size of the target of a jump, and copying exchanges them again: the
copy does not agree with the original. -/
theorem C113_exchanged_page_sizes_refuted : ¬ ∀ rs : List Record, Expressible rs →
    (copyOf rs).map (·.map (fun r => (r.dataPageShift, r.guestInsnPageShift))) =
      some ((backOf rs).map (fun r => (r.dataPageShift, r.guestInsnPageShift))) := by
  intro h
  exact absurd (h
    [{ insn := 0x60000000, insnAddr := 0x10000, dataAddrValid := true, dataAddr := 0x5000,
       dataPageShiftValid := true, dataPageShift := 21 },
     { insn := 0x60000000, insnAddr := 0x20000, guestInsnPageShiftValid := true, guestInsnPageShift := 12 }]
    (by simp [Expressible, RecordOk, ShiftsOk, WalkOk, Chain, NoWalk, StepOk, Jumps])) (by decide +kernel)

/-- A trace of one instruction with a magic number, as the writer stores it. -/
def copyOne : List Record := [{ insn := 0x60000000, insnAddr := 0x10000 }]
def copyMagic : Bytes := match writeTrace 0xABCD copyOne with | .ok f => f | _ => []

theorem copyMagic_written : writeTrace 0xABCD copyOne = .ok copyMagic := by
  have : (match writeTrace 0xABCD copyOne with | .ok _ => true | _ => false) = true := by decide +kernel
  unfold copyMagic
  generalize writeTrace 0xABCD copyOne = x at this
  cases x with
  | ok f => rfl
  | abort => cases this
  | ub => cases this

/-- The copy is not the file that was copied: the magic number becomes zero. -/
theorem C113_magic_refuted : ¬ ∀ (magic : BitVec 32) (rs : List Record) (file : Bytes), rs ≠ [] →
    writeTrace magic rs = .ok file → copyTrace { bytes := file, beyond := fun _ => 0 } (fun _ => true) = .done file := by
  intro h
  exact absurd (h 0xABCD copyOne copyMagic (by simp [copyOne]) copyMagic_written) (by decide +kernel)

/-- Even with a magic number of zero it need not be: the stored reason why a block of instructions ended becomes that of a branch if
the instruction is one, whether or not the record that was written said so. -/
theorem C113_bytes_refuted : ¬ ∀ rs : List Record, Expressible rs →
    copyTrace (memOf rs) (fun _ => true) = .done (fileOf rs) := by
  intro h
  exact absurd (h copySample
    (by simp [copySample, Expressible, RecordOk, ShiftsOk, WalkOk, Chain, NoWalk, StepOk, Jumps])) (by decide +kernel)

/-- With a magic number of zero and no branch the copy of a trace is the file itself. -/
example : copyTrace (memOf copyOne) (fun _ => true) = .done (fileOf copyOne) := by decide +kernel

/-- A copy that ends normally need not be complete: when the file cannot be grown while it is closed, the last record is lost and
nothing is reported. -/
theorem C113_close_refuted : ¬ ∀ (rs : List Record) (grow : Nat → Bool) (file : Bytes), Expressible rs →
    copyTrace (memOf rs) grow = .done file →
    (readTrace { bytes := file, beyond := fun _ => 0 } false false).records.length = rs.length := by
  intro h
  let rs : List Record := [{ insn := 0x60000000, insnAddr := 0x10000 }]
  let file : Bytes := match copyTrace (memOf rs) (fun n => n == 0) with | .done f => f | _ => []
  have e : copyTrace (memOf rs) (fun n => n == 0) = .done file := by decide +kernel
  exact absurd (h rs _ file (by simp [rs, Expressible, RecordOk, ShiftsOk, WalkOk, Chain, NoWalk]) e) (by decide +kernel)

/-- When it cannot be grown before, the program reports an error. -/
example : copyTrace (memOf [{ insn := 0x60000000, insnAddr := 0x10000 }, { insn := 0x60000000, insnAddr := 0x10004 }])
    (fun n => n == 0) = .error := by decide +kernel

/-- A trace that does not begin with a header cannot be copied. -/
example : copyTrace { bytes := [0x60, 0, 0, 0, 0, 0, 0, 0], beyond := fun _ => 0 } (fun _ => true) = .error := by decide +kernel

/-- The three cases, for a trace of two records (the file is grown for the second one): -/
example : copyTrace (memOf [{ insn := 0x60000000, insnAddr := 0x10000 }, { insn := 0x60000001, insnAddr := 0x10004 }])
    (fun n => n != 1) = .error := by decide +kernel

example : copyTrace (memOf [{ insn := 0x60000000, insnAddr := 0x10000 }, { insn := 0x60000001, insnAddr := 0x10004 }])
    (fun n => n == 1) = copyTrace (memOf [{ insn := 0x60000000, insnAddr := 0x10000 }, { insn := 0x60000001, insnAddr := 0x10004 }])
    (fun _ => true) := by decide +kernel

end Qt
