import Verif.Opc.PropsAgain
import Verif.Opc.WordCheck

/-! C112: an instruction taken apart with an entry of the opcode tables is put together again from its operands. -/
namespace Opc

variable {e : Opcode} {dialect insn : W}

theorem mbe_row : ∀ o ∈ operands, o.name = "MBE'" → o.ext = .mbe := by decide +kernel

/-- A mask is never recognised: instructions with a mask are shown with the numbers of its first and last bit. -/
theorem mbe_never {o : Operand} (ho : o ∈ operands) (h : o.name = "MBE'") : (o.extract insn dialect 0).2 ≠ 0 := by
  unfold Operand.extract
  rw [mbe_row o ho h]
  simp only [extractMbe]
  split
  · exact (by decide : (1 : Int) ≠ 0)
  · split <;> exact (by decide : (1 : Int) ≠ 0)

/-- The bits that an entry leaves open: the upper half of an instruction of 16 bits, and otherwise those of the list. -/
theorem C112_open (he : e ∈ entries) : e.open = 0#64 ∨ (e.mask < 2 ^ 16 ∧ e.open = 0xffff0000#64) ∨
    ∃ row ∈ openBits, e.open = BitVec.ofNat 64 row.1 ∧ e.name ∈ row.2 := by
  have h := open_entry he
  rw [open_eq he]
  unfold Opcode.listed at h
  simp only [Bool.or_eq_true, Bool.and_eq_true, List.any_eq_true] at h
  rcases h with (h | ⟨h1, h2⟩) | ⟨row, hr, h1, h2⟩
  · exact Or.inl (by rw [Nat.eq_of_beq_eq_true h])
  · exact Or.inr (Or.inl ⟨by simpa using h1, by rw [Nat.eq_of_beq_eq_true h2]⟩)
  · exact Or.inr (Or.inr ⟨row, hr, by rw [Nat.eq_of_beq_eq_true h1], by simpa using h2⟩)

/-- rldicl has no open bits. -/
example : (⟨"rldicl", 0x78000000, 0xfc00001d, 0x88, 0x800000000, [74, 86, 103, 69]⟩ : Opcode).open = 0#64 := by decide +kernel

/-- One operand of a recognised word. -/
theorem one_back {o : Operand} (ho : o ∈ operands) (hk : o.Kept insn dialect) (hv : (o.extract insn dialect 0).2 = 0) :
    ∃ er, (er = true ↔ ¬o.Quiet insn dialect) ∧ ((o.name ≠ "BOE" ∧ o.insert (o.without insn) (o.extract insn dialect 0).1 dialect = some (insn, er)) ∨
      (o.name = "BOE" ∧ ∃ w, o.insert (o.without insn) (o.extract insn dialect 0).1 dialect = some (w, er))) := by
  unfold Operand.Kept at hk
  unfold Operand.Quiet
  by_cases h : o.name ∈ notAgain
  · unfold notAgain at h
    simp only [List.mem_cons, List.not_mem_nil, or_false] at h
    rcases h with h | h | h | h | h | h | h | h | h
    · obtain ⟨er, h1, h2⟩ := C108_options_partial (insn := insn) (dialect := dialect) ho h
      exact ⟨er, by rw [h]; exact h2, Or.inl ⟨by rw [h]; decide, h1⟩⟩
    · obtain ⟨er, h1, h2⟩ := C108_prediction_partial (insn := insn) (dialect := dialect) ho h
      exact ⟨er, by rw [h]; exact h2, Or.inr ⟨h, _, h1⟩⟩
    · rw [h] at hk
      exact ⟨false, by rw [h]; simp, Or.inl ⟨by rw [h]; decide, (C108_register_partial ho (Or.inl h) hv).2 hk⟩⟩
    · rw [h] at hk
      exact ⟨false, by rw [h]; simp, Or.inl ⟨by rw [h]; decide, (C108_register_partial ho (Or.inr h) hv).2 hk⟩⟩
    · exact absurd hv (mbe_never ho h)
    · obtain ⟨er, h1, h2⟩ := C108_count_partial (insn := insn) (dialect := dialect) ho h
      refine ⟨er, ?_, Or.inl ⟨by rw [h]; decide, h1⟩⟩
      rw [h, h2]
      simp
    · rw [h] at hk
      obtain ⟨w, h1, -, -, h2⟩ := C108_scaled_partial (insn := insn) (dialect := dialect) ho (Or.inl h)
      exact ⟨false, by rw [h]; simp, Or.inl ⟨by rw [h]; decide, by rw [h1, h2.mpr hk]⟩⟩
    · rw [h] at hk
      obtain ⟨w, h1, -, -, h2⟩ := C108_scaled_partial (insn := insn) (dialect := dialect) ho (Or.inr h)
      exact ⟨false, by rw [h]; simp, Or.inl ⟨by rw [h]; decide, by rw [h1, h2.mpr hk]⟩⟩
    · rw [h] at hk
      exact ⟨false, by rw [h]; simp, Or.inl ⟨by rw [h]; decide, (C108_sprg_partial ho h hv).2 hk⟩⟩
  · refine ⟨false, ?_, Or.inl ⟨fun hh => h (by rw [hh]; decide), C108_again_partial ho h hv⟩⟩
    split
    · next hh => exact absurd (by rw [hh]; decide) h
    · next hh => exact absurd (by rw [hh]; decide) h
    · next hh => exact absurd (by rw [hh]; decide) h
    · simp

/-- A word of 32 bits that matches an entry and is recognised as one with its operands, all of them operands that come back: the extracted values, put one after
the other into the opcode with the open bits of the word, give the word.  There is an error message exactly when one of the operands is not legal. -/
theorem C112_word_partial (he : e ∈ entries) (hm : e.matches insn) (hw : insn.toNat < 2 ^ 32) (hv : ∀ o ∈ e.args, (o.extract insn dialect 0).2 = 0)
    (hk : ∀ o ∈ e.args, o.Kept insn dialect) :
    ∃ error, fill dialect (BitVec.ofNat 64 e.opcode ||| (insn &&& e.open)) (e.taken dialect insn) = some (insn, error) ∧
      (error = true ↔ ∃ o ∈ e.args, ¬o.Quiet insn dialect) := by
  classical
  refine ⟨e.args.any fun o => decide (¬o.Quiet insn dialect), ?_, by simp [List.any_eq_true]⟩
  refine word_back he hm hw ?_
  intro o ho
  obtain ⟨er, h1, h2⟩ := one_back (arg_mem he ho) (hk o ho) (hv o ho)
  have : er = decide (¬o.Quiet insn dialect) := by rw [Bool.eq_iff_iff, h1, decide_eq_true_eq]
  rw [← this]; exact h2

/-- With the open bits zero the operands and the entry alone give the word. -/
theorem C112_closed_partial (he : e ∈ entries) (hm : e.matches insn) (hw : insn.toNat < 2 ^ 32) (hv : ∀ o ∈ e.args, (o.extract insn dialect 0).2 = 0)
    (hk : ∀ o ∈ e.args, o.Kept insn dialect) (ho : insn &&& e.open = 0#64) :
    ∃ error, fill dialect (BitVec.ofNat 64 e.opcode) (e.taken dialect insn) = some (insn, error) ∧ (error = true ↔ ∃ o ∈ e.args, ¬o.Quiet insn dialect) := by
  have := C112_word_partial he hm hw hv hk
  rwa [ho, BitVec.or_zero] at this

/-- rldicl r3,r4,40,24 -/
example : ∃ e ∈ entries, e.name = "rldicl" ∧ e.matches 0x78834602#64 ∧ (0x78834602#64 : W) &&& e.open = 0#64 ∧
    (∀ o ∈ e.args, (o.extract 0x78834602#64 0#64 0).2 = 0) ∧ (∀ o ∈ e.args, o.Kept 0x78834602#64 0#64) ∧ (e.taken 0#64 0x78834602#64).map (·.2) = [3, 4, 40, 24] := by
  refine ⟨⟨"rldicl", 0x78000000, 0xfc00001d, 0x88, 0x800000000, [74, 86, 103, 69]⟩, by decide +kernel, rfl, by unfold Opcode.matches; decide +kernel,
    by decide +kernel, by decide +kernel, ?_, by decide +kernel⟩
  intro o ho
  have hn : o.name ∈ ["RA", "RS", "SH6", "MB6"] := by
    have : ∀ o ∈ (⟨"rldicl", 0x78000000, 0xfc00001d, 0x88, 0x800000000, [74, 86, 103, 69]⟩ : Opcode).args, o.name ∈ ["RA", "RS", "SH6", "MB6"] := by decide +kernel
    exact this o ho
  simp only [List.mem_cons, List.not_mem_nil, or_false] at hn
  unfold Operand.Kept
  rcases hn with h | h | h | h <;> rw [h] <;> trivial

/-- bc+ 12,2,64 with the hints of version 2: options, hint and displacement come back as one word. -/
example : ∃ e ∈ entries, e.name = "bc+" ∧ e.matches 0x41e20040#64 ∧ (∀ o ∈ e.args, (o.extract 0x41e20040#64 0x800#64 0).2 = 0) ∧
    fill 0x800#64 (BitVec.ofNat 64 e.opcode) (e.taken 0x800#64 0x41e20040#64) = some (0x41e20040#64, false) :=
  ⟨⟨"bc+", 0x40000000, 0xfc000003, 0x21, 0x800000000, [18, 1, 11]⟩, by decide +kernel, rfl, by unfold Opcode.matches; decide +kernel, by decide +kernel, by decide +kernel⟩

/-- Open bits are lost: `cmpwi` with the reserved bit set is recognised, but its operands give the word without the bit. -/
theorem C112_open_refuted : ∃ e ∈ entries, ∃ insn : W, e.name = "cmpwi" ∧ e.matches insn ∧ (∀ o ∈ e.args, (o.extract insn 0#64 0).2 = 0) ∧
    fill 0#64 (BitVec.ofNat 64 e.opcode) (e.taken 0#64 insn) = some (insn - 0x400000#64, false) :=
  ⟨⟨"cmpwi", 0x2c000000, 0xfc200000, 0x21, 0x800000000, [15, 74, 105]⟩, by decide +kernel, 0x2cc30005#64, rfl, by unfold Opcode.matches; decide +kernel,
    by decide +kernel, by decide +kernel⟩

/-- `mtcrf` of one register is put together as `mtocrf` on Power4. -/
theorem C112_mtcrf_refuted : ∃ e ∈ entries, ∃ insn : W, e.name = "mtcrf" ∧ e.matches insn ∧ insn &&& e.open = 0#64 ∧
    (∀ o ∈ e.args, (o.extract insn 0x800#64 0).2 = 0) ∧ fill 0x800#64 (BitVec.ofNat 64 e.opcode) (e.taken 0x800#64 insn) = some (insn ||| 0x100000#64, false) ∧
    ¬e.matches (insn ||| 0x100000#64) :=
  ⟨⟨"mtcrf", 0x7c000120, 0xfc100fff, 0x23, 0x0, [54, 86]⟩, by decide +kernel, 0x7c601120#64, rfl, by unfold Opcode.matches; decide +kernel, by decide +kernel,
    by decide +kernel, by decide +kernel, by unfold Opcode.matches; decide +kernel⟩

end Opc
