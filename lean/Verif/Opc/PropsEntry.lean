import Verif.Opc.Check
import Verif.Stats.PropsImix

/-! C109: an instruction assembled from an entry of the opcode tables is an instruction of that entry, with the operands it was assembled from. -/
namespace Opc

variable {e : Opcode} {dialect w : W} {values : List Int}

/-- The entries of the main table are those that `ppcstats` searches: the opcode, the mask and the flags. -/
theorem main_stats : mainTable.flatten.map (fun e => (e.opcode, e.mask, e.flags)) = Stats.opcodes := by decide +kernel

/-- For every entry but `mfcr` and `mtcrf` and any values in the ranges of its operands, the operands can be put into the opcode, and the result is a word of
32 bits that matches the entry, whether the insertion functions complain or not. -/
theorem C109_matches_partial (he : e ∈ entries) (hn : e.name ≠ "mfcr" ∧ e.name ≠ "mtcrf") (hl : values.length = e.args.length)
    (hr : ∀ p ∈ e.args.zip values, p.1.Range p.2) :
    ∃ w error, fill dialect (BitVec.ofNat 64 e.opcode) (e.args.zip values) = some (w, error) ∧ e.matches w ∧ w.toNat < 2 ^ 32 := by
  obtain ⟨w, er, h1, h2, h3, -⟩ := fill_entry (Or.inl rfl) (check_new he hn) hl hr (d := dialect)
  exact ⟨w, er, h1, h2, h3⟩

/-- The same for every entry without exception when the dialect has neither Power4 nor "any processor". -/
theorem C109_matches_old_partial (he : e ∈ entries) (hd : ¬has dialect 0x840#64) (hl : values.length = e.args.length)
    (hr : ∀ p ∈ e.args.zip values, p.1.Range p.2) :
    ∃ w error, fill dialect (BitVec.ofNat 64 e.opcode) (e.args.zip values) = some (w, error) ∧ e.matches w ∧ w.toNat < 2 ^ 32 := by
  obtain ⟨w, er, h1, h2, h3, -⟩ := fill_entry (Or.inr ⟨rfl, Classical.not_not.mp hd⟩) (check_old he) hl hr (d := dialect)
  exact ⟨w, er, h1, h2, h3⟩

/-- When no insertion function complains, every operand but those of `notBack` and BOE is extracted from the assembled word with the value it was given, and
does not mark the word as another instruction. -/
theorem C109_operands_partial (he : e ∈ entries) (hn : e.name ≠ "mfcr" ∧ e.name ≠ "mtcrf") (hl : values.length = e.args.length)
    (hr : ∀ p ∈ e.args.zip values, p.1.Range p.2) (hw : fill dialect (BitVec.ofNat 64 e.opcode) (e.args.zip values) = some (w, false)) :
    ∀ p ∈ e.args.zip values, p.1.name ∉ notBack → p.1.name ≠ "BOE" →
      ∀ invalid : Int, 0 ≤ invalid → p.1.extract w dialect invalid = (BitVec.ofInt 64 p.2, invalid) := by
  obtain ⟨w', er, h1, -, -, h4⟩ := fill_entry (Or.inl rfl) (check_new he hn) hl hr (d := dialect)
  rw [hw] at h1
  cases h1
  intro p hp hb hboe
  refine h4 rfl p hp hb ?_
  have hm : p.1 ∈ operands := by
    have : p.1 ∈ e.args := (List.of_mem_zip hp).1
    unfold Opcode.args at this
    obtain ⟨k, hk, hk'⟩ := List.mem_map.mp this
    have hc := check_new he hn
    unfold Opcode.check at hc
    simp only [Bool.and_eq_true, List.all_eq_true] at hc
    rw [← hk']
    exact at_mem (by simpa using (hc.1.2 k hk).1.1.1)
  have : ∀ o ∈ operands, o.ins = .boe → o.name = "BOE" := by decide +kernel
  exact fun h => hboe (this _ hm h)

/-- addi r3,r1,-16 -/
example : (⟨"addi", 0x38000000, 0xfc000000, 0x21, 0x800000000, [86, 75, 105]⟩ : Opcode) ∈ entries ∧
    (∀ p ∈ (⟨"addi", 0x38000000, 0xfc000000, 0x21, 0x800000000, [86, 75, 105]⟩ : Opcode).args.zip [3, 1, -16], p.1.Range p.2) ∧
    fill 0 0x38000000#64 ((⟨"addi", 0x38000000, 0xfc000000, 0x21, 0x800000000, [86, 75, 105]⟩ : Opcode).args.zip [3, 1, -16]) = some (0x3861fff0#64, false) := by
  refine ⟨by decide +kernel, ?_, by decide +kernel⟩
  have e1 : (⟨"addi", 0x38000000, 0xfc000000, 0x21, 0x800000000, [86, 75, 105]⟩ : Opcode).args.zip [3, 1, -16] =
      [(⟨"RS", 0x1f, some 21, .null, .null, 1⟩, 3), (⟨"RA0", 0x1f, some 16, .null, .null, 2⟩, 1), (⟨"SI", 0xffff, some 0, .null, .null, 0x800⟩, -16)] := by decide +kernel
  rw [e1]
  intro p hp
  simp only [List.mem_cons, List.not_mem_nil, or_false] at hp
  rcases hp with rfl | rfl | rfl <;> exact ⟨by decide +kernel, by decide +kernel⟩

/-- bc+ 12,2,64 on a processor with the hints of version 2: the hint goes into BO, the word still matches. -/
example : (⟨"bc+", 0x40000000, 0xfc000003, 0x21, 0x800000000, [18, 1, 11]⟩ : Opcode) ∈ entries ∧
    fill 0x800 0x40000000#64 ((⟨"bc+", 0x40000000, 0xfc000003, 0x21, 0x800000000, [18, 1, 11]⟩ : Opcode).args.zip [12, 2, 64]) = some (0x41e20040#64, false) :=
  ⟨by decide +kernel, by decide +kernel⟩

/-- An instruction assembled from an entry of the main table that is for the processors `ppcstats` knows is one that `ppcstats` counts; the last entry of the
table is the one it leaves out. -/
theorem C109_counted_partial (he : e ∈ mainTable.flatten.dropLast) (hn : e.name ≠ "mfcr" ∧ e.name ≠ "mtcrf") (hf : BitVec.ofNat 64 e.flags &&& Stats.dialect ≠ 0#64)
    (hl : values.length = e.args.length) (hr : ∀ p ∈ e.args.zip values, p.1.Range p.2) :
    ∃ w error k, fill dialect (BitVec.ofNat 64 e.opcode) (e.args.zip values) = some (w, error) ∧
      Stats.classify Stats.opcodeTable (Stats.majors Stats.opcodeTable) (w.setWidth 32) = some (some k) := by
  have he' : e ∈ entries := by
    unfold entries
    simp only [List.mem_append]
    exact Or.inl (Or.inl (List.dropLast_subset _ he))
  obtain ⟨w, er, h1, h2, -⟩ := C109_matches_partial (dialect := dialect) he' hn hl hr
  have hx : Stats.entry (e.opcode, e.mask, e.flags) ∈ Stats.opcodeTable.dropLast := by
    unfold Stats.opcodeTable
    rw [← main_stats, List.map_map, ← List.map_dropLast]
    exact List.mem_map.mpr ⟨e, he, rfl⟩
  have hfit : (Stats.entry (e.opcode, e.mask, e.flags)).fits (w.setWidth 32) = true := by
    unfold Stats.Entry.fits Stats.entry
    unfold Opcode.matches at h2
    have h3 := congrArg (BitVec.setWidth 32) h2
    rw [BitVec.setWidth_and] at h3
    simp only [Bool.and_eq_true, beq_iff_eq, bne_iff_ne]
    refine ⟨?_, hf⟩
    have e1 : ∀ n : Nat, BitVec.ofNat 32 n = BitVec.setWidth 32 (BitVec.ofNat 64 n) := by
      intro n
      apply BitVec.eq_of_toNat_eq
      rw [BitVec.toNat_ofNat, BitVec.toNat_setWidth, BitVec.toNat_ofNat]
      omega
    rw [e1, e1]; exact h3
  cases hk : Stats.Spec.kind Stats.opcodeTable.dropLast (w.setWidth 32) with
  | some k => exact ⟨w, er, k, h1, by rw [Stats.C28_search_partial Stats.table_covered, hk]⟩
  | none =>
    unfold Stats.Spec.kind at hk
    rw [List.findIdx?_eq_none_iff] at hk
    rw [hk _ hx] at hfit
    cases hfit

example : (⟨"addi", 0x38000000, 0xfc000000, 0x21, 0x800000000, [86, 75, 105]⟩ : Opcode) ∈ mainTable.flatten.dropLast ∧
    BitVec.ofNat 64 0x21 &&& Stats.dialect ≠ 0#64 := ⟨by decide +kernel, by decide +kernel⟩

/-- `mtcrf` of one register becomes `mtocrf` on Power4: the word does not match the entry it was assembled from, but the other one. -/
theorem C109_mtcrf_refuted : ∃ e ∈ entries, ∃ e' ∈ entries, ∃ w, e.name = "mtcrf" ∧ e'.name = "mtocrf" ∧ (∀ p ∈ e.args.zip [1, 3], p.1.Range p.2) ∧
    fill 0x800#64 (BitVec.ofNat 64 e.opcode) (e.args.zip [1, 3]) = some (w, false) ∧ ¬e.matches w ∧ e'.matches w := by
  refine ⟨⟨"mtcrf", 0x7c000120, 0xfc100fff, 0x23, 0x0, [54, 86]⟩, by decide +kernel, ⟨"mtocrf", 0x7c100120, 0xfc100fff, 0x23, 0x0, [54, 86]⟩, by decide +kernel,
    0x7c701120#64, rfl, rfl, ?_, by decide +kernel, by unfold Opcode.matches; decide +kernel, by unfold Opcode.matches; decide +kernel⟩
  have e1 : (⟨"mtcrf", 0x7c000120, 0xfc100fff, 0x23, 0x0, [54, 86]⟩ : Opcode).args.zip [(1 : Int), 3] =
      [(⟨"FXM", 0xff, some 12, .fxm, .fxm, 0⟩, 1), (⟨"RS", 0x1f, some 21, .null, .null, 1⟩, 3)] := by decide +kernel
  rw [e1]
  intro p hp
  simp only [List.mem_cons, List.not_mem_nil, or_false] at hp
  rcases hp with rfl | rfl <;> exact ⟨by decide +kernel, by decide +kernel⟩

/-- The prediction of `bc+` goes into the options: with the hints of version 2 the options 12 come back as 14. -/
theorem C109_options_refuted : ∃ e ∈ entries, ∃ o ∈ operands, ∃ w, e.name = "bc+" ∧ o.name = "BOE" ∧ e.args.head? = some o ∧
    fill 0x800#64 (BitVec.ofNat 64 e.opcode) (e.args.zip [12, 2, 64]) = some (w, false) ∧ e.matches w ∧ o.extract w 0x800#64 0 = (14#64, 0) :=
  ⟨⟨"bc+", 0x40000000, 0xfc000003, 0x21, 0x800000000, [18, 1, 11]⟩, by decide +kernel, ⟨"BOE", 0x1e, some 21, .boe, .boe, 0⟩, by decide +kernel,
    0x41e20040#64, rfl, rfl, by decide +kernel, by decide +kernel, by unfold Opcode.matches; decide +kernel, by decide +kernel⟩

end Opc
