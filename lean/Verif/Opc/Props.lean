import Verif.Opc.Hints

/-! C106, C107, C108: the operands of the instructions in the assembler and the disassembler. -/
namespace Opc

variable {o : Operand} {insn dialect w : W} {v : Int}

/-- The operands that do not come back as they were inserted. -/
def notBack : List String := ["NB", "NBI", "OIMM5", "BDM", "BDMA", "BDP", "BDPA", "NSI", "NSISIGNOPT", "VLENSIMM", "SCLSCI8", "SCLSCI8N", "MBE'"]

theorem notBack_rows : ∀ o ∈ operands, o.name ∉ notBack → o.ins ∉ odd ∧ o.name ≠ "NB" := by decide +kernel

theorem counts_rows : ∀ o ∈ operands, o.name ∈ ["NB", "NBI", "OIMM5"] → o.ins = .nbi ∨ o.ins = .oimm ∨ (o.ins = .null ∧ o.name = "NB") := by decide +kernel

theorem bd_rows : ∀ o ∈ operands, o.name ∈ ["BDM", "BDMA", "BDP", "BDPA"] → o.ins = .bdm ∨ o.ins = .bdp := by decide +kernel

theorem negated_rows : ∀ o ∈ operands, o.name ∈ ["NSI", "NSISIGNOPT", "VLENSIMM"] → o.ins = .nsi ∨ o.ins = .vlensi := by decide +kernel

theorem scaled_rows : ∀ o ∈ operands, o.name ∈ ["SCLSCI8", "SCLSCI8N"] → o.ins = .sci8 ∨ o.ins = .sci8n := by decide +kernel

theorem mask_rows : ∀ o ∈ operands, o.name = "MBE'" → o.ins = .mbe := by decide +kernel

/-- A legal value is inserted without an error message. -/
theorem put (ho : o ∈ operands) (hv : o.Range v) (hl : o.Legal insn dialect v) : ∃ w, o.insert insn (BitVec.ofInt 64 v) dialect = some (w, false) := by
  obtain ⟨w, e, h, he⟩ := legal_row ho hv (i := insn) (d := dialect)
  cases e
  · exact ⟨w, h⟩
  · exact absurd hl (he.mp rfl)

/-! ## C106: what the assembler inserts, the disassembler extracts -/

/-- Every legal value of every operand but the thirteen of `notBack` is inserted without an error message into an instruction where the operand's bits are
free, and extraction gives the value back and does not mark the word as another instruction. -/
theorem C106_roundtrip_partial (ho : o ∈ operands) (hx : o.name ∉ notBack) (hv : o.Range v) (hl : o.Legal insn dialect v) (hi : insn &&& bits o.field = 0#64) :
    ∃ w, o.insert insn (BitVec.ofInt 64 v) dialect = some (w, false) ∧
      ∀ invalid : Int, 0 ≤ invalid → o.extract w dialect invalid = (BitVec.ofInt 64 v, invalid) := by
  obtain ⟨w, h⟩ := put ho hv hl
  obtain ⟨h1, h2⟩ := notBack_rows o ho hx
  exact ⟨w, h, trip_row ho h1 h2 insn dialect v hv hi w h⟩

/-- The displacement of a load, the branch options of `bcctr`, the six bits of a shift, the time base. -/
example : (⟨"D", 0xffff, some 0, .null, .null, 0x2800⟩ : Operand) ∈ operands ∧ (⟨"D", 0xffff, some 0, .null, .null, 0x2800⟩ : Operand).Range (-32768) ∧
    (⟨"D", 0xffff, some 0, .null, .null, 0x2800⟩ : Operand).Legal 0x80640000#64 0 (-32768) ∧
    0x80640000#64 &&& bits (⟨"D", 0xffff, some 0, .null, .null, 0x2800⟩ : Operand).field = 0#64 :=
  ⟨by decide +kernel, ⟨by decide +kernel, by decide +kernel⟩, trivial, by decide +kernel⟩

example : (⟨"SH6", 0x3f, none, .sh6, .sh6, 0⟩ : Operand) ∈ operands ∧ (⟨"SH6", 0x3f, none, .sh6, .sh6, 0⟩ : Operand).Range 45 ∧
    (⟨"SH6", 0x3f, none, .sh6, .sh6, 0⟩ : Operand).insert 0x78000000#64 45#64 0 = some (0x78006802#64, false) :=
  ⟨by decide +kernel, ⟨by decide +kernel, by decide +kernel⟩, by decide +kernel⟩

example : (⟨"TBR", 0x3ff, some 11, .tbr, .tbr, 0x80080⟩ : Operand) ∈ operands ∧ (⟨"TBR", 0x3ff, some 11, .tbr, .tbr, 0x80080⟩ : Operand).Range 269 ∧
    (⟨"TBR", 0x3ff, some 11, .tbr, .tbr, 0x80080⟩ : Operand).Legal 0x7c0002e6#64 0 269 ∧
    (⟨"TBR", 0x3ff, some 11, .tbr, .tbr, 0x80080⟩ : Operand).insert 0x7c0002e6#64 269#64 0 = some (0x7c0d42e6#64, false) :=
  ⟨by decide +kernel, ⟨by decide +kernel, by decide +kernel⟩, Or.inr rfl, by decide +kernel⟩

/-- Byte counts and the immediate of the short forms: every value but 0 comes back. -/
theorem C106_counts_partial (ho : o ∈ operands) (hx : o.name ∈ ["NB", "NBI", "OIMM5"]) (hv : o.Range v) (h0 : v ≠ 0) (hl : o.Legal insn dialect v)
    (hi : insn &&& bits o.field = 0#64) :
    ∃ w, o.insert insn (BitVec.ofInt 64 v) dialect = some (w, false) ∧
      ∀ invalid : Int, 0 ≤ invalid → o.extract w dialect invalid = (BitVec.ofInt 64 v, invalid) := by
  obtain ⟨w, h⟩ := put ho hv hl
  refine ⟨w, h, fun invalid _ => ?_⟩
  unfold Operand.insert at h
  unfold Operand.extract
  rcases counts_rows o ho hx with hs | hs | ⟨hs, hn⟩
  · obtain ⟨c1, c2, c3, c4, c5, c6, c7, -⟩ := shape_of ho hs (by decide) rfl
    have hr := range_count c3 c4 hv
    rw [hs] at h; rw [c7] at hi; rw [c1]
    exact rtNbi hi hr.1 (fun hz => h0 (hr.2.mpr hz)) h
  · obtain ⟨c1, c2, c3, c4, c5, c6, c7, -⟩ := shape_of ho hs (by decide) rfl
    have hr := range_count c3 c4 hv
    rw [hs] at h; rw [c7] at hi; rw [c1]
    exact rtOimm hi hr.1 (fun hz => h0 (hr.2.mpr hz)) h
  · rcases rows_null o ho hs with ⟨he, hp⟩ | ⟨_, he, hlo, hhi, hsg, hp, hsh, hbm⟩
    · have : ∀ o ∈ operands, o.name = "NB" → o.ext = .nb := by decide +kernel
      rw [this o ho hn] at he; cases he
    · have hr := range_count hhi hsg hv
      have hw := range_thirty hhi hsg hv
      rw [hs] at h; rw [he]
      have hf : bits o.field = 0xf800#64 := by
        unfold Operand.field; rw [hs, hsh, hlo, hhi]; decide +kernel
      rw [hf] at hi
      simp only [Operand.insertNull, hsh, hbm] at h
      have hw' : insn ||| ((BitVec.ofInt 64 v &&& 0x1f#64) <<< 11) = w := by simpa using h
      subst hw'
      have e1 : ((insn ||| ((BitVec.ofInt 64 v &&& 0x1f#64) <<< 11)) >>> 11) &&& 0x1f#64 = BitVec.ofInt 64 v &&& 0x1f#64 := by
        have := left_field (m := 0x1f#64) (n := 11) (x := BitVec.ofInt 64 v) (i := insn) (by decide) (by simpa using hi)
        exact this
      have hlow := and_low (BitVec.ofInt 64 v) (t := 5) (by omega)
      change (BitVec.ofInt 64 v &&& 0x1f#64).toNat = _ at hlow
      have hvn := (word_small hw.1 (by omega)).1
      unfold extractNb
      simp only [e1]
      split
      · next hz =>
        rw [hz] at hlow
        simp at hlow
        have : v = 32 := by omega
        rw [this]; rfl
      · next hz =>
        have : (BitVec.ofInt 64 v &&& 0x1f#64).toNat ≠ 0 := fun h => hz (BitVec.eq_of_toNat_eq h)
        congr 1
        apply BitVec.eq_of_toNat_eq
        omega

example : (⟨"NB", 0x1f, some 11, .null, .nb, 0x20000⟩ : Operand) ∈ operands ∧ (⟨"NB", 0x1f, some 11, .null, .nb, 0x20000⟩ : Operand).Range 32 ∧
    (⟨"NB", 0x1f, some 11, .null, .nb, 0x20000⟩ : Operand).Legal 0 0 32 := ⟨by decide +kernel, ⟨by decide +kernel, by decide +kernel⟩, trivial⟩

/-- The count 0 is in range and inserted without an error message, and comes back as 32. -/
theorem C106_zero_count_refuted :
    (∃ o ∈ operands, o.name = "NB" ∧ o.Range 0 ∧ o.Legal 0 0 0 ∧ o.insert 0#64 0#64 0#64 = some (0#64, false) ∧ o.extract 0#64 0#64 0 = (32#64, 0)) ∧
    (∃ o ∈ operands, o.name = "NBI" ∧ o.Range 0 ∧ o.insert 0x7c0a04aa#64 0#64 0#64 = some (0x7c0a04aa#64, false) ∧ o.extract 0x7c0a04aa#64 0#64 0 = (32#64, 0)) ∧
    (∃ o ∈ operands, o.name = "OIMM5" ∧ o.Range 0 ∧ o.insert 0#64 0#64 0#64 = some (0x1f0#64, false) ∧ o.extract 0x1f0#64 0#64 0 = (32#64, 0)) := by
  refine ⟨⟨⟨"NB", 0x1f, some 11, .null, .nb, 0x20000⟩, ?_⟩, ⟨⟨"NBI", 0x1f, some 11, .nbi, .nb, 0x20000⟩, ?_⟩, ⟨⟨"OIMM5", 0x1f, some 4, .oimm, .oimm, 0x20000⟩, ?_⟩⟩
  · exact ⟨by decide +kernel, rfl, ⟨by decide +kernel, by decide +kernel⟩, trivial, by decide +kernel, by decide +kernel⟩
  · exact ⟨by decide +kernel, rfl, ⟨by decide +kernel, by decide +kernel⟩, by decide +kernel, by decide +kernel⟩
  · exact ⟨by decide +kernel, rfl, ⟨by decide +kernel, by decide +kernel⟩, by decide +kernel, by decide +kernel⟩

theorem v2_eq : isaV2 = version2 := by decide

/-- Branch displacements with a prediction come back in the dialects before version 2. -/
theorem C106_hints_old_partial (ho : o ∈ operands) (hx : o.name ∈ ["BDM", "BDMA", "BDP", "BDPA"]) (hv : o.Range v) (hd : ¬has dialect version2)
    (hi : insn &&& bits o.field = 0#64) :
    ∃ w, o.insert insn (BitVec.ofInt 64 v) dialect = some (w, false) ∧
      ∀ invalid : Int, 0 ≤ invalid → o.extract w dialect invalid = (BitVec.ofInt 64 v, invalid) := by
  have hd' : dialect &&& isaV2 = 0#64 := by rw [v2_eq]; exact Classical.not_not.mp hd
  rcases bd_rows o ho hx with hs | hs
  all_goals
    obtain ⟨c1, c2, c3, c4, c5, c6, c7, -⟩ := shape_of ho hs (by decide) rfl
    obtain ⟨w, h⟩ := put ho hv (insn := insn) (dialect := dialect) (by unfold Operand.Legal; rw [hs]; trivial)
    refine ⟨w, h, fun invalid _ => ?_⟩
    have hr := range_signed c3 c4 c5 hv
    have h4 := hv.1
    rw [c2] at h4
    unfold Operand.insert at h
    unfold Operand.extract
    rw [hs] at h; rw [c7] at hi; rw [c1]
  · exact rtBdmOld hr.1 hr.2 (by simpa using h4) hd' hi h
  · exact rtBdpOld hr.1 hr.2 (by simpa using h4) hd' hi h

theorem bo_word {n : Nat} (hn : n < 32) (h : part insn 21 5 = n) : (insn >>> 21) &&& 0x1f#64 = BitVec.ofNat 64 n := by
  have := part5 (i := insn) 21
  apply BitVec.eq_of_toNat_eq
  rw [BitVec.toNat_ofNat]
  omega

/-- From version 2 on they come back when BO is one of the four encodings with two hint bits, both zero: 00100, 01100, 10000, 10010. -/
theorem C106_hints_new_partial (ho : o ∈ operands) (hx : o.name ∈ ["BDM", "BDMA", "BDP", "BDPA"]) (hv : o.Range v) (hd : has dialect version2)
    (hb : part insn 21 5 ∈ [4, 12, 16, 18]) (hi : insn &&& bits o.field = 0#64) :
    ∃ w, o.insert insn (BitVec.ofInt 64 v) dialect = some (w, false) ∧
      ∀ invalid : Int, 0 ≤ invalid → o.extract w dialect invalid = (BitVec.ofInt 64 v, invalid) := by
  have hd' : dialect &&& isaV2 ≠ 0#64 := by rw [v2_eq]; exact hd
  have m1 : insn &&& (0x17#64 <<< 21) = (((insn >>> 21) &&& 0x1f#64) &&& 0x17#64) <<< 21 := lin_eq_all (i := insn) (v := 7#64) (by decide +kernel)
  have m2 : insn &&& (0x1d#64 <<< 21) = (((insn >>> 21) &&& 0x1f#64) &&& 0x1d#64) <<< 21 := lin_eq_all (i := insn) (v := 7#64) (by decide +kernel)
  have hb' : insn &&& (0x17#64 <<< 21) = 0x04#64 <<< 21 ∨ insn &&& (0x1d#64 <<< 21) = 0x10#64 <<< 21 := by
    rw [m1, m2]
    simp only [List.mem_cons, List.not_mem_nil, or_false] at hb
    rcases hb with hb | hb | hb | hb
    · rw [bo_word (n := 4) (by omega) hb]; left; decide
    · rw [bo_word (n := 12) (by omega) hb]; left; decide
    · rw [bo_word (n := 16) (by omega) hb]; right; decide
    · rw [bo_word (n := 18) (by omega) hb]; right; decide
  rcases bd_rows o ho hx with hs | hs
  all_goals
    obtain ⟨c1, c2, c3, c4, c5, c6, c7, -⟩ := shape_of ho hs (by decide) rfl
    obtain ⟨w, h⟩ := put ho hv (insn := insn) (dialect := dialect) (by unfold Operand.Legal; rw [hs]; trivial)
    refine ⟨w, h, fun invalid _ => ?_⟩
    have hr := range_signed c3 c4 c5 hv
    have h4 := hv.1
    rw [c2] at h4
    unfold Operand.insert at h
    unfold Operand.extract
    rw [hs] at h; rw [c7] at hi; rw [c1]
  · exact rtBdmNew hr.1 hr.2 (by simpa using h4) hd' hi hb' h
  · exact rtBdpNew hr.1 hr.2 (by simpa using h4) hd' hi hb' h

/-- `beq-` of Power4, 4 bytes back. -/
example : (⟨"BDM", 0xfffc, some 0, .bdm, .bdm, 0xa00⟩ : Operand) ∈ operands ∧ (⟨"BDM", 0xfffc, some 0, .bdm, .bdm, 0xa00⟩ : Operand).Range (-4) ∧
    has 0x800#64 version2 ∧ ¬has 1#64 version2 ∧ part 0x41820000#64 21 5 ∈ ([4, 12, 16, 18] : List Int) ∧
    0x41820000#64 &&& bits (⟨"BDM", 0xfffc, some 0, .bdm, .bdm, 0xa00⟩ : Operand).field = 0#64 :=
  ⟨by decide +kernel, ⟨by decide +kernel, by decide +kernel⟩, by unfold has; decide, by unfold has; decide, by decide +kernel, by decide +kernel⟩

/-- From version 2 on a prediction for a branch whose BO has no hint bits is inserted without an error message, and the word is not recognised. -/
theorem C106_hints_refuted : ∃ o ∈ operands, o.name = "BDP" ∧ o.Range 8 ∧ has 0x800#64 version2 ∧ 0x40000000#64 &&& bits o.field = 0#64 ∧
    o.insert 0x40000000#64 8#64 0x800#64 = some (0x40000008#64, false) ∧ o.extract 0x40000008#64 0x800#64 0 = (8#64, 1) :=
  ⟨⟨"BDP", 0xfffc, some 0, .bdp, .bdp, 0xa00⟩, by decide +kernel, rfl, ⟨by decide +kernel, by decide +kernel⟩, by unfold has; decide, by decide +kernel,
    by decide +kernel, by decide +kernel⟩

/-- Negated immediates come back, but the word is always marked as another instruction. -/
theorem C106_negated_partial (ho : o ∈ operands) (hx : o.name ∈ ["NSI", "NSISIGNOPT", "VLENSIMM"]) (hv : o.Range v) (hi : insn &&& bits o.field = 0#64) :
    ∃ w, o.insert insn (BitVec.ofInt 64 v) dialect = some (w, false) ∧ ∀ invalid : Int, o.extract w dialect invalid = (BitVec.ofInt 64 v, 1) := by
  rcases negated_rows o ho hx with hs | hs
  all_goals
    obtain ⟨c1, c2, c3, c4, c5, c6, c7, -⟩ := shape_of ho hs (by decide) rfl
    obtain ⟨w, h⟩ := put ho hv (insn := insn) (dialect := dialect) (by unfold Operand.Legal; rw [hs]; trivial)
    refine ⟨w, h, fun invalid => ?_⟩
    have hr := range_negative c3 c4 c5 hv
    unfold Operand.insert at h
    unfold Operand.extract
    rw [hs] at h; rw [c7] at hi; rw [c1]
  · exact rtNsi hr.1 hr.2 hi h
  · exact rtVlensi hr.1 hr.2 hi h

example : (⟨"NSI", 0xffff, some 0, .nsi, .nsi, 0x10800⟩ : Operand) ∈ operands ∧ (⟨"NSI", 0xffff, some 0, .nsi, .nsi, 0x10800⟩ : Operand).Range 32768 ∧
    0x38600000#64 &&& bits (⟨"NSI", 0xffff, some 0, .nsi, .nsi, 0x10800⟩ : Operand).field = 0#64 :=
  ⟨by decide +kernel, ⟨by decide +kernel, by decide +kernel⟩, by decide +kernel⟩

theorem C106_negated_refuted : ∃ o ∈ operands, o.name = "NSI" ∧ o.Range 1 ∧ o.insert 0x38600000#64 1#64 0#64 = some (0x3860ffff#64, false) ∧
    o.extract 0x3860ffff#64 0#64 0 = (1#64, 1) :=
  ⟨⟨"NSI", 0xffff, some 0, .nsi, .nsi, 0x10800⟩, by decide +kernel, rfl, ⟨by decide +kernel, by decide +kernel⟩, by decide +kernel, by decide +kernel⟩

/-- Scaled immediates come back up to multiples of 2 ^ 32. -/
theorem C106_scaled_partial (ho : o ∈ operands) (hx : o.name ∈ ["SCLSCI8", "SCLSCI8N"]) (hv : o.Range v) (hl : o.Legal insn dialect v)
    (hi : insn &&& bits o.field = 0#64) :
    ∃ w, o.insert insn (BitVec.ofInt 64 v) dialect = some (w, false) ∧ ∀ invalid : Int,
      ((o.extract w dialect invalid).1.toNat : Int) % 2 ^ 32 = v % 2 ^ 32 ∧ (o.extract w dialect invalid).2 = invalid := by
  obtain ⟨w, h⟩ := put ho hv hl
  refine ⟨w, h, fun invalid => ?_⟩
  have e : ((BitVec.ofInt 64 v).toNat : Int) % 2 ^ 32 = v % 2 ^ 32 := by rw [toNat_ofInt64]; omega
  rcases scaled_rows o ho hx with hs | hs
  all_goals
    obtain ⟨c1, c2, c3, c4, c5, c6, c7, -⟩ := shape_of ho hs (by decide) rfl
    unfold Operand.insert at h
    unfold Operand.extract
    rw [hs] at h; rw [c7] at hi; rw [c1]
  · have := rtSci8 (inv := invalid) hi h
    rw [low32] at this
    exact ⟨by rw [← e]; exact_mod_cast this.1, this.2⟩
  · have := rtSci8n (inv := invalid) hi h
    rw [low32] at this
    exact ⟨by rw [← e]; exact_mod_cast this.1, this.2⟩

example : (⟨"SCLSCI8", 0xffffffff, none, .sci8, .sci8, 0⟩ : Operand) ∈ operands ∧ (⟨"SCLSCI8", 0xffffffff, none, .sci8, .sci8, 0⟩ : Operand).Range 0xab0000 ∧
    (⟨"SCLSCI8", 0xffffffff, none, .sci8, .sci8, 0⟩ : Operand).Legal 0 0 0xab0000 :=
  ⟨by decide +kernel, ⟨by decide +kernel, by decide +kernel⟩, ⟨0xab, 2, by decide, by decide, .inl (by decide)⟩⟩

/-- The value 0xffffff80 is in range and comes back as 0xffffffffffffff80. -/
theorem C106_scaled_refuted : ∃ o ∈ operands, o.name = "SCLSCI8" ∧ o.Range 0xffffff80 ∧ o.insert 0#64 0xffffff80#64 0#64 = some (0x480#64, false) ∧
    o.extract 0x480#64 0#64 0 = (0xffffffffffffff80#64, 0) :=
  ⟨⟨"SCLSCI8", 0xffffffff, none, .sci8, .sci8, 0⟩, by decide +kernel, rfl, ⟨by decide +kernel, by decide +kernel⟩, by decide +kernel, by decide +kernel⟩

/-- Masks come back up to multiples of 2 ^ 32, but the word is always marked as another instruction. -/
theorem C106_mask_partial (ho : o ∈ operands) (hx : o.name = "MBE'") (hv : o.Range v) (hl : o.Legal insn dialect v) (hi : insn &&& bits o.field = 0#64) :
    ∃ w, o.insert insn (BitVec.ofInt 64 v) dialect = some (w, false) ∧ ∀ invalid : Int,
      ((o.extract w dialect invalid).1.toNat : Int) % 2 ^ 32 = v % 2 ^ 32 ∧ (o.extract w dialect invalid).2 = 1 := by
  obtain ⟨w, h⟩ := put ho hv hl
  refine ⟨w, h, fun invalid => ?_⟩
  have e : ((BitVec.ofInt 64 v).toNat : Int) % 2 ^ 32 = v % 2 ^ 32 := by rw [toNat_ofInt64]; omega
  have hs := mask_rows o ho hx
  obtain ⟨c1, c2, c3, c4, c5, c6, c7, -⟩ := shape_of ho hs (by decide) rfl
  unfold Operand.insert at h
  unfold Operand.extract
  rw [hs] at h; rw [c7] at hi; rw [c1]
  have := rtMbe (inv := invalid) hi h
  rw [low32] at this
  exact ⟨by rw [← e]; exact_mod_cast this.1, this.2⟩

/-- A mask around the end: bits 28 to 31 and 0 to 3 from the left. -/
example : (⟨"MBE'", 0xffffffffffffffff, some 0, .mbe, .mbe, 0⟩ : Operand) ∈ operands ∧
    (⟨"MBE'", 0xffffffffffffffff, some 0, .mbe, .mbe, 0⟩ : Operand).Range 0xf000000f ∧
    (⟨"MBE'", 0xffffffffffffffff, some 0, .mbe, .mbe, 0⟩ : Operand).Legal 0 0 0xf000000f :=
  ⟨by decide +kernel, ⟨by decide +kernel, by decide +kernel⟩, ⟨28, 8, by decide, by decide, by decide, by unfold run; decide +kernel⟩⟩

theorem C106_mask_refuted : ∃ o ∈ operands, o.name = "MBE'" ∧ o.Range 0xf000000f ∧ o.insert 0x54000000#64 0xf000000f#64 0#64 = some (0x54000706#64, false) ∧
    o.extract 0x54000706#64 0#64 0 = (0xfffffffff000000f#64, 1) :=
  ⟨⟨"MBE'", 0xffffffffffffffff, some 0, .mbe, .mbe, 0⟩, by decide +kernel, rfl, ⟨by decide +kernel, by decide +kernel⟩, by decide +kernel, by decide +kernel⟩

/-! ## C107: what an insertion does to the instruction -/

/-- Whatever the value, an insertion only sets bits, and only bits of the operand (or hint bits). -/
theorem C107_frame (ho : o ∈ operands) {x : W} {error : Bool} (h : o.insert insn x dialect = some (w, error)) :
    (∀ k, insn.getLsbD k = true → w.getLsbD k = true) ∧
    ∀ k, k < 64 → (bits (o.field ++ o.hints)).getLsbD k = false → w.getLsbD k = insn.getLsbD k := by
  obtain ⟨h1, h2⟩ := frame_row ho h
  constructor
  · intro k hk
    by_cases hk64 : k < 64
    · have := congrArg (fun y => y.getLsbD k) h2
      simp only [BitVec.getLsbD_and, BitVec.getLsbD_not, hk, hk64, decide_true, Bool.true_and, BitVec.getLsbD_zero] at this
      simpa using this
    · rw [BitVec.getLsbD_of_ge _ _ (by omega)] at hk; cases hk
  · intro k hk hb
    have := congrArg (fun y => y.getLsbD k) h1
    simpa only [BitVec.getLsbD_and, BitVec.getLsbD_not, hb, hk, decide_true, Bool.true_and, Bool.not_false, Bool.and_true] using this

example : ∃ o ∈ operands, ∃ w, o.name = "SPR" ∧ o.insert 0x7c6002a6#64 0x109#64 0#64 = some (w, false) ∧ w = 0x7c6942a6#64 :=
  ⟨⟨"SPR", 0x3ff, some 11, .spr, .spr, 0x80⟩, by decide +kernel, _, rfl, rfl, by decide +kernel⟩

/-- The insertion of a value in range is defined, and gives an error message exactly when the value is not legal. -/
theorem C107_error (ho : o ∈ operands) (hv : o.Range v) :
    ∃ w error, o.insert insn (BitVec.ofInt 64 v) dialect = some (w, error) ∧ (error = true ↔ ¬o.Legal insn dialect v) :=
  legal_row ho hv

/-- Both happen: registers of `lmw` may not contain the base register. -/
example : ∃ o ∈ operands, o.name = "RAM" ∧ o.Range 29 ∧ o.Range 31 ∧ o.Legal 0xbbc00000#64 0 29 ∧ ¬o.Legal 0xbbc00000#64 0 31 :=
  ⟨⟨"RAM", 0x1f, some 16, .ram, .ram, 2⟩, by decide +kernel, rfl, ⟨by decide +kernel, by decide +kernel⟩, ⟨by decide +kernel, by decide +kernel⟩,
    by change (29 : Int) < part _ 21 5; decide +kernel, by change ¬(31 : Int) < part _ 21 5; decide +kernel⟩

/-- The value of an operand that is left out (ppc.h:300-307): the extraction function's value for a negative count, 0 without function. -/
def Operand.omitted (o : Operand) (insn dialect : W) (count : Int) : W := if o.ext = .null then 0#64 else (o.extract insn dialect count).1

/-- All registers for `mfcr` and `mtcrf`, register 268 for `mftb`, 1 for the instructions with an SXL field; 0 for all others. -/
def Operand.default (o : Operand) : Int := if o.name = "FXM4" then -1 else if o.name = "TBR" then 268 else if o.name = "SXL" then 1 else 0

theorem optional_rows : ∀ o ∈ operands, o.optional = true →
    (o.ext = .null ∧ o.ins = .null ∧ o.default = 0) ∨ (o.ext = .fxm ∧ o.ins = .fxm ∧ o.default = -1) ∨ (o.ext = .ls ∧ o.ins = .ls ∧ o.default = 0) ∨
    (o.ext = .esync ∧ o.ins = .esync ∧ o.default = 0) ∨ (o.ext = .tbr ∧ o.ins = .tbr ∧ o.default = 268) ∨ (o.ext = .sxl ∧ o.ins = .sxl ∧ o.default = 1) := by
  decide +kernel

/-- An operand that is left out has its default value. -/
theorem C107_omitted (ho : o ∈ operands) (hopt : o.optional = true) {count : Int} (hc : count < 0) :
    o.omitted insn dialect count = BitVec.ofInt 64 o.default := by
  unfold Operand.omitted
  rcases optional_rows o ho hopt with ⟨h1, -, h3⟩ | ⟨h1, -, h3⟩ | ⟨h1, -, h3⟩ | ⟨h1, -, h3⟩ | ⟨h1, -, h3⟩ | ⟨h1, -, h3⟩
  · rw [if_pos h1, h3]; rfl
  all_goals
    rw [if_neg (by rw [h1]; decide), h3]
    unfold Operand.extract
    rw [h1]
  · simp only [extractFxm, if_pos hc]; rfl
  · simp only [extractLs, if_pos hc]; rfl
  · simp only [extractEsync, if_pos hc]; rfl
  · simp only [extractTbr, if_pos hc]; rfl
  · simp only [extractSxl, if_pos hc]; rfl

/-- The default value of an operand that is left out is inserted without an error message (FXM4 belongs to instructions without the bit of mfocrf). -/
theorem C107_omitted_legal (ho : o ∈ operands) (hopt : o.optional = true) (hf : o.name = "FXM4" → part insn 20 1 = 0) :
    ∃ w, o.insert insn (BitVec.ofInt 64 o.default) dialect = some (w, false) := by
  rcases optional_rows o ho hopt with ⟨-, h1, h3⟩ | ⟨-, h1, h3⟩ | ⟨-, h1, h3⟩ | ⟨-, h1, h3⟩ | ⟨-, h1, h3⟩ | ⟨-, h1, h3⟩
  · unfold Operand.insert; rw [h1]; exact insertNull_some (plain_rows o ho h1)
  · have hn : o.name = "FXM4" := by
      apply Classical.byContradiction
      intro hc
      unfold Operand.default at h3
      rw [if_neg hc] at h3
      split at h3
      · exact absurd h3 (by decide)
      · split at h3 <;> exact absurd h3 (by decide)
    have hp := hf hn
    have hb : ¬insn &&& (1#64 <<< 20) ≠ 0#64 := fun h => by rw [(bit_part 20 (by omega)).mp h] at hp; cases hp
    unfold Operand.insert; rw [h1, h3]
    simp only [insertFxm, if_neg hb]
    rw [if_neg (fun h => absurd h.1 (by decide))]
    split
    · exact ⟨_, rfl⟩
    · exact ⟨_, rfl⟩
  · unfold Operand.insert; rw [h1, h3]
    obtain ⟨w, e, h, he⟩ := leLs (i := insn) (d := dialect) (v := 0) (by decide) (by decide)
    cases e
    · exact ⟨w, h⟩
    · exact absurd (fun _ => .inl (by decide)) (he.mp rfl)
  · unfold Operand.insert; rw [h1, h3]
    obtain ⟨w, e, h, he⟩ := leEsync (i := insn) (d := dialect) (v := 0) (by decide) (by decide)
    cases e
    · exact ⟨w, h⟩
    · exact absurd (.inl rfl) (he.mp rfl)
  · unfold Operand.insert; rw [h1, h3]; exact ⟨_, rfl⟩
  · unfold Operand.insert; rw [h1, h3]; exact ⟨_, rfl⟩

/-- `mfcr r3` and `mftb r3`. -/
example : (∃ o ∈ operands, o.name = "FXM4" ∧ o.optional = true ∧ part 0x7c600026#64 20 1 = 0 ∧ o.insert 0x7c600026#64 (-1#64) 0x800#64 = some (0x7c600026#64, false)) ∧
    (∃ o ∈ operands, o.name = "TBR" ∧ o.optional = true ∧ o.insert 0x7c6002e6#64 268#64 0#64 = some (0x7c6c42e6#64, false)) :=
  ⟨⟨⟨"FXM4", 0xff, some 12, .fxm, .fxm, 0x80000⟩, by decide +kernel, rfl, by decide +kernel, by decide +kernel, by decide +kernel⟩,
    ⟨⟨"TBR", 0x3ff, some 11, .tbr, .tbr, 0x80080⟩, by decide +kernel, rfl, by decide +kernel, by decide +kernel⟩⟩

/-! ## C108: what the disassembler extracts, the assembler inserts -/

/-- The operands whose words do not all come back. -/
def notAgain : List String := ["BO", "BOE", "FXM", "FXM4", "MBE'", "NBI", "SCLSCI8", "SCLSCI8N", "SPRG"]

theorem notAgain_rows : ∀ o ∈ operands, o.name ∉ notAgain → o.ins ∉ oneWay ∨ o.ins = .bdm ∨ o.ins = .bdp := by decide +kernel

/-- Byte counts: the count 32 is in the word as 0. -/
theorem nb_back (ho : o ∈ operands) (hn : o.name = "NB") : o.Back := by
  have hrow : ∀ o ∈ operands, o.name = "NB" → o = ⟨"NB", 0x1f, some 11, .null, .nb, 0x20000⟩ := by decide +kernel
  have e0 := hrow o ho hn
  subst e0
  intro insn dialect _
  have hf : bits (⟨"NB", 0x1f, some 11, .null, .nb, 0x20000⟩ : Operand).field = 0xf800#64 := by decide +kernel
  unfold Operand.without
  rw [hf]
  simp only [Operand.insert, Operand.extract, Operand.insertNull, extractNb]
  have e : (if (insn >>> 11) &&& 0x1f#64 = 0#64 then 32#64 else (insn >>> 11) &&& 0x1f#64) &&& 0x1f#64 = (insn >>> 11) &&& 0x1f#64 := by
    split
    · next h => rw [h]; decide
    · exact and_and_mask
  have := left_back (i := insn) (m := 0x1f#64) (n := 11)
  rw [if_pos (by decide)]
  change some ((insn &&& ~~~0xf800#64 ||| ((if (insn >>> 11) &&& 0x1f#64 = 0#64 then 32#64 else (insn >>> 11) &&& 0x1f#64) &&& 0x1f#64) <<< 11), false) = _
  rw [e]
  exact congrArg (fun y => some (y, false)) this

/-- Every word that is recognised as one with the operand, for every operand but the nine of `notAgain`: the extracted value, inserted into the word without
the operand, gives the same word and no error message. -/
theorem C108_again_partial (ho : o ∈ operands) (hx : o.name ∉ notAgain) (h : (o.extract insn dialect 0).2 = 0) :
    o.insert (o.without insn) (o.extract insn dialect 0).1 dialect = some (insn, false) := by
  by_cases hn : o.name = "NB"
  · exact nb_back ho hn insn dialect h
  · rcases notAgain_rows o ho hx with hs | hs | hs
    · exact back_row ho hs hn insn dialect h
    · obtain ⟨c1, -, -, -, -, -, c7, -⟩ := shape_of ho hs (by decide) rfl
      unfold Operand.extract at h
      unfold Operand.without Operand.insert Operand.extract
      rw [c1] at h; rw [c1, c7, hs]; exact bkBdm h
    · obtain ⟨c1, -, -, -, -, -, c7, -⟩ := shape_of ho hs (by decide) rfl
      unfold Operand.extract at h
      unfold Operand.without Operand.insert Operand.extract
      rw [c1] at h; rw [c1, c7, hs]; exact bkBdp h

example : ∃ o ∈ operands, o.name = "TBR" ∧ o.name ∉ notAgain ∧ o.extract 0x7c6d42e6#64 0#64 0 = (269#64, 0) ∧ (o.extract 0x7c6e42e6#64 0#64 0).2 = 1 :=
  ⟨⟨"TBR", 0x3ff, some 11, .tbr, .tbr, 0x80080⟩, by decide +kernel, rfl, by decide +kernel, by decide +kernel, by decide +kernel⟩

theorem bo_rows : ∀ o ∈ operands, o.name = "BO" → o = ⟨"BO", 0x1f, some 21, .bo, .bo, 0⟩ := by decide +kernel

/-- Branch options: the word comes back, and the error message tells that the options are not legal. -/
theorem C108_options_partial (ho : o ∈ operands) (hx : o.name = "BO") :
    ∃ error, o.insert (o.without insn) (o.extract insn dialect 0).1 dialect = some (insn, error) ∧
      (error = true ↔ ¬(boOk dialect (part insn 21 5) ∧ boCounter insn (part insn 21 5))) := by
  have e0 := bo_rows o ho hx
  have hf : bits o.field = 0x3e00000#64 := by rw [e0]; decide +kernel
  have hr := part_range (i := insn) 21 5
  have hR : o.Range (part insn 21 5) := by
    rw [e0]
    exact ⟨by rw [show (⟨"BO", 0x1f, some 21, .bo, .bo, 0⟩ : Operand).lo = 0 by decide +kernel]; exact Int.one_dvd _,
      by rw [show (⟨"BO", 0x1f, some 21, .bo, .bo, 0⟩ : Operand).signed = false by decide +kernel]
         simp only [Bool.false_eq_true, if_false]
         rw [show (⟨"BO", 0x1f, some 21, .bo, .bo, 0⟩ : Operand).hi = 5 by decide +kernel]; exact ⟨hr.1, .inl hr.2⟩⟩
  have hv : (o.extract insn dialect 0).1 = BitVec.ofInt 64 (part insn 21 5) := by
    rw [e0]
    change (insn >>> 21) &&& 0x1f#64 = _
    rw [← part5 (i := insn) 21]
    apply BitVec.eq_of_toNat_eq
    rw [toNat_ofInt64]
    have := ((insn >>> 21) &&& 0x1f#64).isLt
    omega
  obtain ⟨w, e, h, he⟩ := legal_row ho hR (i := o.without insn) (d := dialect)
  rw [hv]
  have hw : w = insn := by
    rw [← hv, e0] at h
    simp only [Operand.insert, insertBo, Option.some.injEq, Prod.mk.injEq] at h
    rw [← h.1]
    change (_ ||| ((((insn >>> 21) &&& 0x1f#64) &&& 0x1f#64) <<< 21)) = insn
    unfold Operand.without
    rw [← e0, hf, and_and_mask]
    exact left_back (m := 0x1f#64) (n := 21)
  have hp1 : part (o.without insn) 26 6 = part insn 26 6 := by
    unfold Operand.without
    rw [hf, ← part_eq 26 6 (by omega), ← part_eq 26 6 (by omega)]
    have : ((insn &&& ~~~0x3e00000#64) >>> 26) &&& 0x3f#64 = (insn >>> 26) &&& 0x3f#64 := by
      rw [show ~~~0x3e00000#64 = (0xfffffffffc1fffff#64 : W) by decide]
      exact lin_eq_all (i := insn) (v := 7#64) (by decide +kernel)
    exact congrArg (fun y : W => (y.toNat : Int)) this
  have hp2 : part (o.without insn) 10 1 = part insn 10 1 := by
    unfold Operand.without
    rw [hf, ← part_eq 10 1 (by omega), ← part_eq 10 1 (by omega)]
    have : ((insn &&& ~~~0x3e00000#64) >>> 10) &&& 0x1#64 = (insn >>> 10) &&& 0x1#64 := by
      rw [show ~~~0x3e00000#64 = (0xfffffffffc1fffff#64 : W) by decide]
      exact lin_eq_all (i := insn) (v := 7#64) (by decide +kernel)
    exact congrArg (fun y : W => (y.toNat : Int)) this
  refine ⟨e, by rw [h, hw], ?_⟩
  have hl : o.Legal (o.without insn) dialect (part insn 21 5) ↔ boOk dialect (part insn 21 5) ∧ boCounter (o.without insn) (part insn 21 5) := by
    unfold Operand.Legal
    rw [show o.ins = .bo by rw [e0]]
  rw [he, hl]
  unfold boCounter
  rw [hp1, hp2]

example : ∃ o ∈ operands, o.name = "BO" ∧ boOk 0x800#64 (part 0x4d820020#64 21 5) ∧ boCounter 0x4d820020#64 (part 0x4d820020#64 21 5) :=
  ⟨⟨"BO", 0x1f, some 21, .bo, .bo, 0⟩, by decide +kernel, rfl,
    .inl ⟨by unfold has; decide, "011at", by decide +kernel, by rw [show part 0x4d820020#64 21 5 = 12 by decide +kernel]; decide +kernel⟩,
    by unfold boCounter; decide +kernel⟩

/-- `bdnzctr` is recognised, and the assembler refuses it. -/
theorem C108_options_refuted : ∃ o ∈ operands, o.name = "BO" ∧ o.extract 0x4e000420#64 1#64 0 = (16#64, 0) ∧
    o.insert (o.without 0x4e000420#64) 16#64 1#64 = some (0x4e000420#64, true) :=
  ⟨⟨"BO", 0x1f, some 21, .bo, .bo, 0⟩, by decide +kernel, rfl, by decide +kernel, by decide +kernel⟩

/-- The prediction bit of a word is not in the value. -/
theorem C108_prediction_refuted : ∃ o ∈ operands, o.name = "BOE" ∧ o.extract 0x40210000#64 1#64 0 = (0#64, 0) ∧
    o.insert (o.without 0x40210000#64) 0#64 1#64 = some (0x40010000#64, false) :=
  ⟨⟨"BOE", 0x1e, some 21, .boe, .boe, 0⟩, by decide +kernel, rfl, by decide +kernel, by decide +kernel⟩

/-- `mtcrf` with one register comes back as `mtocrf` on Power4. -/
theorem C108_register_refuted : ∃ o ∈ operands, o.name = "FXM" ∧ o.extract 0x7c680120#64 0x800#64 0 = (0x80#64, 0) ∧
    o.insert (o.without 0x7c680120#64) 0x80#64 0x800#64 = some (0x7c780120#64, false) :=
  ⟨⟨"FXM", 0xff, some 12, .fxm, .fxm, 0⟩, by decide +kernel, rfl, by decide +kernel, by decide +kernel⟩

/-- `lswi` whose registers contain the base register is recognised, and the assembler refuses it. -/
theorem C108_count_refuted : ∃ o ∈ operands, o.name = "NBI" ∧ o.extract 0x7c6344aa#64 0#64 0 = (8#64, 0) ∧
    o.insert (o.without 0x7c6344aa#64) 8#64 0#64 = some (0x7c6344aa#64, true) :=
  ⟨⟨"NBI", 0x1f, some 11, .nbi, .nb, 0x20000⟩, by decide +kernel, rfl, by decide +kernel, by decide +kernel⟩

/-- Zero in the second byte comes back as zero in the first. -/
theorem C108_scaled_refuted : ∃ o ∈ operands, o.name = "SCLSCI8" ∧ o.extract 0x100#64 0#64 0 = (0#64, 0) ∧
    o.insert (o.without 0x100#64) 0#64 0#64 = some (0#64, false) :=
  ⟨⟨"SCLSCI8", 0xffffffff, none, .sci8, .sci8, 0⟩, by decide +kernel, rfl, by decide +kernel, by decide +kernel⟩

/-- Reading SPRG4 by its privileged number comes back as the number for users. -/
theorem C108_sprg_refuted : ∃ o ∈ operands, o.name = "SPRG" ∧ o.extract 0x7c7442a6#64 0x400#64 0 = (4#64, 0) ∧
    o.insert (o.without 0x7c7442a6#64) 4#64 0x400#64 = some (0x7c6442a6#64, false) :=
  ⟨⟨"SPRG", 0x1f, some 16, .sprg, .sprg, 0x80⟩, by decide +kernel, rfl, by decide +kernel, by decide +kernel⟩

end Opc
