import Verif.Opc.PropsWord
import Verif.Opc.PropsRegisters

/-! C112: the operands of every instruction come back, also where the word does not. -/
namespace Opc

variable {e : Opcode} {dialect insn w D : W} {o : Operand}

/-- mtcrf, ppc-opc.c (XFXM(31,144,0,0), XFXFXM_MASK). -/
def mtcrf : Opcode := ⟨"mtcrf", 0x7c000120, 0xfc100fff, 0x23, 0x0, [54, 86]⟩

/-- Beside a scaled immediate there are only registers and a condition register. -/
def Opcode.scaled (c : Nat) (e : Opcode) : Bool :=
  !e.operands.any (fun k => Nat.beq k c) ||
    (e.operands.all (fun k => Nat.beq k 30 || Nat.beq k 74 || Nat.beq k 86 || Nat.beq k c) && Nat.beq (0x7ff &&& e.mask) 0 && Nat.beq (0x7ff &&& e.rest) 0)

/-- A check of the tables: what stands beside the operands that are not always kept. -/
def Opcode.beside (e : Opcode) : Bool :=
  e.scaled 94 && e.scaled 95 &&
  (!e.operands.any (fun k => Nat.beq k 111) ||
    (e.operands.all (fun k => Nat.beq k 86 || Nat.beq k 111) && Nat.beq (0x100000 &&& e.mask) 0 && Nat.beq (0x100000 &&& e.rest) 0)) &&
  (!e.operands.any (fun k => Nat.beq k 54 || Nat.beq k 55) || e == mtcrf || (Nat.beq (e.mask &&& 0x100000) 0x100000 && Nat.beq (e.opcode &&& 0x100000) 0x100000) ||
    (Nat.beq (e.mask &&& 0x7fe) 0x7fe && Nat.beq (e.opcode &&& 0x7fe) 0x26))

theorem beside_check : (mainTable ++ vleTable ++ spe2Table).all (fun c => c.all Opcode.beside) = true := by decide +kernel

theorem beside_entry (he : e ∈ entries) : e.beside = true := by
  unfold entries at he
  simp only [List.mem_append, List.mem_flatten] at he
  rcases he with (⟨c, hc, he⟩ | ⟨c, hc, he⟩) | ⟨c, hc, he⟩
  all_goals exact List.all_eq_true.mp (List.all_eq_true.mp beside_check c (by simp [hc])) e he

theorem scaled_codes : ∀ k : Fin 185, (operandAt k).name = "SCLSCI8" ∨ (operandAt k).name = "SCLSCI8N" → (k : Nat) = 94 ∨ (k : Nat) = 95 := by decide +kernel
theorem sprg_codes : ∀ k : Fin 185, (operandAt k).name = "SPRG" → Nat.beq k 111 = true := by decide +kernel
theorem mask_codes : ∀ k : Fin 185, (operandAt k).name = "FXM" ∨ (operandAt k).name = "FXM4" → (Nat.beq k 54 || Nat.beq k 55) = true := by decide +kernel

/-- Words that agree but for bits that are neither fixed nor open. -/
theorem reword (hm : e.matches insn) (hw : insn.toNat < 2 ^ 32) (h : w &&& ~~~D = insn &&& ~~~D) (h1 : D &&& BitVec.ofNat 64 e.mask = 0#64) (h2 : D &&& e.open = 0#64)
    (h3 : D >>> 32 = 0#64) : e.matches w ∧ w.toNat < 2 ^ 32 ∧ w &&& e.open = insn &&& e.open := by
  have apart : ∀ m : W, D &&& m = 0#64 → ~~~D &&& m = m := by
    intro m h
    apply BitVec.eq_of_getLsbD_eq
    intro k hk
    have e' := congrArg (fun w : W => w.getLsbD k) h
    simp only [BitVec.getLsbD_and, BitVec.getLsbD_not, hk, decide_true, Bool.true_and, BitVec.getLsbD_zero] at e' ⊢
    revert e'
    generalize D.getLsbD k = a
    generalize m.getLsbD k = b
    revert a b; decide
  refine ⟨?_, ?_, look_mask h (apart _ h2)⟩
  · unfold Opcode.matches at hm ⊢
    rw [← hm]
    exact look_mask h (apart _ h1)
  · have e1 : w >>> 32 = insn >>> 32 := by
      apply BitVec.eq_of_getLsbD_eq
      intro k hk
      have e' := congrArg (fun w : W => w.getLsbD (32 + k)) h
      have e2 := congrArg (fun w : W => w.getLsbD k) h3
      simp only [BitVec.getLsbD_and, BitVec.getLsbD_not, BitVec.getLsbD_zero, BitVec.getLsbD_ushiftRight] at e' e2 ⊢
      rw [e2] at e'
      by_cases hk : 32 + k < 64
      · simpa [hk] using e'
      · rw [BitVec.getLsbD_of_ge _ _ (by omega), BitVec.getLsbD_of_ge _ _ (by omega)]
    have e2 := congrArg BitVec.toNat e1
    rw [BitVec.toNat_ushiftRight, BitVec.toNat_ushiftRight, Nat.shiftRight_eq_div_pow, Nat.shiftRight_eq_div_pow] at e2
    omega

/-- Operands that are one field of the word, apart from the bits that differ. -/
theorem null_same (ho : o.ext = .null) {s : Nat} (hsh : o.shift = some (s : Int)) (h : w &&& ~~~D = insn &&& ~~~D)
    (hn : (~~~D >>> s) &&& o.bitm = o.bitm) : o.extract w dialect 0 = o.extract insn dialect 0 := by
  unfold Operand.extract Operand.extractNull
  rw [ho, hsh]
  dsimp only
  have h0 : (0 : Int) ≤ (s : Int) := Int.natCast_nonneg s
  rw [if_pos h0, if_pos h0, Int.toNat_natCast, look_part h hn]

theorem row30 : operandAt 30 = ⟨"CRD32", 0x3, some 21, .null, .null, 64⟩ := by decide +kernel
theorem row54 : operandAt 54 = ⟨"FXM", 0xff, some 12, .fxm, .fxm, 0⟩ := by decide +kernel
theorem row74 : operandAt 74 = ⟨"RA", 0x1f, some 16, .null, .null, 1⟩ := by decide +kernel
theorem row86 : operandAt 86 = ⟨"RS", 0x1f, some 21, .null, .null, 1⟩ := by decide +kernel
theorem name94 : (operandAt 94).name = "SCLSCI8" := by decide +kernel
theorem name95 : (operandAt 95).name = "SCLSCI8N" := by decide +kernel
theorem name111 : (operandAt 111).name = "SPRG" := by decide +kernel

/-- The word is put together as another one with the same operands. -/
theorem same_word (he : e ∈ entries) (hm : e.matches insn) (hw : insn.toNat < 2 ^ 32) (hv : ∀ o ∈ e.args, (o.extract insn dialect 0).2 = 0)
    (h : w &&& ~~~D = insn &&& ~~~D) (h1 : D &&& BitVec.ofNat 64 e.mask = 0#64) (h2 : D &&& e.open = 0#64) (h3 : D >>> 32 = 0#64)
    (hx : ∀ o ∈ e.args, o.extract w dialect 0 = o.extract insn dialect 0) (hk : ∀ o ∈ e.args, o.Kept w dialect)
    (hq : ∀ o ∈ e.args, o.Quiet insn dialect ∧ o.Quiet w dialect) :
    ∃ w error, fill dialect (BitVec.ofNat 64 e.opcode ||| (insn &&& e.open)) (e.taken dialect insn) = some (w, error) ∧
      (error = true ↔ ∃ o ∈ e.args, ¬o.Quiet insn dialect) ∧ w.toNat < 2 ^ 32 ∧ ∀ o ∈ e.args, o.extract w dialect 0 = o.extract insn dialect 0 := by
  obtain ⟨k1, k2, k3⟩ := reword hm hw h h1 h2 h3
  obtain ⟨er, j1, j2⟩ := C112_word_partial he k1 k2 (fun o ho => by rw [hx o ho]; exact hv o ho) hk
  rw [k3] at j1
  have ht : e.taken dialect w = e.taken dialect insn := by
    unfold Opcode.taken
    exact List.map_congr_left fun o ho => by rw [hx o ho]
  rw [ht] at j1
  refine ⟨w, er, j1, j2.trans ⟨fun ⟨o, ho, q⟩ => absurd (hq o ho).2 q, fun ⟨o, ho, q⟩ => absurd (hq o ho).1 q⟩, k2, hx⟩

theorem arg_code (he : e ∈ entries) (ho : o ∈ e.args) : ∃ k ∈ e.operands, k < 185 ∧ operandAt k = o := by
  unfold Opcode.args at ho
  obtain ⟨k, hk, rfl⟩ := List.mem_map.mp ho
  exact ⟨k, hk, codes_entry he k hk, rfl⟩

theorem same_scaled (he : e ∈ entries) (hm : e.matches insn) (hw : insn.toNat < 2 ^ 32) (hv : ∀ o ∈ e.args, (o.extract insn dialect 0).2 = 0)
    (ho : o ∈ e.args) (hn : o.name = "SCLSCI8" ∨ o.name = "SCLSCI8N") :
    ∃ w error, fill dialect (BitVec.ofNat 64 e.opcode ||| (insn &&& e.open)) (e.taken dialect insn) = some (w, error) ∧
      (error = true ↔ ∃ o ∈ e.args, ¬o.Quiet insn dialect) ∧ w.toNat < 2 ^ 32 ∧ ∀ o ∈ e.args, o.extract w dialect 0 = o.extract insn dialect 0 := by
  have hop := arg_mem he ho
  obtain ⟨c, hc1, hc2, rfl⟩ := arg_code he ho
  have hb := beside_entry he
  unfold Opcode.beside at hb
  simp only [Bool.and_eq_true] at hb
  have hb : e.scaled c = true := by
    rcases scaled_codes ⟨c, hc2⟩ hn with h | h
    · rw [show c = 94 from h]; exact hb.1.1.1
    · rw [show c = 95 from h]; exact hb.1.1.2
  unfold Opcode.scaled at hb
  rw [show e.operands.any (fun k => Nat.beq k c) = true from List.any_eq_true.mpr ⟨c, hc1, Nat.beq_refl c⟩] at hb
  simp only [Bool.not_true, Bool.false_or, Bool.and_eq_true, List.all_eq_true, Bool.or_eq_true] at hb
  obtain ⟨⟨b1, b2⟩, b3⟩ := hb
  obtain ⟨w, w1, w2, w3, -⟩ := C108_scaled_partial (insn := insn) (dialect := dialect) hop hn
  have names : ∀ o ∈ e.args, o = operandAt 30 ∨ o = operandAt 74 ∨ o = operandAt 86 ∨ o = operandAt c := by
    intro o ho
    obtain ⟨k, hk1, -, rfl⟩ := arg_code he ho
    rcases b1 k hk1 with ((h | h) | h) | h <;> rw [Nat.eq_of_beq_eq_true h] <;> simp
  have hkept : (operandAt c).Kept w dialect := by
    obtain ⟨w', v1, -, -, v4⟩ := C108_scaled_partial (insn := w) (dialect := dialect) hop hn
    have hwo : (operandAt c).without w = (operandAt c).without insn := by
      have hf : bits (operandAt c).field = 0x7ff#64 := by
        have : (operandAt c).field = [(0, 11)] := by
          unfold Operand.field
          rcases scaled_again_rows _ hop hn with h | h <;> rw [h.1]
        rw [this]; decide +kernel
      unfold Operand.without
      rw [hf]; exact w3
    rw [w2, hwo, w1] at v1
    have : w' = w := by injection v1 with v1; injection v1 with v1; exact v1.symm
    have k := v4.mp this
    unfold Operand.Kept
    rcases hn with h | h <;> rw [h] <;> exact k
  refine same_word he hm hw hv w3 (nat_apart b2) (by rw [open_eq he]; exact nat_apart b3) (by decide) ?_ ?_ ?_
  · intro o ho
    rcases names o ho with rfl | rfl | rfl | rfl
    · rw [row30]; exact null_same (s := 21) rfl rfl w3 (by decide)
    · rw [row74]; exact null_same (s := 16) rfl rfl w3 (by decide)
    · rw [row86]; exact null_same (s := 21) rfl rfl w3 (by decide)
    · exact w2
  · intro o ho
    rcases names o ho with rfl | rfl | rfl | rfl
    · rw [row30]; trivial
    · rw [row74]; trivial
    · rw [row86]; trivial
    · exact hkept
  · intro o ho
    rcases names o ho with rfl | rfl | rfl | rfl
    · rw [row30]; exact ⟨trivial, trivial⟩
    · rw [row74]; exact ⟨trivial, trivial⟩
    · rw [row86]; exact ⟨trivial, trivial⟩
    · unfold Operand.Quiet
      rcases hn with h | h <;> rw [h] <;> exact ⟨trivial, trivial⟩

theorem without_bit (w : W) : (w &&& ~~~0x100000#64) &&& ~~~0x100000#64 = w &&& ~~~0x100000#64 := by
  rw [BitVec.and_assoc, BitVec.and_self]

/-- The numbers 20 to 23 and 4 to 7 read the same. -/
theorem sprg_bit : ∀ (x : Fin 32) (q : Bool), x.val / 4 = 5 →
    ((BitVec.ofNat 64 x &&& 0xf#64) &&& 7#64 = BitVec.ofNat 64 x &&& 7#64) ∧
    (((3 < ((BitVec.ofNat 64 x &&& 0xf#64) - 0x10#64).toNat ∧ q = true) ∨ (BitVec.ofNat 64 x &&& 0xf#64).toNat ≤ 3 ∨ (BitVec.ofNat 64 x &&& 0xf#64) &&& 8#64 ≠ 0#64) ↔
      ((3 < (BitVec.ofNat 64 x - 0x10#64).toNat ∧ q = true) ∨ (BitVec.ofNat 64 x).toNat ≤ 3 ∨ BitVec.ofNat 64 x &&& 8#64 ≠ 0#64)) ∧
    (BitVec.ofNat 64 x &&& 0xf#64).toNat / 4 = 1 := by decide +kernel

theorem same_sprg (he : e ∈ entries) (hm : e.matches insn) (hw : insn.toNat < 2 ^ 32) (hv : ∀ o ∈ e.args, (o.extract insn dialect 0).2 = 0)
    (ho : o ∈ e.args) (hn : o.name = "SPRG") (hx : part insn 8 1 = 0 ∧ part insn 18 3 = 5) :
    ∃ w error, fill dialect (BitVec.ofNat 64 e.opcode ||| (insn &&& e.open)) (e.taken dialect insn) = some (w, error) ∧
      (error = true ↔ ∃ o ∈ e.args, ¬o.Quiet insn dialect) ∧ w.toNat < 2 ^ 32 ∧ ∀ o ∈ e.args, o.extract w dialect 0 = o.extract insn dialect 0 := by
  have hop := arg_mem he ho
  have hb := beside_entry he
  unfold Opcode.beside at hb
  simp only [Bool.and_eq_true] at hb
  have hb := hb.1.2
  obtain ⟨c, hc1, hc2, hc3⟩ := arg_code he ho
  rw [show e.operands.any (fun k => Nat.beq k 111) = true from List.any_eq_true.mpr ⟨c, hc1, sprg_codes ⟨c, hc2⟩ (by rw [hc3]; exact hn)⟩] at hb
  simp only [Bool.not_true, Bool.false_or, Bool.and_eq_true, List.all_eq_true, Bool.or_eq_true] at hb
  obtain ⟨⟨b1, b2⟩, b3⟩ := hb
  have names : ∀ o ∈ e.args, o = operandAt 86 ∨ o = ⟨"SPRG", 0x1f, some 16, .sprg, .sprg, 0x80⟩ := by
    intro o ho
    obtain ⟨k, hk1, -, rfl⟩ := arg_code he ho
    rcases b1 k hk1 with h | h <;> rw [Nat.eq_of_beq_eq_true h]
    · simp
    · right; decide +kernel
  have w3 := without_bit insn
  obtain ⟨x, hx1, hx2⟩ := field5 insn 16
  have hs : ((insn &&& ~~~0x100000#64) >>> 16) &&& 0x1f#64 = BitVec.ofNat 64 x &&& 0xf#64 := by
    rw [← hx1, show ~~~0x100000#64 = (0xffffffffffefffff#64 : W) by decide]
    exact lin_eq_all (i := insn) (v := 7#64) (by decide +kernel)
  have h8 : (insn &&& ~~~0x100000#64) &&& 0x100#64 = insn &&& 0x100#64 := by
    rw [show ~~~0x100000#64 = (0xffffffffffefffff#64 : W) by decide]
    exact lin_eq_all (i := insn) (v := 7#64) (by decide +kernel)
  have h80 : insn &&& 0x100#64 = 0#64 := (bit8 insn).mpr hx.1
  have h5 : x.val / 4 = 5 := by
    have h3 : part insn 18 3 = part insn 16 5 / 4 := by
      have : ((insn.toNat / 2 ^ 18 % 2 ^ 3 : Nat) : Int) = (insn.toNat / 2 ^ 16 % 2 ^ 5 : Nat) / 4 := by omega
      exact this
    have := hx.2
    omega
  obtain ⟨s1, s2, s3⟩ := sprg_bit x (decide (dialect &&& allow8Sprg = 0#64)) h5
  simp only [decide_eq_true_eq] at s2
  refine same_word he hm hw hv w3 (nat_apart b2) (by rw [open_eq he]; exact nat_apart b3) (by decide) ?_ ?_ ?_
  · intro o ho
    rcases names o ho with rfl | rfl
    · rw [row86]; exact null_same (s := 21) rfl rfl w3 (by decide)
    · change extractSprg (insn &&& ~~~0x100000#64) dialect 0 = extractSprg insn dialect 0
      unfold extractSprg
      simp only [hs, hx1, s1, h8, h80, ne_eq, not_true_eq_false, and_false, false_or]
      congr 1
      by_cases hc : (3 < (BitVec.ofNat 64 x - 0x10#64).toNat ∧ dialect &&& allow8Sprg = 0#64) ∨ (BitVec.ofNat 64 x).toNat ≤ 3 ∨ ¬BitVec.ofNat 64 x &&& 8#64 = 0#64
      · rw [if_pos hc, if_pos (s2.mpr hc)]
      · rw [if_neg hc, if_neg (fun h => hc (s2.mp h))]
  · intro o ho
    rcases names o ho with rfl | rfl
    · rw [row86]; trivial
    · change ¬(part (insn &&& ~~~0x100000#64) 8 1 = 0 ∧ part (insn &&& ~~~0x100000#64) 18 3 = 5)
      rintro ⟨-, h⟩
      have h3 : part (insn &&& ~~~0x100000#64) 18 3 = part (insn &&& ~~~0x100000#64) 16 5 / 4 := by
        generalize insn &&& ~~~0x100000#64 = y
        have : ((y.toNat / 2 ^ 18 % 2 ^ 3 : Nat) : Int) = (y.toNat / 2 ^ 16 % 2 ^ 5 : Nat) / 4 := by omega
        exact this
      have h4 : ((((insn &&& ~~~0x100000#64) >>> 16) &&& 0x1f#64).toNat : Int) = part (insn &&& ~~~0x100000#64) 16 5 := part_eq 16 5 (by omega)
      rw [hs] at h4
      omega
  · intro o ho
    rcases names o ho with rfl | rfl
    · rw [row86]; exact ⟨trivial, trivial⟩
    · exact ⟨trivial, trivial⟩

theorem mtcrf_open : mtcrf.open = 0#64 := by decide +kernel
theorem mtcrf_args : mtcrf.args = [operandAt 54, operandAt 86] := rfl
theorem mtcrf_only : (mainTable ++ vleTable ++ spe2Table).all (fun c => c.all fun e => !(e.name == "mtcrf") || e == mtcrf) = true := by decide +kernel

theorem mtcrf_unique (he : e ∈ entries) (hn : e.name = "mtcrf") : e = mtcrf := by
  have key : (!(e.name == "mtcrf") || e == mtcrf) = true := by
    unfold entries at he
    simp only [List.mem_append, List.mem_flatten] at he
    rcases he with (⟨c, hc, he⟩ | ⟨c, hc, he⟩) | ⟨c, hc, he⟩
    all_goals exact List.all_eq_true.mp (List.all_eq_true.mp mtcrf_only c (by simp [hc])) e he
  rw [hn] at key
  simpa using key

theorem not_mfcr (hm : mtcrf.matches insn) : isMfcr insn = false ∧ insn &&& (1#64 <<< 20) = 0#64 := by
  have h1 : insn &&& 0x7fe#64 = 0x120#64 := part_of_mask hm (n := 0x7fe#64) (by decide)
  have h2 : insn &&& 0x100000#64 = 0#64 := part_of_mask hm (n := 0x100000#64) (by decide)
  refine ⟨?_, h2⟩
  unfold isMfcr
  rw [show (0x3ff#64 <<< 1 : W) = 0x7fe#64 by decide, h1]
  decide

theorem same_mtcrf (hm : mtcrf.matches insn) (hv : ∀ o ∈ mtcrf.args, (o.extract insn dialect 0).2 = 0) :
    ∃ w error, fill dialect (BitVec.ofNat 64 mtcrf.opcode ||| (insn &&& mtcrf.open)) (mtcrf.taken dialect insn) = some (w, error) ∧
      (error = true ↔ ∃ o ∈ mtcrf.args, ¬o.Quiet insn dialect) ∧ w.toNat < 2 ^ 32 ∧ ∀ o ∈ mtcrf.args, o.extract w dialect 0 = o.extract insn dialect 0 := by
  rw [mtcrf_open, BitVec.and_zero, BitVec.or_zero]
  have small : ∀ (s b : Nat), b < 32 → 0 ≤ (((insn >>> s) &&& BitVec.ofNat 64 (2 ^ b - 1)).toInt) ∧ ((insn >>> s) &&& BitVec.ofNat 64 (2 ^ b - 1)).toInt < (2 ^ b : Nat) := by
    intro s b hb
    have hl := and_low (insn >>> s) (t := b) (by omega)
    have : 2 ^ b ≤ 2 ^ 31 := Nat.pow_le_pow_right (by omega) (by omega)
    have hp : 0 < 2 ^ b := Nat.pos_of_ne_zero (by simp)
    have hlt := Nat.mod_lt ((insn >>> s).toNat) hp
    rw [BitVec.toInt_eq_toNat_of_lt (by omega)]
    omega
  have e1 : ((operandAt 54).extract insn dialect 0).1 = (insn >>> 12) &&& 0xff#64 := by
    obtain ⟨m1, m2⟩ := not_mfcr hm
    rw [row54]
    change (extractFxm insn dialect 0).1 = _
    unfold extractFxm
    rw [if_neg (by omega), if_neg (by simpa using m2), if_neg (by simp [m1])]
  have e2 : ((operandAt 86).extract insn dialect 0).1 = (insn >>> 21) &&& 0x1f#64 := by
    rw [row86]; rfl
  obtain ⟨e, he, e', -, hn, -, -, -, w, h1, h2, -, -, h3⟩ := C109_mtcrf_partial (dialect := dialect) (small 12 8 (by omega)) (small 21 5 (by omega))
  rw [mtcrf_unique he hn] at h1 h3
  have ht : mtcrf.args.zip [((insn >>> 12) &&& BitVec.ofNat 64 (2 ^ 8 - 1)).toInt, ((insn >>> 21) &&& BitVec.ofNat 64 (2 ^ 5 - 1)).toInt] = mtcrf.taken dialect insn := by
    unfold Opcode.taken
    rw [mtcrf_args, List.map_cons, List.map_cons, e1, e2]
    rfl
  rw [ht] at h1 h3
  refine ⟨w, false, h1, ?_, h2, ?_⟩
  · rw [mtcrf_args, row54, row86]
    constructor
    · intro h; cases h
    · rintro ⟨o, ho, hq⟩
      simp only [List.mem_cons, List.not_mem_nil, or_false] at ho
      rcases ho with rfl | rfl <;> exact absurd trivial hq
  · intro o ho
    have := h3 (o, (o.extract insn dialect 0).1.toInt) (List.mem_map.mpr ⟨o, ho, rfl⟩) 0 (by omega)
    rw [this, BitVec.ofInt_toInt]
    exact Prod.ext rfl (hv o ho).symm

theorem same_mask (he : e ∈ entries) (hm : e.matches insn) (hv : ∀ o ∈ e.args, (o.extract insn dialect 0).2 = 0)
    (ho : o ∈ e.args) (hn : o.name = "FXM" ∨ o.name = "FXM4") (hx : part insn 20 1 = 0 ∧ part insn 1 10 ≠ 19 ∧ single (part insn 12 8) ∧ has dialect 0x800#64) :
    ∃ w error, fill dialect (BitVec.ofNat 64 e.opcode ||| (insn &&& e.open)) (e.taken dialect insn) = some (w, error) ∧
      (error = true ↔ ∃ o ∈ e.args, ¬o.Quiet insn dialect) ∧ w.toNat < 2 ^ 32 ∧ ∀ o ∈ e.args, o.extract w dialect 0 = o.extract insn dialect 0 := by
  have hb := beside_entry he
  unfold Opcode.beside at hb
  simp only [Bool.and_eq_true] at hb
  have hb := hb.2
  obtain ⟨c, hc1, hc2, hc3⟩ := arg_code he ho
  rw [show e.operands.any (fun k => Nat.beq k 54 || Nat.beq k 55) = true from List.any_eq_true.mpr ⟨c, hc1, mask_codes ⟨c, hc2⟩ (by rw [hc3]; exact hn)⟩] at hb
  simp only [Bool.not_true, Bool.false_or, Bool.and_eq_true, Bool.or_eq_true] at hb
  rcases hb with (hb | ⟨b1, b2⟩) | ⟨b1, b2⟩
  · rw [show e = mtcrf by simpa using hb] at hm hv ⊢
    exact same_mtcrf hm hv
  · have m1 := nat_mask (Nat.eq_of_beq_eq_true b1)
    have m2 := nat_mask (Nat.eq_of_beq_eq_true b2)
    have := part_of_mask hm m1
    rw [m2] at this
    have h0 := (bit20 insn).mpr hx.1
    rw [show (1#64 <<< 20 : W) = 0x100000#64 by decide] at h0
    rw [h0] at this
    exact absurd this (by decide)
  · have m1 := nat_mask (Nat.eq_of_beq_eq_true b1)
    have m2 := nat_mask (Nat.eq_of_beq_eq_true b2)
    have := part_of_mask hm m1
    rw [m2] at this
    have h4 : (((insn >>> 1) &&& 0x3ff#64).toNat : Int) = part insn 1 10 := part_eq 1 10 (by omega)
    have h5 : (insn >>> 1) &&& 0x3ff#64 = (insn &&& 0x7fe#64) >>> 1 := lin_eq_all (i := insn) (v := 7#64) (by decide +kernel)
    rw [h5, show insn &&& 0x7fe#64 = 0x26#64 from this] at h4
    exact absurd h4.symm hx.2.1

/-- Every word of 32 bits that matches an entry and is recognised as one with its operands: the extracted values, put into the opcode with the open bits of the word, give
a word from which every operand is extracted with the same value and without complaint.  There is an error message exactly when one of the operands is not legal. -/
theorem C112_operands_partial (he : e ∈ entries) (hm : e.matches insn) (hw : insn.toNat < 2 ^ 32) (hv : ∀ o ∈ e.args, (o.extract insn dialect 0).2 = 0) :
    ∃ w error, fill dialect (BitVec.ofNat 64 e.opcode ||| (insn &&& e.open)) (e.taken dialect insn) = some (w, error) ∧
      (error = true ↔ ∃ o ∈ e.args, ¬o.Quiet insn dialect) ∧ w.toNat < 2 ^ 32 ∧ ∀ o ∈ e.args, o.extract w dialect 0 = o.extract insn dialect 0 := by
  by_cases hk : ∀ o ∈ e.args, o.Kept insn dialect
  · obtain ⟨er, h1, h2⟩ := C112_word_partial he hm hw hv hk
    exact ⟨insn, er, h1, h2, hw, fun _ _ => rfl⟩
  · obtain ⟨o, ho, hn⟩ : ∃ o ∈ e.args, ¬o.Kept insn dialect := Classical.byContradiction fun h => hk fun o ho => Classical.byContradiction fun k => h ⟨o, ho, k⟩
    unfold Operand.Kept at hn
    split at hn
    · next h => exact same_sprg he hm hw hv ho h (Classical.not_not.mp hn)
    · next h => exact same_mask he hm hv ho (Or.inl h) (Classical.not_not.mp hn)
    · next h => exact same_mask he hm hv ho (Or.inr h) (Classical.not_not.mp hn)
    · next h => exact same_scaled he hm hw hv ho (Or.inl h)
    · next h => exact same_scaled he hm hw hv ho (Or.inr h)
    · exact absurd trivial hn

/-- mtcrf of one register on Power4 gives another word with the same operands. -/
example : mtcrf ∈ entries ∧ mtcrf.matches 0x7c601120#64 ∧ (∀ o ∈ mtcrf.args, (o.extract 0x7c601120#64 0x800#64 0).2 = 0) ∧
    fill 0x800#64 (BitVec.ofNat 64 mtcrf.opcode) (mtcrf.taken 0x800#64 0x7c601120#64) = some (0x7c701120#64, false) ∧
    (∀ o ∈ mtcrf.args, o.extract 0x7c701120#64 0x800#64 0 = o.extract 0x7c601120#64 0x800#64 0) :=
  ⟨by decide +kernel, by unfold Opcode.matches; decide +kernel, by decide +kernel, by decide +kernel, by decide +kernel⟩

/-- e_addi r3,r4,0 with the immediate in the second byte is put together with it in the first. -/
example : ∃ e ∈ entries, e.name = "e_addi" ∧ e.matches 0x18648100#64 ∧ (∀ o ∈ e.args, (o.extract 0x18648100#64 0#64 0).2 = 0) ∧
    fill 0#64 (BitVec.ofNat 64 e.opcode) (e.taken 0#64 0x18648100#64) = some (0x18648000#64, false) :=
  ⟨⟨"e_addi", 402685952, 4227921920, 0x800000000, 0, [86, 74, 94]⟩, by decide +kernel, rfl, by unfold Opcode.matches; decide +kernel, by decide +kernel, by decide +kernel⟩

end Opc
