import Verif.Opc.PropsEntry

/-! C109 for the moves of condition registers, in all dialects. -/
namespace Opc

variable {dialect : W} {m r : Int}

theorem small_mask {n : Int} {b : Nat} (h0 : 0 ≤ n) (h1 : n < 2 ^ b) (hb : b ≤ 32) : BitVec.ofInt 64 n &&& ~~~BitVec.ofNat 64 (2 ^ b - 1) = 0#64 := by
  have p : (2 : Int) ^ b ≤ 2 ^ 32 := by
    have : (2 : Nat) ^ b ≤ 2 ^ 32 := Nat.pow_le_pow_right (by omega) hb
    exact_mod_cast this
  have e : (BitVec.ofInt 64 n).toNat = n.toNat := by rw [toNat_ofInt64]; omega
  have lt : n.toNat < 2 ^ b := by
    have : ((2 : Nat) ^ b : Int) = 2 ^ b := by exact_mod_cast rfl
    omega
  apply BitVec.eq_of_getLsbD_eq
  intro k hk
  rw [BitVec.getLsbD_and, BitVec.getLsbD_not, BitVec.getLsbD_ofNat, BitVec.getLsbD_zero, Nat.testBit_two_pow_sub_one]
  simp only [hk, decide_true, Bool.true_and]
  by_cases hkb : k < b
  · simp [hkb]
  · have : (BitVec.ofInt 64 n).getLsbD k = false := by
      change Nat.testBit (BitVec.ofInt 64 n).toNat k = false
      rw [e]
      exact Nat.testBit_lt_two_pow (Nat.lt_of_lt_of_le lt (Nat.pow_le_pow_right (by omega) (by omega)))
    simp [this]

theorem rs_extract (w d : W) (inv : Int) : (⟨"RS", 0x1f, some 21, .null, .null, 1⟩ : Operand).extract w d inv = ((w >>> 21) &&& 0x1f#64, inv) := by
  unfold Operand.extract Operand.extractNull
  have h1 : (⟨"RS", 0x1f, some 21, .null, .null, 1⟩ : Operand).signed = false := by decide
  simp only [h1]
  rfl

/-- `mtcrf` for all masks, registers and dialects: the word matches `mtcrf`, or `mtocrf` if the mask is one register and the dialect has Power4, there is no error message,
and mask and register are extracted again. -/
theorem C109_mtcrf_partial (hm : 0 ≤ m ∧ m < 256) (hr : 0 ≤ r ∧ r < 32) : ∃ e ∈ entries, ∃ e' ∈ entries, e.name = "mtcrf" ∧ e'.name = "mtocrf" ∧
    e.args.map (·.name) = ["FXM", "RS"] ∧ e'.args = e.args ∧
    ∃ w, fill dialect (BitVec.ofNat 64 e.opcode) (e.args.zip [m, r]) = some (w, false) ∧ w.toNat < 2 ^ 32 ∧
      (single m ∧ has dialect 0x800#64 → e'.matches w) ∧ (¬(single m ∧ has dialect 0x800#64) → e.matches w) ∧
      ∀ p ∈ e.args.zip [m, r], ∀ invalid : Int, 0 ≤ invalid → p.1.extract w dialect invalid = (BitVec.ofInt 64 p.2, invalid) := by
  refine ⟨⟨"mtcrf", 0x7c000120, 0xfc100fff, 0x23, 0x0, [54, 86]⟩, by decide +kernel, ⟨"mtocrf", 0x7c100120, 0xfc100fff, 0x23, 0x0, [54, 86]⟩, by decide +kernel,
    rfl, rfl, by decide +kernel, by decide +kernel, ?_⟩
  have ea : (⟨"mtcrf", 0x7c000120, 0xfc100fff, 0x23, 0x0, [54, 86]⟩ : Opcode).args =
      [⟨"FXM", 0xff, some 12, .fxm, .fxm, 0⟩, ⟨"RS", 0x1f, some 21, .null, .null, 1⟩] := by decide +kernel
  have hs := single_iff hm.1 hm.2
  have hx := small_mask (b := 8) hm.1 hm.2 (by decide)
  have hy := small_mask (b := 5) hr.1 hr.2 (by decide)
  have hx0 : 0 < (BitVec.ofInt 64 m).toInt ↔ BitVec.ofInt 64 m ≠ 0#64 := by
    have e1 : (BitVec.ofInt 64 m).toInt = m := by
      rw [BitVec.toInt_ofInt, Int.bmod_eq_of_le_mul_two] <;> omega
    have e2 : BitVec.ofInt 64 m = 0#64 ↔ m = 0 := by
      constructor
      · intro h; have := congrArg BitVec.toInt h; rw [e1] at this; simpa using this
      · intro h; rw [h]; rfl
    rw [e1, ne_eq, e2]; omega
  simp only [ea, List.zip_cons_cons, List.zip_nil_right, fill, Operand.insert, Operand.insertNull]
  generalize ex : BitVec.ofInt 64 m = x at *
  generalize ey : BitVec.ofInt 64 r = y at *
  have hx : x &&& ~~~0xff#64 = 0#64 := hx
  have hy : y &&& ~~~0x1f#64 = 0#64 := hy
  have n1 : ¬((0x7c000120#64 : W) &&& (1#64 <<< 20) ≠ 0#64) := by decide
  have n2 : isMfcr 0x7c000120#64 = false := by decide
  by_cases c : single m ∧ has dialect 0x800#64
  · have c1 : 0 < x.toInt ∧ x &&& -x = x ∧ (dialect &&& 0x800#64 ≠ 0#64 ∨ (dialect &&& 0x40#64 ≠ 0#64 ∧ isMfcr 0x7c000120#64)) := by
      have := mt hs.mp (fun h => h c.1)
      rw [not_or] at this
      exact ⟨hx0.mpr this.1, Classical.not_not.mp this.2, Or.inl c.2⟩
    have ei : insertFxm (BitVec.ofNat 64 0x7c000120) x dialect = some ((0x7c000120#64 ||| (1#64 <<< 20)) ||| ((x &&& 0xff#64) <<< 12), false) := by
      change insertFxm 0x7c000120#64 x dialect = _
      unfold insertFxm
      rw [if_neg n1, if_pos c1]
    obtain ⟨w, hw⟩ : ∃ w, w = ((0x7c000120#64 ||| (1#64 <<< 20)) ||| ((x &&& 0xff#64) <<< 12)) ||| ((y &&& 0x1f#64) <<< 21) := ⟨_, rfl⟩
    have w1 : w &&& 0xfc100fff#64 = 0x7c100120#64 := by subst hw; exact lin_eq_all (i := x) (v := y) (by decide +kernel)
    have w2 : w &&& ~~~0xffffffff#64 = 0#64 := by subst hw; exact lin_eq_all (i := x) (v := y) (by decide +kernel)
    have w3 : (w >>> 12) &&& 0xff#64 = x := by subst hw; exact lin_eq (i := y) (v := x) 0#64 0xff#64 (by decide +kernel) (by simp) hx
    have w4 : (w >>> 21) &&& 0x1f#64 = y := by subst hw; exact lin_eq (i := x) (v := y) 0#64 0x1f#64 (by decide +kernel) (by simp) hy
    have w5 : w &&& (1#64 <<< 20) = 0x100000#64 := by subst hw; exact lin_eq_all (i := x) (v := y) (by decide +kernel)
    refine ⟨w, ?_, low_of_high w2, fun _ => w1, fun h => absurd c h, ?_⟩
    · simp only [ei, Option.bind_eq_bind, Option.bind_some, hw]; rfl
    · intro p hp inv hinv
      simp only [List.mem_cons, List.not_mem_nil, or_false] at hp
      rcases hp with rfl | rfl
      · rw [ex]
        have := mt hs.mp (fun h => h c.1)
        change extractFxm w dialect inv = _
        unfold extractFxm
        simp only [w3, w5]
        rw [if_neg (by omega), if_pos (by decide), if_neg this]
      · rw [ey]
        exact (rs_extract w dialect inv).trans (by rw [w4])
  · have c1 : ¬(0 < x.toInt ∧ x &&& -x = x ∧ (dialect &&& 0x800#64 ≠ 0#64 ∨ (dialect &&& 0x40#64 ≠ 0#64 ∧ isMfcr 0x7c000120#64))) := by
      rintro ⟨h1, h2, h3⟩
      rcases h3 with h3 | h3
      · refine c ⟨Classical.byContradiction fun hc => ?_, h3⟩
        rcases hs.mpr hc with h | h
        · exact hx0.mp h1 h
        · exact h h2
      · rw [n2] at h3; exact absurd h3.2 (by decide)
    have ei : insertFxm (BitVec.ofNat 64 0x7c000120) x dialect = some (0x7c000120#64 ||| ((x &&& 0xff#64) <<< 12), false) := by
      change insertFxm 0x7c000120#64 x dialect = _
      unfold insertFxm
      rw [if_neg n1, if_neg c1, n2]; rfl
    obtain ⟨w, hw⟩ : ∃ w, w = (0x7c000120#64 ||| ((x &&& 0xff#64) <<< 12)) ||| ((y &&& 0x1f#64) <<< 21) := ⟨_, rfl⟩
    have w1 : w &&& 0xfc100fff#64 = 0x7c000120#64 := by subst hw; exact lin_eq_all (i := x) (v := y) (by decide +kernel)
    have w2 : w &&& ~~~0xffffffff#64 = 0#64 := by subst hw; exact lin_eq_all (i := x) (v := y) (by decide +kernel)
    have w3 : (w >>> 12) &&& 0xff#64 = x := by subst hw; exact lin_eq (i := y) (v := x) 0#64 0xff#64 (by decide +kernel) (by simp) hx
    have w4 : (w >>> 21) &&& 0x1f#64 = y := by subst hw; exact lin_eq (i := x) (v := y) 0#64 0x1f#64 (by decide +kernel) (by simp) hy
    have w5 : w &&& (1#64 <<< 20) = 0#64 := by subst hw; exact lin_eq_all (i := x) (v := y) (by decide +kernel)
    have w6 : w &&& (0x3ff#64 <<< 1) = 0x120#64 := by subst hw; exact lin_eq_all (i := x) (v := y) (by decide +kernel)
    refine ⟨w, ?_, low_of_high w2, fun h => absurd h c, fun _ => w1, ?_⟩
    · simp only [ei, Option.bind_eq_bind, Option.bind_some, hw]; rfl
    · intro p hp inv hinv
      simp only [List.mem_cons, List.not_mem_nil, or_false] at hp
      rcases hp with rfl | rfl
      · rw [ex]
        change extractFxm w dialect inv = _
        unfold extractFxm
        have nm : isMfcr w = false := by unfold isMfcr; rw [w6]; decide
        simp only [w3, w5, nm]
        rw [if_neg (by omega), if_neg (by decide), if_neg (by decide)]
      · rw [ey]
        exact (rs_extract w dialect inv).trans (by rw [w4])

/-- `mfcr` with a mask, for all registers and dialects: if the mask is one register and the dialect has Power4 or is "any", the word matches `mfocrf`, there is no
error message and mask and register are extracted again; otherwise there is an error message. -/
theorem C109_mfcr_partial (hm : 0 ≤ m ∧ m < 256) (hr : 0 ≤ r ∧ r < 32) : ∃ e ∈ entries, ∃ e' ∈ entries, e.name = "mfcr" ∧ e'.name = "mfocrf" ∧
    e.args.map (·.name) = ["RS", "FXM4"] ∧ e'.args.map (·.name) = ["RS", "FXM"] ∧
    ∃ w error, fill dialect (BitVec.ofNat 64 e.opcode) (e.args.zip [r, m]) = some (w, error) ∧ w.toNat < 2 ^ 32 ∧
      (error = true ↔ ¬(single m ∧ (has dialect 0x800#64 ∨ has dialect 0x40#64))) ∧ (error = true → e.matches w) ∧ (error = false → e'.matches w ∧
      ∀ p ∈ e'.args.zip [r, m], ∀ invalid : Int, 0 ≤ invalid → p.1.extract w dialect invalid = (BitVec.ofInt 64 p.2, invalid)) := by
  refine ⟨⟨"mfcr", 0x7c000026, 0xfc100fff, 0x23, 0x0, [86, 55]⟩, by decide +kernel, ⟨"mfocrf", 0x7c100026, 0xfc100fff, 0x23, 0x0, [86, 54]⟩, by decide +kernel,
    rfl, rfl, by decide +kernel, by decide +kernel, ?_⟩
  have ea : (⟨"mfcr", 0x7c000026, 0xfc100fff, 0x23, 0x0, [86, 55]⟩ : Opcode).args =
      [⟨"RS", 0x1f, some 21, .null, .null, 1⟩, ⟨"FXM4", 0xff, some 12, .fxm, .fxm, 0x80000⟩] := by decide +kernel
  have ea' : (⟨"mfocrf", 0x7c100026, 0xfc100fff, 0x23, 0x0, [86, 54]⟩ : Opcode).args =
      [⟨"RS", 0x1f, some 21, .null, .null, 1⟩, ⟨"FXM", 0xff, some 12, .fxm, .fxm, 0⟩] := by decide +kernel
  have hs := single_iff hm.1 hm.2
  have hx := small_mask (b := 8) hm.1 hm.2 (by decide)
  have hy := small_mask (b := 5) hr.1 hr.2 (by decide)
  have e1 : (BitVec.ofInt 64 m).toInt = m := by
    rw [BitVec.toInt_ofInt, Int.bmod_eq_of_le_mul_two] <;> omega
  have hx0 : 0 < (BitVec.ofInt 64 m).toInt ↔ BitVec.ofInt 64 m ≠ 0#64 := by
    have e2 : BitVec.ofInt 64 m = 0#64 ↔ m = 0 := by
      constructor
      · intro h; have := congrArg BitVec.toInt h; rw [e1] at this; simpa using this
      · intro h; rw [h]; rfl
    rw [e1, ne_eq, e2]; omega
  have hx1 : BitVec.ofInt 64 m ≠ -1#64 := by
    intro h
    have := congrArg BitVec.toInt h
    rw [e1] at this
    have e3 : (-1#64 : W).toInt = -1 := by decide
    omega
  simp only [ea, ea', List.zip_cons_cons, List.zip_nil_right, fill, Operand.insert, Operand.insertNull]
  generalize ex : BitVec.ofInt 64 m = x at *
  generalize ey : BitVec.ofInt 64 r = y at *
  have hx : x &&& ~~~0xff#64 = 0#64 := hx
  have hy : y &&& ~~~0x1f#64 = 0#64 := hy
  obtain ⟨i, hi⟩ : ∃ i, i = 0x7c000026#64 ||| ((y &&& 0x1f#64) <<< 21) := ⟨_, rfl⟩
  have i1 : i &&& (1#64 <<< 20) = 0#64 := by subst hi; exact lin_eq_all (i := x) (v := y) (by decide +kernel)
  have i2 : i &&& (0x3ff#64 <<< 1) = 0x26#64 := by subst hi; exact lin_eq_all (i := x) (v := y) (by decide +kernel)
  have n1 : ¬(i &&& (1#64 <<< 20) ≠ 0#64) := by rw [i1]; decide
  have n2 : isMfcr i = true := by unfold isMfcr; rw [i2]; decide
  have er : 2080374822#64 ||| (y &&& 31) <<< Int.toNat 21 = i := by rw [hi]; rfl
  by_cases c : single m ∧ (has dialect 0x800#64 ∨ has dialect 0x40#64)
  · have c1 : 0 < x.toInt ∧ x &&& -x = x ∧ (dialect &&& 0x800#64 ≠ 0#64 ∨ (dialect &&& 0x40#64 ≠ 0#64 ∧ isMfcr i)) := by
      have := mt hs.mp (fun h => h c.1)
      rw [not_or] at this
      refine ⟨hx0.mpr this.1, Classical.not_not.mp this.2, ?_⟩
      rcases c.2 with h | h
      · exact Or.inl h
      · exact Or.inr ⟨h, n2⟩
    have ei : insertFxm i x dialect = some ((i ||| (1#64 <<< 20)) ||| ((x &&& 0xff#64) <<< 12), false) := by
      unfold insertFxm
      rw [if_neg n1, if_pos c1]
    obtain ⟨w, hw⟩ : ∃ w, w = ((0x7c000026#64 ||| ((y &&& 0x1f#64) <<< 21)) ||| (1#64 <<< 20)) ||| ((x &&& 0xff#64) <<< 12) := ⟨_, rfl⟩
    have w1 : w &&& 0xfc100fff#64 = 0x7c100026#64 := by subst hw; exact lin_eq_all (i := x) (v := y) (by decide +kernel)
    have w2 : w &&& ~~~0xffffffff#64 = 0#64 := by subst hw; exact lin_eq_all (i := x) (v := y) (by decide +kernel)
    have w3 : (w >>> 12) &&& 0xff#64 = x := by subst hw; exact lin_eq (i := y) (v := x) 0#64 0xff#64 (by decide +kernel) (by simp) hx
    have w4 : (w >>> 21) &&& 0x1f#64 = y := by subst hw; exact lin_eq (i := x) (v := y) 0#64 0x1f#64 (by decide +kernel) (by simp) hy
    have w5 : w &&& (1#64 <<< 20) = 0x100000#64 := by subst hw; exact lin_eq_all (i := x) (v := y) (by decide +kernel)
    refine ⟨w, false, ?_, low_of_high w2, by simp [c], by simp, fun _ => ⟨w1, ?_⟩⟩
    · rw [hw, ← hi]
      rw [if_pos (by decide)]
      simp only [Option.bind_eq_bind, Option.bind_some, er, ei]; rfl
    · intro p hp inv hinv
      simp only [List.mem_cons, List.not_mem_nil, or_false] at hp
      rcases hp with rfl | rfl
      · rw [ey]
        exact (rs_extract w dialect inv).trans (by rw [w4])
      · rw [ex]
        have := mt hs.mp (fun h => h c.1)
        change extractFxm w dialect inv = _
        unfold extractFxm
        simp only [w3, w5]
        rw [if_neg (by omega), if_pos (by decide), if_neg this]
  · have c1 : ¬(0 < x.toInt ∧ x &&& -x = x ∧ (dialect &&& 0x800#64 ≠ 0#64 ∨ (dialect &&& 0x40#64 ≠ 0#64 ∧ isMfcr i))) := by
      rintro ⟨h1, h2, h3⟩
      refine c ⟨Classical.byContradiction fun hc => ?_, h3.imp id (·.1)⟩
      rcases hs.mpr hc with h | h
      · exact hx0.mp h1 h
      · exact h h2
    have ei : insertFxm i x dialect = some (i ||| ((0#64 &&& 0xff#64) <<< 12), true) := by
      unfold insertFxm
      rw [if_neg n1, if_neg c1, if_pos n2, decide_eq_true hx1]
    obtain ⟨w, hw⟩ : ∃ w, w = (0x7c000026#64 ||| ((y &&& 0x1f#64) <<< 21)) ||| ((0#64 &&& 0xff#64) <<< 12) := ⟨_, rfl⟩
    have w1 : w &&& 0xfc100fff#64 = 0x7c000026#64 := by subst hw; exact lin_eq_all (i := x) (v := y) (by decide +kernel)
    have w2 : w &&& ~~~0xffffffff#64 = 0#64 := by subst hw; exact lin_eq_all (i := x) (v := y) (by decide +kernel)
    refine ⟨w, true, ?_, low_of_high w2, by simp [c], fun _ => w1, by simp⟩
    rw [hw, ← hi]
    rw [if_pos (by decide)]
    simp only [Option.bind_eq_bind, Option.bind_some, er, ei]; rfl

/-- mtcrf 0x81,r3 and mfcr r3,2 on Power4 -/
example : ((0 : Int) ≤ 0x81 ∧ (0x81 : Int) < 256) ∧ ((0 : Int) ≤ 3 ∧ (3 : Int) < 32) ∧ single 2 ∧ has 0x800#64 0x800#64 :=
  ⟨by decide, by decide, ⟨1, rfl⟩, by unfold has; decide⟩

end Opc
