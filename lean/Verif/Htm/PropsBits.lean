import Verif.Htm.Bits
/-!
C23: field extraction follows the bit numbering of the hardware.  `getMsbD n` is bit `n` counted from the most significant bit,
which is how the hardware numbers them.
-/
namespace Htm

theorem bits_getLsbD {v : BitVec 64} {a b : Nat} (hb : b < 64) (hab : a ≤ b) (i : Nat) :
    (bits v a b).getLsbD i = (decide (i ≤ b - a) && v.getMsbD (b - i)) := by
  unfold bits
  rw [BitVec.getLsbD_ushiftRight, BitVec.getLsbD_and, BitVec.getLsbD_shiftLeft, BitVec.getLsbD_not, BitVec.getLsbD_shiftLeft,
    BitVec.getLsbD_allOnes, BitVec.getMsbD]
  by_cases h : i ≤ b - a
  · have h1 : 63 - b + i < 64 := by omega
    have h2 : ¬ (63 - b + i < 63 - b) := by omega
    have h3 : 63 - b + i - (63 - b) = i := by omega
    have h4 : i < b - a + 1 := by omega
    have h5 : b - i < 64 := by omega
    have h6 : 64 - 1 - (b - i) = 63 - b + i := by omega
    simp only [h1, h2, h3, h4, h5, h6, h, decide_true, decide_false, Bool.not_true, Bool.not_false, Bool.true_and,
      Bool.and_true, Bool.and_false, Bool.false_and, show i < 64 from by omega]
  · have h3 : 63 - b + i - (63 - b) = i := by omega
    have h4 : ¬ i < b - a + 1 := by omega
    rw [h3]
    by_cases h5 : i < 64
    · simp [h, h4, h5, show i - (b - a + 1) < 64 from by omega]
    · simp [h, h5]

theorem bits32_getLsbD {v : BitVec 32} {a b : Nat} (hb : b < 32) (hab : a ≤ b) (i : Nat) :
    (bits32 v a b).getLsbD i = (decide (i ≤ b - a) && v.getMsbD (b - i)) := by
  unfold bits32
  rw [BitVec.getLsbD_ushiftRight, BitVec.getLsbD_and, BitVec.getLsbD_shiftLeft, BitVec.getLsbD_not, BitVec.getLsbD_shiftLeft,
    BitVec.getLsbD_allOnes, BitVec.getMsbD]
  by_cases h : i ≤ b - a
  · have h1 : 31 - b + i < 32 := by omega
    have h2 : ¬ (31 - b + i < 31 - b) := by omega
    have h3 : 31 - b + i - (31 - b) = i := by omega
    have h4 : i < b - a + 1 := by omega
    have h5 : b - i < 32 := by omega
    have h6 : 32 - 1 - (b - i) = 31 - b + i := by omega
    simp only [h1, h2, h3, h4, h5, h6, h, decide_true, decide_false, Bool.not_true, Bool.not_false, Bool.true_and,
      Bool.and_true, Bool.and_false, Bool.false_and, show i < 32 from by omega]
  · have h3 : 31 - b + i - (31 - b) = i := by omega
    have h4 : ¬ i < b - a + 1 := by omega
    rw [h3]
    by_cases h5 : i < 32
    · simp [h, h4, h5, show i - (b - a + 1) < 32 from by omega]
    · simp [h, h5]

/-- The value of a field. -/
theorem bits_toNat {v : BitVec 64} {a b : Nat} (hb : b < 64) (hab : a ≤ b) :
    (bits v a b).toNat = v.toNat / 2 ^ (63 - b) % 2 ^ (b - a + 1) := by
  apply Nat.eq_of_testBit_eq
  intro i
  rw [BitVec.testBit_toNat, bits_getLsbD hb hab, Nat.testBit_mod_two_pow, Nat.testBit_div_two_pow, BitVec.testBit_toNat,
    BitVec.getMsbD]
  by_cases h : i ≤ b - a
  · have h6 : 64 - 1 - (b - i) = i + (63 - b) := by omega
    simp [h, h6, show i < b - a + 1 from by omega, show b - i < 64 from by omega]
  · simp [h, show ¬ i < b - a + 1 from by omega]

theorem bits32_toNat {v : BitVec 32} {a b : Nat} (hb : b < 32) (hab : a ≤ b) :
    (bits32 v a b).toNat = v.toNat / 2 ^ (31 - b) % 2 ^ (b - a + 1) := by
  apply Nat.eq_of_testBit_eq
  intro i
  rw [BitVec.testBit_toNat, bits32_getLsbD hb hab, Nat.testBit_mod_two_pow, Nat.testBit_div_two_pow, BitVec.testBit_toNat,
    BitVec.getMsbD]
  by_cases h : i ≤ b - a
  · have h6 : 32 - 1 - (b - i) = i + (31 - b) := by omega
    simp [h, h6, show i < b - a + 1 from by omega, show b - i < 32 from by omega]
  · simp [h, show ¬ i < b - a + 1 from by omega]

theorem bit_eq {v : BitVec 64} {n : Nat} (hn : n < 64) : bit v n = v.getMsbD n := by
  unfold bit
  have h := bits_getLsbD (v := v) hn (Nat.le_refl n)
  have h1 : bits v n n = (BitVec.ofBool (v.getMsbD n)).setWidth 64 := by
    apply BitVec.eq_of_getLsbD_eq
    intro i hi
    rw [h, BitVec.getLsbD_setWidth]
    cases i with
    | zero => simp
    | succ i => simp
  rw [h1]
  cases v.getMsbD n <;> rfl

/-- A field of fewer than 64 bits that lies in the word is extracted: its bit 0 is hardware bit `b`, its bit `b - a` is
hardware bit `a`, and all higher bits are zero.  It fits 32 bits if it has at most 32. -/
theorem C23_field_partial (v : BitVec 64) {a b : Nat} (hb : b < 64) (hab : a ≤ b) (hn : b - a < 63) :
    ∃ f, bitsC v a b = .ok f ∧ (∀ i, i ≤ b - a → f.getLsbD i = v.getMsbD (b - i)) ∧ (∀ i, b - a < i → f.getLsbD i = false) ∧
      f.toNat = v.toNat / 2 ^ (63 - b) % 2 ^ (b - a + 1) ∧ (b - a < 32 → uint32C f = .ok (f.setWidth 32)) := by
  refine ⟨bits v a b, ?_, ?_, ?_, bits_toNat hb hab, ?_⟩
  · unfold bitsC
    rw [if_neg (by omega), if_neg (by omega), if_neg (by omega), if_neg (by omega)]
    rfl
  · intro i hi; rw [bits_getLsbD hb hab]; simp [hi]
  · intro i hi; rw [bits_getLsbD hb hab]; simp [show ¬ i ≤ b - a from by omega]
  · intro h
    unfold uint32C
    rw [if_pos]
    rw [BitVec.le_def, bits_toNat hb hab]
    have h1 : v.toNat / 2 ^ (63 - b) % 2 ^ (b - a + 1) < 2 ^ (b - a + 1) := Nat.mod_lt _ (Nat.two_pow_pos _)
    have h2 : 2 ^ (b - a + 1) ≤ 2 ^ 32 := Nat.pow_le_pow_right (by omega) (by omega)
    have h3 : (0xffffffff#64).toNat = 2 ^ 32 - 1 := by decide
    omega

/-- The same for the fields of 32-bit words. -/
theorem C23_field32_partial (v : BitVec 32) {a b : Nat} (hb : b < 32) (hab : a ≤ b) (hn : b - a < 31) :
    ∃ f, bits32C v a b = .ok f ∧ (∀ i, i ≤ b - a → f.getLsbD i = v.getMsbD (b - i)) ∧ (∀ i, b - a < i → f.getLsbD i = false) ∧
      f.toNat = v.toNat / 2 ^ (31 - b) % 2 ^ (b - a + 1) := by
  refine ⟨bits32 v a b, ?_, ?_, ?_, bits32_toNat hb hab⟩
  · unfold bits32C
    rw [if_neg (by omega), if_neg (by omega), if_neg (by omega), if_neg (by omega)]
    rfl
  · intro i hi; rw [bits32_getLsbD hb hab]; simp [hi]
  · intro i hi; rw [bits32_getLsbD hb hab]; simp [show ¬ i ≤ b - a from by omega]

/-- A single bit. -/
theorem C23_bit (v : BitVec 64) {n : Nat} (hn : n < 64) : bitC v n = .ok (v.getMsbD n) := by
  obtain ⟨f, h1, -, -, -, h5⟩ := C23_field_partial v hn (Nat.le_refl n) (by omega)
  have hf : f = bits v n n := by
    unfold bitsC at h1
    rw [if_neg (by omega), if_neg (by omega), if_neg (by omega), if_neg (by omega)] at h1
    injection h1 with h1
    exact h1.symm
  unfold bitC
  rw [h1]
  simp only
  rw [h5 (by omega), ← bit_eq hn, hf]
  simp only
  congr 1
  have h := bits_getLsbD (v := v) hn (Nat.le_refl n)
  have h1 : bits v n n = (BitVec.ofBool (v.getMsbD n)).setWidth 64 := by
    apply BitVec.eq_of_getLsbD_eq
    intro i hi
    rw [h, BitVec.getLsbD_setWidth]
    cases i with
    | zero => simp
    | succ i => simp
  unfold bit
  rw [h1]
  cases v.getMsbD n <;> rfl

/-- Bits 0 to 63, the whole word, is the one range inside the word that is not supported: the shift is undefined. -/
theorem C23_whole_refuted (v : BitVec 64) (w : BitVec 32) : bitsC v 0 63 = .error .undefined ∧ bits32C w 0 31 = .error .undefined :=
  ⟨rfl, rfl⟩

/-- A range that is not inside the word fails an assertion. -/
theorem C23_outside (v : BitVec 64) {a b : Int} (h : ¬ (0 ≤ a ∧ a ≤ b ∧ b ≤ 63)) : bitsC v a b = .error .assert := by
  unfold bitsC
  split
  · rfl
  · split
    · rfl
    · split
      · rfl
      · omega

example : bitsC 0xACEFF81234567890#64 20 27 = .ok 0x81#64 := by rfl
example : bitC 0x8000000000000001#64 0 = .ok true ∧ bitC 0x8000000000000001#64 1 = .ok false := ⟨rfl, rfl⟩

end Htm
