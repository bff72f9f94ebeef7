import Verif.Ptracer.StorageLemmas
import Verif.Ptracer.StepLemmas
import Verif.Ptracer.SpecStep

/-! # Lemmas relating the scan for breakpoints to the sequencing rules -/

namespace Ptr
open IsaMem IsaSeq

theorem band_mask {n : Nat} (x : BitVec n) {lo hi : Nat} (hlo : lo ≤ hi) (hhi : hi ≤ n) :
    (x &&& BitVec.ofNat n ((2 ^ (hi - lo) - 1) * 2 ^ lo)).toNat = x.toNat % 2 ^ hi / 2 ^ lo * 2 ^ lo := by
  apply Nat.eq_of_testBit_eq
  intro i
  rw [BitVec.testBit_toNat, BitVec.getLsbD_and, BitVec.getLsbD_ofNat, Nat.testBit_mul_two_pow, Nat.testBit_two_pow_sub_one,
    Nat.testBit_mul_two_pow, Nat.testBit_div_two_pow, Nat.testBit_mod_two_pow, BitVec.testBit_toNat]
  by_cases h1 : lo ≤ i
  · rw [show i - lo + lo = i from by omega]
    by_cases h2 : i < hi
    · simp [h1, h2, show i - lo < hi - lo from by omega, show i < n from by omega]
    · simp [h2, show ¬ i - lo < hi - lo from by omega]
  · simp [h1]

/-- A word masked by the primary opcode and the low eleven bits. -/
theorem mask11 (w : Word) : (w &&& 0xfc0007ff#32).toNat = w.toNat / 2 ^ 26 * 2 ^ 26 + w.toNat % 2 ^ 11 := by
  have e : (0xfc0007ff#32) = BitVec.ofNat 32 ((2 ^ (32 - 26) - 1) * 2 ^ 26) ||| BitVec.ofNat 32 ((2 ^ (11 - 0) - 1) * 2 ^ 0) := by
    decide
  rw [e, BitVec.and_or_distrib_left, BitVec.toNat_or, band_mask w (by omega) (by omega), band_mask w (by omega) (by omega)]
  have := w.isLt
  have hb : w.toNat % 2 ^ 11 / 2 ^ 0 * 2 ^ 0 < 2 ^ 26 := by omega
  rw [Nat.mod_eq_of_lt this, Nat.mul_comm (w.toNat / 2 ^ 26), ← Nat.two_pow_add_eq_or_of_lt hb]
  omega

theorem isStcx_iff (w : Word) : isStcx w = true ↔ StoreConditional w := by
  unfold isStcx StoreConditional
  simp only [Bool.or_eq_true, beq_iff_eq, ← BitVec.toNat_inj, mask11 w, List.mem_cons, List.not_mem_nil, or_false,
    BitVec.toNat_ofNat]
  have := w.isLt
  unfold bits
  omega

theorem isLarx_iff (w : Word) : isLarx w = true ↔ LoadReserve w := by
  have hm : (w &&& 0xfc0007fe#32).toNat = w.toNat / 2 ^ 26 * 2 ^ 26 + w.toNat % 2 ^ 11 / 2 * 2 := by
    have e : (0xfc0007fe#32) = BitVec.ofNat 32 ((2 ^ (32 - 26) - 1) * 2 ^ 26) ||| BitVec.ofNat 32 ((2 ^ (11 - 1) - 1) * 2 ^ 1) := by
      decide
    rw [e, BitVec.and_or_distrib_left, BitVec.toNat_or, band_mask w (by omega) (by omega), band_mask w (by omega) (by omega)]
    have := w.isLt
    have hb : w.toNat % 2 ^ 11 / 2 ^ 1 * 2 ^ 1 < 2 ^ 26 := by omega
    rw [Nat.mod_eq_of_lt this, Nat.mul_comm (w.toNat / 2 ^ 26), ← Nat.two_pow_add_eq_or_of_lt hb]
  unfold isLarx LoadReserve
  simp only [Bool.or_eq_true, beq_iff_eq, ← BitVec.toNat_inj, hm, List.mem_cons, List.not_mem_nil, or_false,
    BitVec.toNat_ofNat]
  have := w.isLt
  unfold bits
  omega

theorem isStcx_op {w : Word} (h : isStcx w = true) : bits w 0 6 = 31 := ((isStcx_iff w).1 h).1

theorem isBc_iff (w : Word) : isBc w = true ↔ bits w 0 6 = 16 := by
  unfold isBc
  have hm : (w &&& 0xfc000000#32).toNat = w.toNat % 2 ^ 32 / 2 ^ 26 * 2 ^ 26 := by
    have e : (0xfc000000#32) = BitVec.ofNat 32 ((2 ^ (32 - 26) - 1) * 2 ^ 26) := by decide
    rw [e, band_mask w (by omega) (by omega)]
  have := w.isLt
  rw [beq_iff_eq, ← BitVec.toNat_inj, hm]
  simp only [BitVec.toNat_ofNat]
  unfold bits
  omega

theorem signExtend_ofInt {z : Int} (h1 : -(2 ^ 31) ≤ z) (h2 : z < 2 ^ 31) :
    (BitVec.ofInt 32 z).signExtend 64 = BitVec.ofInt 64 z := by
  unfold BitVec.signExtend
  rw [BitVec.toInt_ofInt]
  congr 1
  unfold Int.bmod
  dsimp only
  split <;> omega

theorem imm_eq (w : Word) :
    (((w &&& 0xfffc#32) ^^^ 0x8000#32) - 0x8000#32).signExtend 64 = BitVec.ofInt 64 (signed 14 (bits w 16 14) * 4) := by
  have hv : (w &&& 0xfffc#32).toNat = bits w 16 14 * 4 := by
    have e : (0xfffc#32) = BitVec.ofNat 32 ((2 ^ (16 - 2) - 1) * 2 ^ 2) := by decide
    rw [e, band_mask w (by omega) (by omega)]
    unfold bits; omega
  have hb := bits_lt w 16 14
  have hx : ((w &&& 0xfffc#32) ^^^ 0x8000#32).toNat =
      if bits w 16 14 * 4 < 2 ^ 15 then bits w 16 14 * 4 + 2 ^ 15 else bits w 16 14 * 4 - 2 ^ 15 := by
    rw [BitVec.toNat_xor, hv]
    exact xor_sign (k := 15) (by omega)
  have hz : (((w &&& 0xfffc#32) ^^^ 0x8000#32) - 0x8000#32) = BitVec.ofInt 32 (signed 14 (bits w 16 14) * 4) := by
    apply BitVec.eq_of_toNat_eq
    rw [BitVec.toNat_sub, hx, BitVec.toNat_ofInt]
    simp only [BitVec.toNat_ofNat]
    unfold signed
    split <;> split <;> omega
  rw [hz]
  apply signExtend_ofInt <;> (unfold signed; split <;> omega)

theorem branchTarget_eq (w : Word) (a : Addr) : branchTarget w a = bcTarget w a := by
  unfold branchTarget bcTarget
  dsimp only
  rw [imm_eq]
  have hv : (w &&& 2#32).toNat = bits w 30 1 * 2 := by
    have e : (2#32) = BitVec.ofNat 32 ((2 ^ (2 - 1) - 1) * 2 ^ 1) := by decide
    rw [e, band_mask w (by omega) (by omega)]
    unfold bits; omega
  have hb := bits_lt w 30 1
  have hiff : (w &&& 2#32 ≠ 0#32) ↔ bits w 30 1 = 1 := by
    rw [Ne, ← BitVec.toNat_inj, hv]
    simp only [BitVec.toNat_ofNat]
    omega
  by_cases h : bits w 30 1 = 1
  · rw [if_pos (hiff.2 h), if_pos h]
  · rw [if_neg (fun x => h (hiff.1 x)), if_neg h, BitVec.ofInt_add]
    congr 1
    apply BitVec.eq_of_toNat_eq
    rw [BitVec.toNat_ofInt]
    have := a.isLt
    omega

theorem bcTarget_aligned (w : Word) {a : Addr} (h : a.toNat % 4 = 0) : (bcTarget w a).toNat % 4 = 0 := by
  unfold bcTarget
  dsimp only
  rw [BitVec.toNat_ofInt]
  split <;> omega

/-- What a successful scan says. -/
theorem scan_some {m : Mem} : ∀ {fuel : Nat} {p s : Addr} {b b' : List Addr}, scan m fuel p b = some (s, b') →
    ∃ k, k < fuel ∧ s = p + BitVec.ofNat 64 (4 * k) ∧ (∃ w, m s = some w ∧ isStcx w = true) ∧
      (∀ x ∈ b, x ∈ b') ∧
      ∀ j < k, ∃ w, m (p + BitVec.ofNat 64 (4 * j)) = some w ∧ isStcx w = false ∧
        (isBc w = true → branchTarget w (p + BitVec.ofNat 64 (4 * j)) ∈ b') := by
  intro fuel
  induction fuel with
  | zero => intro p s b b' h; cases h
  | succ n ih =>
    intro p s b b' h
    unfold scan at h
    split at h
    · cases h
    · next w hr =>
      have hw := readInsn_some hr
      have e0 : p + BitVec.ofNat 64 (4 * 0) = p := by simp
      have es : ∀ k, p + 4#64 + BitVec.ofNat 64 (4 * k) = p + BitVec.ofNat 64 (4 * (k + 1)) := by
        intro k
        rw [BitVec.add_assoc]
        congr 1
        rw [← BitVec.ofNat_add]
        congr 1; omega
      split at h
      · next hs =>
        injection h with h; injection h with h1 h2
        subst h1 h2
        exact ⟨0, by omega, by simp, ⟨w, hw, hs⟩, fun x hx => hx, fun j hj => absurd hj (by omega)⟩
      · next hs =>
        have hs : isStcx w = false := by simpa using hs
        split at h
        · next hb =>
          split at h
          · cases h
          · obtain ⟨k, h1, h2, h3, h4, h5⟩ := ih h
            refine ⟨k + 1, by omega, by rw [h2, es], h3, fun x hx => h4 x (List.mem_append_left _ hx), fun j hj => ?_⟩
            cases j with
            | zero =>
              rw [e0]
              exact ⟨w, hw, hs, fun _ => h4 _ (List.mem_append_right _ List.mem_cons_self)⟩
            | succ j => rw [← es]; exact h5 j (by omega)
        · next hb =>
          obtain ⟨k, h1, h2, h3, h4, h5⟩ := ih h
          refine ⟨k + 1, by omega, by rw [h2, es], h3, h4, fun j hj => ?_⟩
          cases j with
          | zero =>
            rw [e0]
            exact ⟨w, hw, hs, fun h => absurd h hb⟩
          | succ j => rw [← es]; exact h5 j (by omega)

end Ptr
