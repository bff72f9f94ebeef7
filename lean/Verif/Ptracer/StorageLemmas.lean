import Verif.Ptracer.Storage
import Verif.Ptracer.SpecStorage

/-! # Lemmas about the storage-operand model -/

namespace Ptr
open IsaMem

theorem mask_toNat {n l : Nat} (h : l < n) : ((1#n <<< l) - 1#n).toNat = 2 ^ l - 1 := by
  have h1 : 2 ^ l < 2 ^ n := Nat.pow_lt_pow_right (by omega) h
  have h2 : 1 ≤ 2 ^ l := Nat.one_le_two_pow
  have h3 : (1#n).toNat = 1 := by
    rw [BitVec.toNat_ofNat]; exact Nat.mod_eq_of_lt (by omega)
  have h4 : (1#n <<< l).toNat = 2 ^ l := by
    rw [BitVec.toNat_shiftLeft, h3, Nat.shiftLeft_eq, Nat.one_mul, Nat.mod_eq_of_lt h1]
  rw [BitVec.toNat_sub, h3, h4]
  have : 2 ^ n - 1 + 2 ^ l = 2 ^ l - 1 + 2 ^ n := by omega
  rw [this, Nat.add_mod_right, Nat.mod_eq_of_lt (by omega)]

theorem field_toNat (w : BitVec 32) (f l : Nat) (h : l < 32) : (field w f l).toNat = bits w f l := by
  unfold field bits
  rw [BitVec.toNat_and, mask_toNat h, Nat.and_two_pow_sub_one_eq_mod, BitVec.toNat_ushiftRight, Nat.shiftRight_eq_div_pow]

theorem ra_lt (w : BitVec 32) : ra w < 32 := by
  unfold ra; rw [field_toNat w 11 5 (by omega)]; exact Nat.mod_lt _ (by decide)

theorem rb_lt (w : BitVec 32) : rb w < 32 := by
  unfold rb; rw [field_toNat w 16 5 (by omega)]; exact Nat.mod_lt _ (by decide)

theorem xor_sign {k v : Nat} (hv : v < 2 ^ (k + 1)) :
    v ^^^ 2 ^ k = if v < 2 ^ k then v + 2 ^ k else v - 2 ^ k := by
  have hp : 2 ^ (k + 1) = 2 ^ k + 2 ^ k := by rw [Nat.pow_succ]; omega
  have key : ∀ r, r < 2 ^ k → r ^^^ 2 ^ k = 2 ^ k + r := by
    intro r hr
    rw [show 2 ^ k + r = 2 ^ k * 1 + r by omega, Nat.two_pow_add_eq_or_of_lt hr 1, Nat.mul_one]
    apply Nat.eq_of_testBit_eq
    intro i
    rw [Nat.testBit_xor, Nat.testBit_or, Nat.testBit_two_pow]
    by_cases hi : k = i
    · subst hi
      rw [Nat.testBit_lt_two_pow hr]; simp
    · simp [hi]
  split
  · next h => rw [key v h, Nat.add_comm]
  · next h =>
    have h1 := key (v - 2 ^ k) (by omega)
    have h2 : v = (v - 2 ^ k) ^^^ 2 ^ k := by rw [h1]; omega
    conv => lhs; rw [h2]
    rw [Nat.xor_assoc, Nat.xor_self, Nat.xor_zero]

theorem sext_ofInt {k v : Nat} (hk : k + 1 < 64) (hv : v < 2 ^ (k + 1)) :
    sext (BitVec.ofNat 64 v) (k + 1) = BitVec.ofInt 64 (signed (k + 1) v) := by
  have h1 : 2 ^ (k + 1) < 2 ^ 64 := Nat.pow_lt_pow_right (by omega) hk
  have hp : 2 ^ (k + 1) = 2 ^ k + 2 ^ k := by rw [Nat.pow_succ]; omega
  have hs : (1#64 <<< k) = BitVec.ofNat 64 (2 ^ k) := by
    apply BitVec.eq_of_toNat_eq
    rw [BitVec.toNat_shiftLeft, Nat.shiftLeft_eq, BitVec.toNat_ofNat, BitVec.toNat_ofNat]
    simp
  have hx : (BitVec.ofNat 64 v &&& ((1#64 <<< (k + 1)) - 1#64)) ^^^ (1#64 <<< k) =
      BitVec.ofNat 64 (v ^^^ 2 ^ k) := by
    apply BitVec.eq_of_toNat_eq
    rw [BitVec.toNat_xor, BitVec.toNat_and, mask_toNat hk, Nat.and_two_pow_sub_one_eq_mod, hs,
      BitVec.toNat_ofNat, BitVec.toNat_ofNat, BitVec.toNat_ofNat, Nat.mod_eq_of_lt (a := v) (by omega), Nat.mod_eq_of_lt hv,
      Nat.mod_eq_of_lt (a := 2 ^ k) (by omega), Nat.mod_eq_of_lt]
    have := xor_sign hv
    rw [this]; split <;> omega
  unfold sext
  rw [Nat.add_sub_cancel, hx, hs, xor_sign hv]
  have e : ∀ (a b : Nat) (z : Int), (a : Int) - b = z → BitVec.ofNat 64 a - BitVec.ofNat 64 b = BitVec.ofInt 64 z := by
    intro a b z h
    rw [← h, Int.sub_eq_add_neg, BitVec.ofInt_add, BitVec.ofInt_neg, BitVec.ofInt_natCast, BitVec.ofInt_natCast,
      BitVec.sub_eq_add_neg]
  unfold signed
  rw [Nat.add_sub_cancel]
  have hpi : ((2 : Int) ^ (k + 1)) = ((2 ^ (k + 1) : Nat) : Int) := by simp
  rw [hpi]
  split
  · apply e; omega
  · apply e; omega

theorem bits_lt (w : BitVec 32) (f l : Nat) : bits w f l < 2 ^ l := Nat.mod_lt _ (Nat.two_pow_pos l)

theorem base_toNat (w : BitVec 32) (g : Gprs) : (base w g).toNat = raOr0 w g := by
  unfold base raOr0 ra
  rw [field_toNat w 11 5 (by omega)]
  by_cases h : bits w 11 5 = 0
  · rw [if_neg (by simp [h]), if_pos h]; rfl
  · rw [if_pos h, if_neg h]

theorem setWidth_field (w : BitVec 32) (f l : Nat) (h : l < 32) :
    (field w f l).setWidth 64 = BitVec.ofNat 64 (bits w f l) := by
  apply BitVec.eq_of_toNat_eq
  rw [BitVec.toNat_setWidth, field_toNat w f l h, BitVec.toNat_ofNat]

theorem dform_toNat (w : BitVec 32) (g : Gprs) : (dform w g).toNat = (Ea.disp 16 1).value w g := by
  unfold dform dD Ea.value
  rw [setWidth_field w 16 16 (by omega), sext_ofInt (k := 15) (by omega) (bits_lt w 16 16), BitVec.toNat_add, base_toNat,
    BitVec.toNat_ofInt]
  have := (base w g).isLt
  rw [base_toNat] at this
  show _ = ((raOr0 w g + signed (15 + 1) (bits w 16 16) * ((1 : Nat) : Int)) % (2 ^ 64 : Int)).toNat
  generalize signed (15 + 1) (bits w 16 16) = z
  omega

theorem dsform_toNat (w : BitVec 32) (g : Gprs) : (dsform w g).toNat = (Ea.disp 14 4).value w g := by
  unfold dsform dDS Ea.value
  rw [setWidth_field w 16 14 (by omega), sext_ofInt (k := 13) (by omega) (bits_lt w 16 14), BitVec.toNat_add, base_toNat,
    BitVec.toNat_shiftLeft, BitVec.toNat_ofInt, Nat.shiftLeft_eq]
  have := (base w g).isLt
  rw [base_toNat] at this
  show _ = ((raOr0 w g + signed (13 + 1) (bits w 16 14) * ((4 : Nat) : Int)) % (2 ^ 64 : Int)).toNat
  generalize signed (13 + 1) (bits w 16 14) = z
  omega

theorem dqform_toNat (w : BitVec 32) (g : Gprs) : (dqform w g).toNat = (Ea.disp 12 16).value w g := by
  unfold dqform dDQ Ea.value
  rw [setWidth_field w 16 12 (by omega), sext_ofInt (k := 11) (by omega) (bits_lt w 16 12), BitVec.toNat_add, base_toNat,
    BitVec.toNat_shiftLeft, BitVec.toNat_ofInt, Nat.shiftLeft_eq]
  have := (base w g).isLt
  rw [base_toNat] at this
  show _ = ((raOr0 w g + signed (11 + 1) (bits w 16 12) * ((16 : Nat) : Int)) % (2 ^ 64 : Int)).toNat
  generalize signed (11 + 1) (bits w 16 12) = z
  omega

theorem xform_toNat (w : BitVec 32) (g : Gprs) : (xform w g).toNat = (Ea.indexed 1).value w g := by
  unfold xform xformMasked Ea.value rb
  rw [field_toNat w 16 5 (by omega)]
  have : (-1#64) = BitVec.allOnes 64 := by decide
  rw [this, BitVec.and_allOnes, BitVec.toNat_add, base_toNat]
  show _ = _ / 1 * 1
  rw [Nat.div_one, Nat.mul_one]

theorem and_notInt (x : BitVec 64) (k : Nat) (hk : k < 32) :
    (x &&& notInt (BitVec.ofNat 32 (2 ^ k - 1))).toNat = x.toNat / 2 ^ k * 2 ^ k := by
  apply Nat.eq_of_testBit_eq
  intro i
  have hm : ∀ j, (BitVec.ofNat 32 (2 ^ k - 1)).getLsbD j = decide (j < k) := by
    intro j
    rw [BitVec.getLsbD_ofNat, Nat.testBit_two_pow_sub_one]
    by_cases hj : j < k
    · simp [hj]; omega
    · simp [hj]
  rw [BitVec.testBit_toNat, BitVec.getLsbD_and, Nat.testBit_mul_two_pow, Nat.testBit_div_two_pow, BitVec.testBit_toNat]
  unfold notInt
  rw [BitVec.getLsbD_signExtend]
  have hmsb : (~~~ BitVec.ofNat 32 (2 ^ k - 1)).msb = true := by
    rw [BitVec.msb_eq_getLsbD_last, BitVec.getLsbD_not, hm]
    simp; omega
  rw [hmsb, BitVec.getLsbD_not, hm]
  by_cases hi : k ≤ i
  · have e : i - k + k = i := by omega
    rw [e]
    by_cases h64 : i < 64
    · by_cases h32 : i < 32
      · simp [hi, h64, h32]; 
      · simp [hi, h64, h32]
    · rw [BitVec.getLsbD_of_ge _ _ (by omega)]; simp
  · simp [hi]; omega

theorem xm_toNat (w : BitVec 32) (g : Gprs) (k : Nat) (hk : k < 32) :
    (xformMasked w g (notInt (BitVec.ofNat 32 (2 ^ k - 1)))).toNat = (Ea.indexed (2 ^ k)).value w g := by
  unfold xformMasked Ea.value rb
  rw [and_notInt _ _ hk, field_toNat w 16 5 (by omega), BitVec.toNat_add, base_toNat]

end Ptr
