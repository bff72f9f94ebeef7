/-!
Page masks of htm/xlate.h (line numbers are of that file) as arithmetic.
-/
namespace Htm

/-- The mask `~((1ull << s) - 1)`: 71-78, 88-91, 97-100, 106-109. -/
def pageMask (s : Nat) : BitVec 64 := ~~~ (BitVec.twoPow 64 s - 1)

/-- 67-68 `RA_MASK`. -/
def raMask : BitVec 64 := BitVec.twoPow 64 52 - 1

/-- 180-198 `address_aligned_*`. -/
def aligned (s : Nat) (a : BitVec 64) : BitVec 64 := a &&& pageMask s

/-- 115-133 `pte_address_*`, 145-148 `pmdp_address`, 155-158 `pudp_address`, 165-168 `pgdp_address`. -/
def pteAddress (s : Nat) (a : BitVec 64) : BitVec 64 := a &&& (pageMask s &&& raMask)

/-- 200-218 `page_offset_*`. -/
def pageOffset (s : Nat) (a : BitVec 64) : BitVec 64 := a &&& ~~~ (pageMask s)

/-- 135-143, 150-153, 160-163, 170-173: the index functions, with the position and the number of bits of the index. -/
def tableIndex (s n : Nat) (a : BitVec 64) : BitVec 64 := ((a >>> s) &&& ((BitVec.twoPow 64 n - 1) &&& raMask)) <<< 3

theorem toNat_low {s : Nat} (hs : s < 64) : (BitVec.twoPow 64 s - 1 : BitVec 64).toNat = 2 ^ s - 1 := by
  have h1 : (BitVec.twoPow 64 s).toNat = 2 ^ s := by
    rw [BitVec.toNat_twoPow, Nat.mod_eq_of_lt (Nat.pow_lt_pow_right (by omega) hs)]
  have h2 : 0 < 2 ^ s := Nat.two_pow_pos _
  have h3 : 2 ^ s < 2 ^ 64 := Nat.pow_lt_pow_right (by omega) hs
  rw [BitVec.toNat_sub, h1]
  show (2 ^ 64 - 1 + 2 ^ s) % 2 ^ 64 = _
  omega

theorem pageOffset_toNat {s : Nat} (hs : s < 64) (a : BitVec 64) : (pageOffset s a).toNat = a.toNat % 2 ^ s := by
  unfold pageOffset pageMask
  rw [BitVec.not_not, BitVec.toNat_and, toNat_low hs, Nat.and_two_pow_sub_one_eq_mod]

theorem aligned_add (s : Nat) (a : BitVec 64) : aligned s a + pageOffset s a = a := by
  unfold aligned pageOffset
  generalize pageMask s = m
  rw [BitVec.add_eq_or_of_and_eq_zero]
  · ext i hi; simp; cases a[i] <;> cases m[i] <;> rfl
  · ext i hi; simp; cases a[i] <;> cases m[i] <;> simp

theorem aligned_toNat {s : Nat} (hs : s < 64) (a : BitVec 64) : (aligned s a).toNat = a.toNat - a.toNat % 2 ^ s := by
  have h1 := congrArg BitVec.toNat (aligned_add s a)
  rw [BitVec.toNat_add, pageOffset_toNat hs] at h1
  have h3 : (aligned s a).toNat ≤ a.toNat := by
    unfold aligned
    rw [BitVec.toNat_and]; exact Nat.and_le_left
  have h5 : a.toNat % 2 ^ s ≤ a.toNat := Nat.mod_le ..
  have := a.isLt
  have := (aligned s a).isLt
  omega

theorem sub_mod_div (x n : Nat) : x - x % n = n * (x / n) := by
  have := Nat.div_add_mod x n
  omega

/-- Aligned addresses are equal for addresses in the same page. -/
theorem aligned_eq_iff {s : Nat} (hs : s < 64) (a b : BitVec 64) :
    aligned s a = aligned s b ↔ a.toNat / 2 ^ s = b.toNat / 2 ^ s := by
  rw [← BitVec.toNat_inj, aligned_toNat hs, aligned_toNat hs, sub_mod_div, sub_mod_div]
  exact Nat.mul_right_inj (Nat.pos_iff_ne_zero.1 (Nat.two_pow_pos s))

theorem raMask_and (a : BitVec 64) : (a &&& raMask).toNat = a.toNat % 2 ^ 52 := by
  unfold raMask
  rw [BitVec.toNat_and, toNat_low (by omega), Nat.and_two_pow_sub_one_eq_mod]

theorem pteAddress_eq (s : Nat) (a : BitVec 64) : pteAddress s a = aligned s (a &&& raMask) := by
  unfold pteAddress aligned
  generalize pageMask s = m
  generalize raMask = r
  ext i hi; simp; cases a[i] <;> cases m[i] <;> simp

/-- Page addresses are equal for addresses in the same page of the 52-bit address space. -/
theorem pteAddress_eq_iff {s : Nat} (hs : s < 64) (a b : BitVec 64) :
    pteAddress s a = pteAddress s b ↔ a.toNat % 2 ^ 52 / 2 ^ s = b.toNat % 2 ^ 52 / 2 ^ s := by
  rw [pteAddress_eq, pteAddress_eq, aligned_eq_iff hs, raMask_and, raMask_and]

theorem pteAddress_toNat {s : Nat} (hs : s < 64) (a : BitVec 64) :
    (pteAddress s a).toNat = 2 ^ s * (a.toNat % 2 ^ 52 / 2 ^ s) := by
  rw [pteAddress_eq, aligned_toNat hs, raMask_and, sub_mod_div]

theorem tableIndex_toNat {s n : Nat} (hn : n ≤ 52) (a : BitVec 64) : (tableIndex s n a).toNat = a.toNat / 2 ^ s % 2 ^ n * 8 := by
  have hmask : ((BitVec.twoPow 64 n - 1) &&& raMask : BitVec 64).toNat = 2 ^ n - 1 := by
    rw [raMask_and, toNat_low (by omega)]
    have : 2 ^ n ≤ 2 ^ 52 := Nat.pow_le_pow_right (by omega) hn
    have h2 : 0 < 2 ^ n := Nat.two_pow_pos _
    rw [Nat.mod_eq_of_lt (by omega)]
  unfold tableIndex
  rw [BitVec.toNat_shiftLeft, BitVec.toNat_and, hmask, Nat.and_two_pow_sub_one_eq_mod, BitVec.toNat_ushiftRight,
    Nat.shiftRight_eq_div_pow, Nat.shiftLeft_eq]
  have h1 : a.toNat / 2 ^ s % 2 ^ n < 2 ^ n := Nat.mod_lt _ (Nat.two_pow_pos _)
  have h2 : 2 ^ n ≤ 2 ^ 52 := Nat.pow_le_pow_right (by omega) hn
  rw [Nat.mod_eq_of_lt]
  omega

end Htm
