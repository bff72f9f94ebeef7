import Verif.Str.Lemmas

/-! C114: the string helpers. -/
namespace Str
open Spec

variable {str other hay needle s t : List Byte}

/-- `streq` says whether the strings are the same. -/
theorem C114_equal (hs : Holds str s) (ht : Holds other t) : streq str other = some (decide (s = t)) := by
  obtain ⟨r, h1, h2⟩ := strcmp_holds hs ht
  unfold streq
  rw [h1]
  by_cases h : s = t
  · rw [h2.mpr h]; simp [h]
  · have : r ≠ 0 := fun hh => h (h2.mp hh)
    simp [h, this]

/-- `strstarts` says whether the first string begins with the second. -/
theorem C114_starts (hs : Holds str s) (ht : Holds other t) : ∃ r, strstarts str other = some r ∧ (r = true ↔ ∃ rest, s = t ++ rest) := by
  obtain ⟨r, h1, h2⟩ := strncmp_holds hs ht
  refine ⟨r == 0, ?_, ?_⟩
  · unfold strstarts
    rw [strlen_holds ht]
    simp [h1]
  · rw [beq_iff_eq, h2]
    exact ⟨fun ⟨x, h⟩ => ⟨x, h.symm⟩, fun ⟨x, h⟩ => ⟨x, h.symm⟩⟩

/-- `strends` says whether the first string ends with the second. -/
theorem C114_ends (hs : Holds str s) (ht : Holds other t) : ∃ r, strends str other = some r ∧ (r = true ↔ ∃ front, s = front ++ t) := by
  unfold strends
  rw [strlen_holds hs, strlen_holds ht]
  simp only [Option.bind_eq_bind, Option.bind_some]
  by_cases h : s.length < t.length
  · rw [if_pos h]
    refine ⟨false, rfl, ?_⟩
    simp only [Bool.false_eq_true, false_iff]
    rintro ⟨x, rfl⟩
    rw [List.length_append] at h
    omega
  · rw [if_neg h]
    have hd : Holds (str.drop (s.length - t.length)) (s.drop (s.length - t.length)) := by
      obtain ⟨h1, junk, rfl⟩ := hs
      exact ⟨fun hh => h1 (List.mem_of_mem_drop hh), junk, List.drop_append_of_le_length (by omega)⟩
    refine ⟨_, C114_equal hd ht, ?_⟩
    rw [decide_eq_true_eq]
    constructor
    · intro hh
      exact ⟨s.take (s.length - t.length), by rw [← hh, List.length_drop, show s.length - (s.length - (s.length - t.length)) = s.length - t.length by omega, List.take_append_drop]⟩
    · rintro ⟨x, rfl⟩
      rw [List.length_append, Nat.add_sub_cancel, List.drop_left]

/-- `strcount` returns the largest number of occurrences that do not overlap, for every string that is not empty. -/
theorem C114_count_partial (hs : Holds hay s) (ht : Holds needle t) (hn : t ≠ []) (hl : s.length < 2 ^ 64) :
    ∃ turns i, strcount turns hay needle = .ended i ∧ Most t s i.toNat := by
  have hlen := strlen_holds ht
  obtain ⟨ht1, jn, rfl⟩ := ht
  obtain ⟨hs1, js, rfl⟩ := hs
  obtain ⟨m, c, h1, h2, h3, h4⟩ := count_from (junk := js) ht1 hn s.length [] s 0#64 (Nat.le_refl _) hs1
  refine ⟨m, BitVec.ofNat 64 c, ?_, ?_⟩
  · unfold strcount
    rw [hlen]
    dsimp only
    rw [List.take_left, h1, BitVec.zero_add]
  · rw [BitVec.toNat_ofNat, Nat.mod_eq_of_lt (by omega)]
    exact ⟨h3, h4⟩

/-- An empty string is found again and again at the same place: `strcount` never returns. -/
theorem C114_count_refuted : ∃ hay needle, Holds hay [97#8] ∧ Holds needle [] ∧ ∀ turns i, strcount turns hay needle ≠ .ended i := by
  refine ⟨[97#8, 0#8], [0#8], ⟨by decide, [], rfl⟩, ⟨by decide, [], rfl⟩, ?_⟩
  have key : ∀ n i, ∃ j, turns [] n (.running [97#8, 0#8] i) = .running [97#8, 0#8] j := by
    intro n
    induction n with
    | zero => exact fun i => ⟨i, rfl⟩
    | succ n ih => exact fun i => ih (i + 1#64)
  intro n i h
  obtain ⟨j, hj⟩ := key n 0#64
  have : strcount n [97#8, 0#8] [0#8] = turns [] n (.running [97#8, 0#8] 0#64) := rfl
  rw [this, hj] at h
  cases h

/-- "aaa aaa" has "aa" twice without overlap. -/
example : Holds [97#8, 97#8, 97#8, 32#8, 97#8, 97#8, 97#8, 0#8] [97#8, 97#8, 97#8, 32#8, 97#8, 97#8, 97#8] ∧ Holds [97#8, 97#8, 0#8] [97#8, 97#8] ∧
    strcount 3 [97#8, 97#8, 97#8, 32#8, 97#8, 97#8, 97#8, 0#8] [97#8, 97#8, 0#8] = .ended 2#64 :=
  ⟨⟨by decide, [], rfl⟩, ⟨by decide, [], rfl⟩, by decide +kernel⟩

theorem pow_chars (k : Nat) : 2 ^ (9 * k) ≤ 10 ^ (3 * k) := by
  rw [Nat.pow_mul, Nat.pow_mul]
  exact Nat.pow_le_pow_left (by decide) k

/-- `STR_MAX_CHARS` is enough for every number of the type: in decimal with a sign and the 0 at the end, and in hexadecimal with 0x and the 0. -/
theorem C114_room {size v : Nat} (hs : 0 < size) (hv : v < 2 ^ (8 * size)) :
    (('-' :: Nat.toDigits 10 v) ++ ['\x00']).length ≤ maxChars size ∧ (('0' :: 'x' :: Nat.toDigits 16 v) ++ ['\x00']).length ≤ maxChars size := by
  have hk : 8 * size ≤ 9 * ((size * 8 + 8) / 9) := by omega
  have h10 : (Nat.toDigits 10 v).length ≤ 3 * ((size * 8 + 8) / 9) :=
    (Nat.length_toDigits_le_iff (by omega) (by omega)).mpr (Nat.lt_of_lt_of_le hv (Nat.le_trans (Nat.pow_le_pow_right (by omega) hk) (pow_chars _)))
  have h16 : (Nat.toDigits 16 v).length ≤ 2 * size :=
    (Nat.length_toDigits_le_iff (by omega) (by omega)).mpr (by rw [show 16 = 2 ^ 4 from rfl, ← Nat.pow_mul, show 4 * (2 * size) = 8 * size by omega]; exact hv)
  unfold maxChars
  simp only [List.length_append, List.length_cons, List.length_nil]
  omega

/-- A number of 64 bits: 26 bytes. -/
example : maxChars 8 = 26 ∧ (2 ^ 64 - 1 : Nat) < 2 ^ (8 * 8) := by decide +kernel

/-- The character tests get an argument that the functions of the C library are defined for, whatever the character: the check of the debug version never fails. -/
theorem C114_characters (is : Int → Bool) (c : Byte) : cis is c = some (is c.toNat) := by
  unfold cis checked
  have := c.isLt
  rw [if_pos ⟨by omega, by omega⟩]

end Str
