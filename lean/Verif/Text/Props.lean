import Verif.Text.Lemmas

/-! # Properties of the text encodings: C47 -/

namespace Text
open TextSpec

/-- C47, hexadecimal, decoding: a text is accepted exactly if it consists of two hexadecimal digits for each byte of the
buffer, and the buffer is filled with those bytes. -/
theorem C47_hex_decode (text : List Byte) (size : Nat) (bytes : List Byte) :
    hexDecode text size = some bytes ↔ Hex text bytes ∧ bytes.length = size :=
  hexDecode_iff text.length text (Nat.le_refl _) size bytes

/-- C47, hexadecimal, there and back: with room for the text and its terminating zero, every byte string is encoded, in the
room announced, and decoding the text gives it back; without the room it is refused. -/
theorem C47_hex_roundtrip (bytes : List Byte) (destsize : Nat) :
    (hexStrSize bytes.length ≤ destsize → ∃ text, hexEncode bytes destsize = .ok (text ++ [0]) ∧
      text.length + 1 = hexStrSize bytes.length ∧ hexDecode text bytes.length = some bytes) ∧
    (destsize < hexStrSize bytes.length → hexEncode bytes destsize = .refused) := by
  constructor
  · intro h
    obtain ⟨t, h1, h2, h3⟩ := hexChars_hex bytes
    refine ⟨t, ?_, by unfold hexStrSize; omega, (C47_hex_decode t bytes.length bytes).mpr ⟨h2, rfl⟩⟩
    unfold hexEncode
    rw [if_neg (by omega), h1]
  · intro h
    unfold hexEncode
    rw [if_pos h]

/-- Room for two bytes; and a text in both cases. -/
example : hexEncode [0x0f, 0xa5] 5 = .ok [48, 102, 97, 53, 0] ∧ hexDecode [48, 70, 97, 53] 2 = some [0x0f, 0xa5] ∧
    hexDecode [48, 70, 97] 1 = none ∧ hexDecode [48, 71] 1 = none := by decide

/-- C47, base 32, there and back: with exactly the room announced for the text and its terminating zero, every byte string is
encoded, and decoding the text gives it back; with any other room it is refused. -/
theorem C47_base32_roundtrip (bytes : List Byte) (destsize : Nat) :
    (destsize = base32StrSize bytes.length → ∃ text, base32Encode bytes destsize = .ok (text ++ [0]) ∧
      text.length + 1 = base32StrSize bytes.length ∧ base32Decode text bytes.length = some bytes) ∧
    (destsize ≠ base32StrSize bytes.length → base32Encode bytes destsize = .refused) := by
  rcases base32_inv bytes.length bytes (Nat.le_refl _) destsize with ⟨h, t, h1, h2, h3⟩ | ⟨h, h1⟩
  · exact ⟨fun _ => ⟨t, h1, by omega, h3 t.length (Nat.le_refl _)⟩, fun h' => absurd h h'⟩
  · exact ⟨fun h' => absurd h' h, fun _ => h1⟩

/-- "foobar" of RFC 4648. -/
example : base32Encode [0x66, 0x6f, 0x6f, 0x62, 0x61, 0x72] 17 =
    .ok [77, 90, 88, 87, 54, 89, 84, 66, 79, 73, 61, 61, 61, 61, 61, 61, 0] := by decide +kernel

/-- C47, base 32, negated for the rejection of malformed text: text that is not the encoding of any byte string is
accepted — with bits set beyond the last byte, of padding only, and with padding in the middle. -/
theorem C47_base32_refuted :
    (base32Decode [65, 66, 61, 61, 61, 61, 61, 61] 1 = some [0] ∧
      base32Encode [0] 9 = .ok [65, 65, 61, 61, 61, 61, 61, 61, 0]) ∧
    (base32Decode [61, 61, 61, 61, 61, 61, 61, 61] 0 = some [] ∧ base32Encode [] 1 = .ok [0]) ∧
    (base32Decode [65, 65, 61, 61, 61, 61, 61, 61, 65, 65, 61, 61, 61, 61, 61, 61] 2 = some [0, 0] ∧
      base32Encode [0, 0] 9 = .ok [65, 65, 65, 65, 61, 61, 61, 61, 0]) := by
  decide +kernel

/-- C47, base 32, decoding: a text that is accepted has whole groups of eight characters, all of them digits or padding, and
fills the buffer. -/
theorem C47_base32_accepted_partial (text : List Byte) (size : Nat) (bytes : List Byte)
    (h : base32Decode text size = some bytes) :
    text.length % 8 = 0 ∧ bytes.length = size ∧ ∀ c ∈ text, c ∈ digits ∨ c = pad := by
  have chars : ∀ (l : List Byte) (acc pads : Nat) x, decodeChars l acc pads = some x → ∀ c ∈ l, c ∈ digits ∨ c = pad := by
    intro l
    induction l with
    | nil => intro _ _ _ _ c hc; cases hc
    | cons a l ih =>
      intro acc pads x h c hc
      rw [decodeChars] at h
      cases hi : digits.idxOf? a with
      | none =>
        rw [hi] at h
        dsimp only at h
        by_cases hp : a = pad
        · rw [if_pos hp] at h
          rcases List.mem_cons.mp hc with rfl | hc
          · exact Or.inr hp
          · exact ih _ _ _ h c hc
        · rw [if_neg hp] at h; cases h
      | some v =>
        rw [hi] at h
        dsimp only at h
        by_cases hp : pads ≠ 0
        · rw [if_pos hp] at h; cases h
        · rw [if_neg hp] at h
          rcases List.mem_cons.mp hc with rfl | hc
          · left
            by_cases hm : c ∈ digits
            · exact hm
            · rw [List.idxOf?_eq_none_iff.mpr hm] at hi; cases hi
          · exact ih _ _ _ h c hc
  have key : ∀ (fuel : Nat) (text : List Byte) (size : Nat) (bytes : List Byte), decodeLoop fuel text size = some bytes →
      text.length % 8 = 0 ∧ bytes.length = size ∧ ∀ c ∈ text, c ∈ digits ∨ c = pad := by
    intro fuel
    have stop : ∀ (text : List Byte) (size : Nat) (bytes : List Byte),
        (if text.length = 0 ∧ size = 0 then some [] else none) = some bytes →
        text.length % 8 = 0 ∧ bytes.length = size ∧ ∀ c ∈ text, c ∈ digits ∨ c = pad := by
      intro text size bytes h
      split at h
      · rename_i hz
        cases h
        obtain rfl := List.length_eq_zero_iff.mp hz.1
        exact ⟨rfl, hz.2.symm, fun c hc => by cases hc⟩
      · cases h
    induction fuel with
    | zero => intro text size bytes h; exact stop _ _ _ h
    | succ fuel ih =>
      intro text size bytes h
      rw [decodeLoop] at h
      by_cases h8 : 8 ≤ text.length
      · rw [if_pos h8] at h
        cases hd : decode8 (text.take 8) with
        | none => rw [hd] at h; cases h
        | some b =>
          rw [hd] at h
          dsimp only at h
          by_cases hb : size < b.length
          · rw [if_pos hb] at h; cases h
          · rw [if_neg hb] at h
            cases hr : decodeLoop fuel (text.drop 8) (size - b.length) with
            | none => rw [hr] at h; cases h
            | some r =>
              rw [hr] at h
              cases h
              obtain ⟨i1, i2, i3⟩ := ih _ _ _ hr
              rw [List.length_drop] at i1
              refine ⟨by omega, by rw [List.length_append]; omega, fun c hc => ?_⟩
              rw [← List.take_append_drop 8 text] at hc
              rcases List.mem_append.mp hc with hc | hc
              · unfold decode8 at hd
                cases hx : decodeChars (text.take 8) 0 0 with
                | none => rw [hx] at hd; cases hd
                | some x => exact chars _ _ _ _ hx c hc
              · exact i3 c hc
      · rw [if_neg h8] at h
        exact stop _ _ _ h
  exact key _ _ _ _ h

example : base32Decode [77, 90, 88, 87, 54, 89, 84, 66, 79, 73, 61, 61, 61, 61, 61, 61] 6 =
    some [0x66, 0x6f, 0x6f, 0x62, 0x61, 0x72] := by decide +kernel

/-- C47, base 32: the size announced for the data of a text is exactly the number of bytes if the text is an encoding, and for every text that is
accepted with whatever buffer it is no less than the bytes it gives. -/
theorem C47_data_size :
    (∀ (bytes text : List Byte) (destsize : Nat), base32Encode bytes destsize = .ok (text ++ [0]) → base32DataSize text = bytes.length) ∧
    (∀ (text bytes : List Byte) (size : Nat), base32Decode text size = some bytes → bytes.length ≤ base32DataSize text) :=
  ⟨fun bytes text destsize h => (dataSize_encode bytes.length bytes destsize text (Nat.le_refl _) h).1,
    fun text bytes size h => dataSize_decode text.length text size bytes h⟩

/-- "foobar" again; and a text for which it is too much, so that it is refused with a buffer of this size. -/
example : base32DataSize [77, 90, 88, 87, 54, 89, 84, 66, 79, 73, 61, 61, 61, 61, 61, 61] = 6 ∧
    base32DataSize [61, 61, 61, 61, 61, 61, 61, 61] = 1 ∧ base32Decode [61, 61, 61, 61, 61, 61, 61, 61] 0 = some [] ∧
    base32Decode [61, 61, 61, 61, 61, 61, 61, 61] 1 = none := by decide +kernel

end Text
