/-! # Specification vocabulary for the text encodings -/

namespace TextSpec

/-- A hexadecimal digit, in either case, and its value. -/
def HexDigit (c : BitVec 8) (v : Nat) : Prop :=
  ∃ ch : Char, c.toNat = ch.toNat ∧
    (ch, v) ∈ [('0', 0), ('1', 1), ('2', 2), ('3', 3), ('4', 4), ('5', 5), ('6', 6), ('7', 7), ('8', 8), ('9', 9),
      ('a', 10), ('b', 11), ('c', 12), ('d', 13), ('e', 14), ('f', 15),
      ('A', 10), ('B', 11), ('C', 12), ('D', 13), ('E', 14), ('F', 15)]

/-- The text is the bytes in hexadecimal, two digits each. -/
inductive Hex : List (BitVec 8) → List (BitVec 8) → Prop
  | nil : Hex [] []
  | cons {a b : BitVec 8} {h l : Nat} {text bytes : List (BitVec 8)} {x : BitVec 8} :
      HexDigit a h → HexDigit b l → x.toNat = 16 * h + l → Hex text bytes → Hex (a :: b :: text) (x :: bytes)

end TextSpec
