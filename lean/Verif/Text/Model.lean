/-! # Text encodings of bytes (`/repo/qtrace-bbv/ccan/str/hex/hex.c`, `/repo/qtrace-bbv/ccan/str/base32/base32.c`)

Texts and buffers are lists of bytes; a buffer of `bufsize` bytes to be filled is given by its size, and the outcome `some` is
`true` with the buffer filled, `none` is `false`. -/

namespace Text

abbrev Byte := BitVec 8

/-- hex.c:7-22 `char_to_hex`.  `char` may be signed: the comparisons with the letters and digits come out the same. -/
def charToHex (c : Byte) : Option Nat :=
  if 48 ≤ c.toNat ∧ c.toNat ≤ 57 then some (c.toNat - 48)
  else if 97 ≤ c.toNat ∧ c.toNat ≤ 102 then some (c.toNat - 97 + 10)
  else if 65 ≤ c.toNat ∧ c.toNat ≤ 70 then some (c.toNat - 65 + 10)
  else none

/-- hex.c:24-40 `hex_decode`. -/
def hexDecode : (str : List Byte) → (bufsize : Nat) → Option (List Byte)
  | a :: b :: str, bufsize =>
    match charToHex a, charToHex b with
    | some v1, some v2 =>
      if bufsize = 0 then none
      else (hexDecode str (bufsize - 1)).map (BitVec.ofNat 8 (v1 * 16 + v2) :: ·)
    | _, _ => none
  | [_], _ => none
  | [], bufsize => if bufsize = 0 then some [] else none

/-- hex.c:42-49 `hexchar`; `none` is the abort. -/
def hexchar (v : Nat) : Option Byte :=
  if v < 10 then some (BitVec.ofNat 8 (48 + v))
  else if v < 16 then some (BitVec.ofNat 8 (97 + v - 10))
  else none

/-- hex.h `hex_str_size`. -/
def hexStrSize (bytes : Nat) : Nat := 2 * bytes + 1

/-- Outcome of the functions that write text. -/
inductive Enc where
  | ok (text : List Byte)
  | refused
  | abort
  deriving DecidableEq, Repr

/-- hex.c:58-62: the loop; `none` is the abort. -/
def hexChars : List Byte → Option (List Byte)
  | [] => some []
  | c :: l =>
    match hexchar (c.toNat / 16), hexchar (c.toNat % 16), hexChars l with
    | some a, some b, some r => some (a :: b :: r)
    | _, _, _ => none

/-- hex.c:51-66 `hex_encode`: the text with the terminating zero. -/
def hexEncode (buf : List Byte) (destsize : Nat) : Enc :=
  if destsize < hexStrSize buf.length then .refused
  else match hexChars buf with
    | some t => .ok (t ++ [0])
    | none => .abort

/-- base32.c:7, the 32 digits. -/
def digits : List Byte :=
  [65, 66, 67, 68, 69, 70, 71, 72, 73, 74, 75, 76, 77, 78, 79, 80, 81, 82, 83, 84, 85, 86, 87, 88, 89, 90,
   50, 51, 52, 53, 54, 55]

/-- base32.c:7, `base32_chars[32]`. -/
def pad : Byte := 61

/-- base32.c:31-47 `padlen`; `none` is the abort. -/
def padlen (remainder : Nat) : Option Nat :=
  if remainder = 0 then some 0
  else if remainder = 1 then some 6
  else if remainder = 2 then some 4
  else if remainder = 3 then some 3
  else if remainder = 4 then some 1
  else none

/-- base32.c:49-52. -/
def base32StrSize (bytes : Nat) : Nat := (bytes + 4) / 5 * 8 + 1

/-- base32.c:61-64, the loop over the text from its end: how much padding it counts. -/
def countPad : List Byte → (padding : Nat) → Nat
  | [], padding => padding
  | c :: l, padding => if c = pad ∧ padding < 6 then countPad l (padding + 1) else padding

/-- base32.c:54-67 `base32_data_size`.  The difference does not become negative: with padding there is a character, and at most 4 is subtracted. -/
def base32DataSize (str : List Byte) : Nat := (str.length + 7) / 8 * 5 - (countPad str.reverse 0 * 5 + 7) / 8

/-- base32.c:75-93: the loop of `decode_8_chars`. -/
def decodeChars : List Byte → (acc pads : Nat) → Option (Nat × Nat)
  | [], acc, pads => some (acc, pads)
  | c :: l, acc, pads =>
    match digits.idxOf? c with
    | none => if c = pad then decodeChars l (acc * 32) (pads + 1) else none
    | some v => if pads ≠ 0 then none else decodeChars l (acc * 32 + v) pads

/-- The five bytes behind the first three of a 64-bit big-endian number. -/
def lowFive (v : Nat) : List Byte :=
  [BitVec.ofNat 8 (v / 2 ^ 32), BitVec.ofNat 8 (v / 2 ^ 24), BitVec.ofNat 8 (v / 2 ^ 16), BitVec.ofNat 8 (v / 2 ^ 8),
   BitVec.ofNat 8 v]

/-- base32.c:69-98 `decode_8_chars`, and the bytes line 112 copies. -/
def decode8 (c : List Byte) : Option (List Byte) :=
  match decodeChars c 0 0 with
  | none => none
  | some (acc, pads) =>
    if pads = 5 ∨ pads = 2 then none
    else some ((lowFive acc).take ((40 - pads * 5) / 8))

/-- base32.c:100-117 `base32_decode`, with `fuel` rounds at most. -/
def decodeLoop : (fuel : Nat) → List Byte → (bufsize : Nat) → Option (List Byte)
  | 0, str, bufsize => if str.length = 0 ∧ bufsize = 0 then some [] else none
  | fuel + 1, str, bufsize =>
    if 8 ≤ str.length then
      match decode8 (str.take 8) with
      | none => none
      | some b => if bufsize < b.length then none else (decodeLoop fuel (str.drop 8) (bufsize - b.length)).map (b ++ ·)
    else if str.length = 0 ∧ bufsize = 0 then some [] else none

/-- base32.c:100-117. -/
def base32Decode (str : List Byte) (bufsize : Nat) : Option (List Byte) := decodeLoop str.length str bufsize

/-- base32.c:121-127: the value of up to five bytes in the upper part of 40 bits. -/
def value40 (buf : List Byte) : Nat :=
  ((buf ++ [0, 0, 0, 0, 0]).take 5).foldl (fun (acc : Nat) (b : Byte) => acc * 256 + b.toNat) 0

/-- base32.c:129-134: the digits, as long as there are bits; 8 rounds at most. -/
def encodeDigits : (fuel : Nat) → (res : Nat) → (bits : Int) → List Byte
  | 0, _, _ => []
  | fuel + 1, res, bits =>
    if bits > 0 then digits.getD (res / 2 ^ 35 % 32) 0 :: encodeDigits fuel (res * 32 % 2 ^ 64) (bits - 5) else []

/-- base32.c:119-138 `encode_8_chars`; `none` is a failed assertion or abort. -/
def encode8 (buf : List Byte) : Option (List Byte) :=
  if 0 < buf.length ∧ buf.length ≤ 5 then
    let d := encodeDigits 8 (value40 buf) (buf.length * 8)
    if buf.length ≠ 5 then (padlen buf.length).map fun n => d ++ List.replicate n pad else some d
  else none

/-- base32.c:142-156, with `fuel` rounds at most. -/
def encodeLoop : (fuel : Nat) → List Byte → (destsize : Nat) → Enc
  | 0, _, destsize => if destsize ≠ 1 then .refused else .ok [0]
  | fuel + 1, buf, destsize =>
    if buf.length ≠ 0 then
      if destsize < 8 then .refused
      else match encode8 (buf.take 5) with
        | none => .abort
        | some t => match encodeLoop fuel (buf.drop 5) (destsize - 8) with
          | .ok r => .ok (t ++ r)
          | e => e
    else if destsize ≠ 1 then .refused else .ok [0]

/-- base32.c:140-160 `base32_encode`. -/
def base32Encode (buf : List Byte) (destsize : Nat) : Enc := encodeLoop buf.length buf destsize

end Text
