/-!
# What the hash functions are to be

Bob Jenkins' function `lookup3`: the key is cut in blocks of three words, bytes behind its end count as zero, each block is added to the three words of the
state; between two blocks the state is mixed, behind the last one it is finally mixed.
-/
namespace Hash.Spec

/-- The state: three words. -/
abbrev S := BitVec 32 × BitVec 32 × BitVec 32

/-- How the state is mixed between blocks. -/
def mix : S → S := fun (a0, b0, c0) =>
  let a1 := (a0 - c0) ^^^ c0.rotateLeft 4
  let c1 := c0 + b0
  let b1 := (b0 - a1) ^^^ a1.rotateLeft 6
  let a2 := a1 + c1
  let c2 := (c1 - b1) ^^^ b1.rotateLeft 8
  let b2 := b1 + a2
  let a3 := (a2 - c2) ^^^ c2.rotateLeft 16
  let c3 := c2 + b2
  let b3 := (b2 - a3) ^^^ a3.rotateLeft 19
  let a4 := a3 + c3
  let c4 := (c3 - b3) ^^^ b3.rotateLeft 4
  let b4 := b3 + a4
  (a4, b4, c4)

/-- How it is mixed in the end. -/
def final : S → S := fun (a0, b0, c0) =>
  let c1 := (c0 ^^^ b0) - b0.rotateLeft 14
  let a1 := (a0 ^^^ c1) - c1.rotateLeft 11
  let b1 := (b0 ^^^ a1) - a1.rotateLeft 25
  let c2 := (c1 ^^^ b1) - b1.rotateLeft 16
  let a2 := (a1 ^^^ c2) - c2.rotateLeft 4
  let b2 := (b1 ^^^ a2) - a2.rotateLeft 14
  let c3 := (c2 ^^^ b2) - b2.rotateLeft 24
  (a2, b2, c3)

/-- Four bytes as a word, the first one lowest. -/
def little (k : Fin 4 → BitVec 8) : BitVec 32 := BitVec.ofNat 32 ((k 0).toNat + 2 ^ 8 * (k 1).toNat + 2 ^ 16 * (k 2).toNat + 2 ^ 24 * (k 3).toNat)

/-- Four bytes as a word, the first one highest. -/
def big (k : Fin 4 → BitVec 8) : BitVec 32 := BitVec.ofNat 32 (2 ^ 24 * (k 0).toNat + 2 ^ 16 * (k 1).toNat + 2 ^ 8 * (k 2).toNat + (k 3).toNat)

/-- The word of the key at byte `p`. -/
def word (ld : (Fin 4 → BitVec 8) → BitVec 32) (key : List (BitVec 8)) (p : Nat) : BitVec 32 := ld fun i => key.getD (p + i.val) 0

/-- Block `j` of the key added to the state. -/
def absorb (ld : (Fin 4 → BitVec 8) → BitVec 32) (key : List (BitVec 8)) (s : S) (j : Nat) : S :=
  (s.1 + word ld key (12 * j), s.2.1 + word ld key (12 * j + 4), s.2.2 + word ld key (12 * j + 8))

/-- The function: two words, the better one first.  `v` is the previous value. -/
def lookup3 (ld : (Fin 4 → BitVec 8) → BitVec 32) (key : List (BitVec 8)) (v : BitVec 32) : BitVec 32 × BitVec 32 :=
  let i := 0xdeadbeef + BitVec.ofNat 32 key.length + v
  match (key.length + 11) / 12 with
  | 0 => (i, v)
  | n + 1 =>
    let t := final (absorb ld key ((List.range n).foldl (fun s j => mix (absorb ld key s j)) (i, i, i)) n)
    (t.2.2, t.2.1)

/-- The 64-bit value of two words of it. -/
def pair (p : BitVec 32 × BitVec 32) : BitVec 64 := BitVec.ofNat 64 (p.2.toNat * 2 ^ 32 + p.1.toNat)

/-- What the high half of a 64-bit previous value does: it is added to the low half. -/
def previous (base : BitVec 64) : BitVec 32 := BitVec.ofNat 32 (base.toNat % 2 ^ 32 + base.toNat / 2 ^ 32)

/-- The bytes of a number of `n` bytes, lowest first. -/
def bytes (n : Nat) (v : Nat) : List (BitVec 8) := (List.range n).map fun i => BitVec.ofNat 8 (v / 256 ^ i)

/-- The memory of an array of numbers of `n` bytes on a little-endian machine. -/
def array (n : Nat) (l : List Nat) : List (BitVec 8) := l.flatMap (bytes n)

/-- And on a big-endian machine. -/
def arrayBig (n : Nat) (l : List Nat) : List (BitVec 8) := l.flatMap fun v => (bytes n v).reverse

end Hash.Spec
