/-!
# Hash functions (`/repo/qtrace-bbv/ccan/hash/hash.c`)

A key is its bytes and its address.  Reads are matches on the bytes: where a function reads outside of the key it has no value.
-/
namespace Hash

abbrev Byte := BitVec 8
abbrev W := BitVec 32

/-- The internal state, line 254. -/
structure St where
  a : W
  b : W
  c : W
deriving DecidableEq, Repr

/-- Line 84 `rot`. -/
def rot (x : W) (k : Nat) : W := (x <<< k) ||| (x >>> (32 - k))

/-- Lines 130-138 `mix`: one line of the macro, `x -= y; x ^= rot(y, k); y += z`, gives the new `x` and `y`. -/
def mixLine (x y z : W) (k : Nat) : W × W := ((x - y) ^^^ rot y k, y + z)

/-- Lines 130-138 `mix`. -/
def mix (s : St) : St :=
  let (a, c) := mixLine s.a s.c s.b 4
  let (b, a) := mixLine s.b a c 6
  let (c, b) := mixLine c b a 8
  let (a, c) := mixLine a c b 16
  let (b, a) := mixLine b a c 19
  let (c, b) := mixLine c b a 4
  ⟨a, b, c⟩

/-- Lines 165-174: one line of the macro `final`: `x ^= y; x -= rot(y, k)`. -/
def finalLine (x y : W) (k : Nat) : W := (x ^^^ y) - rot y k

/-- Lines 165-174 `final`. -/
def final (s : St) : St :=
  let c := finalLine s.c s.b 14
  let a := finalLine s.a c 11
  let b := finalLine s.b a 25
  let c := finalLine c b 16
  let a := finalLine a c 4
  let b := finalLine b a 14
  let c := finalLine c b 24
  ⟨a, b, c⟩

/-- Lines 311-322 and others, a byte in an `uint32_t`, shifted: `((uint32_t)k8[i]) << n`. -/
def sh (k : Byte) (n : Nat) : W := k.setWidth 32 <<< n

/-- Line 262, `k[i]`: what the four bytes are as an `uint32_t` of a little-endian machine. -/
def le32 (k0 k1 k2 k3 : Byte) : W := BitVec.ofNat 32 (k0.toNat + 2 ^ 8 * k1.toNat + 2 ^ 16 * k2.toNat + 2 ^ 24 * k3.toNat)

/-- Line 439, `k[i]`: what the four bytes are as an `uint32_t` of a big-endian machine. -/
def be32 (k0 k1 k2 k3 : Byte) : W := le32 k3 k2 k1 k0

/-- Line 329, `k[i]`: what two bytes are as an `uint16_t` of a little-endian machine, converted to 32 bits. -/
def le16 (k0 k1 : Byte) : W := BitVec.ofNat 32 (k0.toNat + 2 ^ 8 * k1.toNat)

/-- Lines 262 and 439: `k[i]` of a `const uint32_t *k`, in the byte order of the machine. -/
def load32 (le : Bool) (k0 k1 k2 k3 : Byte) : W := if le = true then le32 k0 k1 k2 k3 else be32 k0 k1 k2 k3

/-- Line 329: `k[i]` of a `const uint16_t *k`, in the byte order of the machine, converted to 32 bits. -/
def load16 (le : Bool) (k0 k1 : Byte) : W := if le = true then le16 k0 k1 else le16 k1 k0

/-- Lines 266-274, 333-341, 379-396, 443-451 and 509-526: the loop `while (length > 12)`; `body` is what it does before `mix`.  The state behind it and
the bytes that are left. -/
def blocks (body : St → Byte → Byte → Byte → Byte → Byte → Byte → Byte → Byte → Byte → Byte → Byte → Byte → St) : St → List Byte → St × List Byte
  | s, k0 :: k1 :: k2 :: k3 :: k4 :: k5 :: k6 :: k7 :: k8 :: k9 :: k10 :: k11 :: k12 :: r =>
    blocks body (mix (body s k0 k1 k2 k3 k4 k5 k6 k7 k8 k9 k10 k11)) (k12 :: r)
  | s, k => (s, k)

/-- Lines 268-270: aligned words. -/
def bodyWords (le : Bool) (s : St) (k0 k1 k2 k3 k4 k5 k6 k7 k8 k9 k10 k11 : Byte) : St := ⟨s.a + load32 le k0 k1 k2 k3, s.b + load32 le k4 k5 k6 k7, s.c + load32 le k8 k9 k10 k11⟩

/-- Lines 308-324, the switch; `none` for `return c` of length 0 (no other length gets here: lemma `blocks_short`).  The switch of lines 289-304 is not
compiled. -/
def lastWords (le : Bool) (s : St) : List Byte → Option St
  | [k0, k1, k2, k3, k4, k5, k6, k7, k8, k9, k10, k11] => some ⟨s.a + load32 le k0 k1 k2 k3, s.b + load32 le k4 k5 k6 k7, s.c + load32 le k8 k9 k10 k11⟩
  | [k0, k1, k2, k3, k4, k5, k6, k7, k8, k9, k10] => some ⟨s.a + load32 le k0 k1 k2 k3, s.b + load32 le k4 k5 k6 k7, s.c + sh k10 16 + sh k9 8 + sh k8 0⟩
  | [k0, k1, k2, k3, k4, k5, k6, k7, k8, k9] => some ⟨s.a + load32 le k0 k1 k2 k3, s.b + load32 le k4 k5 k6 k7, s.c + sh k9 8 + sh k8 0⟩
  | [k0, k1, k2, k3, k4, k5, k6, k7, k8] => some ⟨s.a + load32 le k0 k1 k2 k3, s.b + load32 le k4 k5 k6 k7, s.c + sh k8 0⟩
  | [k0, k1, k2, k3, k4, k5, k6, k7] => some ⟨s.a + load32 le k0 k1 k2 k3, s.b + load32 le k4 k5 k6 k7, s.c⟩
  | [k0, k1, k2, k3, k4, k5, k6] => some ⟨s.a + load32 le k0 k1 k2 k3, s.b + sh k6 16 + sh k5 8 + sh k4 0, s.c⟩
  | [k0, k1, k2, k3, k4, k5] => some ⟨s.a + load32 le k0 k1 k2 k3, s.b + sh k5 8 + sh k4 0, s.c⟩
  | [k0, k1, k2, k3, k4] => some ⟨s.a + load32 le k0 k1 k2 k3, s.b + sh k4 0, s.c⟩
  | [k0, k1, k2, k3] => some ⟨s.a + load32 le k0 k1 k2 k3, s.b, s.c⟩
  | [k0, k1, k2] => some ⟨s.a + sh k2 16 + sh k1 8 + sh k0 0, s.b, s.c⟩
  | [k0, k1] => some ⟨s.a + sh k1 8 + sh k0 0, s.b, s.c⟩
  | [k0] => some ⟨s.a + sh k0 0, s.b, s.c⟩
  | _ => none

/-- Lines 335-337: `k[0] + (((uint32_t)k[1])<<16)` on `uint16_t`s. -/
def halves (le : Bool) (k0 k1 k2 k3 : Byte) : W := load16 le k0 k1 + load16 le k2 k3 <<< 16

/-- Lines 335-337: aligned half words. -/
def bodyHalves (le : Bool) (s : St) (k0 k1 k2 k3 k4 k5 k6 k7 k8 k9 k10 k11 : Byte) : St :=
  ⟨s.a + halves le k0 k1 k2 k3, s.b + halves le k4 k5 k6 k7, s.c + halves le k8 k9 k10 k11⟩

/-- Lines 344-373, the switch. -/
def lastHalves (le : Bool) (s : St) : List Byte → Option St
  | [k0, k1, k2, k3, k4, k5, k6, k7, k8, k9, k10, k11] => some ⟨s.a + halves le k0 k1 k2 k3, s.b + halves le k4 k5 k6 k7, s.c + halves le k8 k9 k10 k11⟩
  | [k0, k1, k2, k3, k4, k5, k6, k7, k8, k9, k10] => some ⟨s.a + halves le k0 k1 k2 k3, s.b + halves le k4 k5 k6 k7, s.c + sh k10 16 + load16 le k8 k9⟩
  | [k0, k1, k2, k3, k4, k5, k6, k7, k8, k9] => some ⟨s.a + halves le k0 k1 k2 k3, s.b + halves le k4 k5 k6 k7, s.c + load16 le k8 k9⟩
  | [k0, k1, k2, k3, k4, k5, k6, k7, k8] => some ⟨s.a + halves le k0 k1 k2 k3, s.b + halves le k4 k5 k6 k7, s.c + sh k8 0⟩
  | [k0, k1, k2, k3, k4, k5, k6, k7] => some ⟨s.a + halves le k0 k1 k2 k3, s.b + halves le k4 k5 k6 k7, s.c⟩
  | [k0, k1, k2, k3, k4, k5, k6] => some ⟨s.a + halves le k0 k1 k2 k3, s.b + sh k6 16 + load16 le k4 k5, s.c⟩
  | [k0, k1, k2, k3, k4, k5] => some ⟨s.a + halves le k0 k1 k2 k3, s.b + load16 le k4 k5, s.c⟩
  | [k0, k1, k2, k3, k4] => some ⟨s.a + halves le k0 k1 k2 k3, s.b + sh k4 0, s.c⟩
  | [k0, k1, k2, k3] => some ⟨s.a + halves le k0 k1 k2 k3, s.b, s.c⟩
  | [k0, k1, k2] => some ⟨s.a + sh k2 16 + load16 le k0 k1, s.b, s.c⟩
  | [k0, k1] => some ⟨s.a + load16 le k0 k1, s.b, s.c⟩
  | [k0] => some ⟨s.a + sh k0 0, s.b, s.c⟩
  | _ => none

/-- Lines 381-392: byte by byte. -/
def bodyBytes (s : St) (k0 k1 k2 k3 k4 k5 k6 k7 k8 k9 k10 k11 : Byte) : St :=
  ⟨s.a + sh k0 0 + sh k1 8 + sh k2 16 + sh k3 24, s.b + sh k4 0 + sh k5 8 + sh k6 16 + sh k7 24, s.c + sh k8 0 + sh k9 8 + sh k10 16 + sh k11 24⟩

/-- Lines 399-415, the switch, in which every case goes on to the next. -/
def lastBytes (s : St) : List Byte → Option St
  | [k0, k1, k2, k3, k4, k5, k6, k7, k8, k9, k10, k11] =>
    some ⟨s.a + sh k3 24 + sh k2 16 + sh k1 8 + sh k0 0, s.b + sh k7 24 + sh k6 16 + sh k5 8 + sh k4 0, s.c + sh k11 24 + sh k10 16 + sh k9 8 + sh k8 0⟩
  | [k0, k1, k2, k3, k4, k5, k6, k7, k8, k9, k10] =>
    some ⟨s.a + sh k3 24 + sh k2 16 + sh k1 8 + sh k0 0, s.b + sh k7 24 + sh k6 16 + sh k5 8 + sh k4 0, s.c + sh k10 16 + sh k9 8 + sh k8 0⟩
  | [k0, k1, k2, k3, k4, k5, k6, k7, k8, k9] =>
    some ⟨s.a + sh k3 24 + sh k2 16 + sh k1 8 + sh k0 0, s.b + sh k7 24 + sh k6 16 + sh k5 8 + sh k4 0, s.c + sh k9 8 + sh k8 0⟩
  | [k0, k1, k2, k3, k4, k5, k6, k7, k8] =>
    some ⟨s.a + sh k3 24 + sh k2 16 + sh k1 8 + sh k0 0, s.b + sh k7 24 + sh k6 16 + sh k5 8 + sh k4 0, s.c + sh k8 0⟩
  | [k0, k1, k2, k3, k4, k5, k6, k7] => some ⟨s.a + sh k3 24 + sh k2 16 + sh k1 8 + sh k0 0, s.b + sh k7 24 + sh k6 16 + sh k5 8 + sh k4 0, s.c⟩
  | [k0, k1, k2, k3, k4, k5, k6] => some ⟨s.a + sh k3 24 + sh k2 16 + sh k1 8 + sh k0 0, s.b + sh k6 16 + sh k5 8 + sh k4 0, s.c⟩
  | [k0, k1, k2, k3, k4, k5] => some ⟨s.a + sh k3 24 + sh k2 16 + sh k1 8 + sh k0 0, s.b + sh k5 8 + sh k4 0, s.c⟩
  | [k0, k1, k2, k3, k4] => some ⟨s.a + sh k3 24 + sh k2 16 + sh k1 8 + sh k0 0, s.b + sh k4 0, s.c⟩
  | [k0, k1, k2, k3] => some ⟨s.a + sh k3 24 + sh k2 16 + sh k1 8 + sh k0 0, s.b, s.c⟩
  | [k0, k1, k2] => some ⟨s.a + sh k2 16 + sh k1 8 + sh k0 0, s.b, s.c⟩
  | [k0, k1] => some ⟨s.a + sh k1 8 + sh k0 0, s.b, s.c⟩
  | [k0] => some ⟨s.a + sh k0 0, s.b, s.c⟩
  | _ => none

/-- Lines 258 and 435: the initial state. -/
def start (length : Nat) (val2 : W) : St :=
  ⟨0xdeadbeef + BitVec.ofNat 32 length + val2, 0xdeadbeef + BitVec.ofNat 32 length + val2, 0xdeadbeef + BitVec.ofNat 32 length + val2⟩

/-- Lines 418-420 and 548-550, or `return c` of the switch, which leaves `*val2` as it is: the value returned, and `*val2`. -/
def finish (val2 : W) (s : St) : Option St → W × W
  | none => (s.c, val2)
  | some t => ((final t).c, (final t).b)

/-- Lines 252-421 `hashlittle` of a key at an address, on a machine that is little-endian or not. -/
def hashlittle (le : Bool) (addr : Nat) (key : List Byte) (val2 : W) : W × W :=
  if le = true ∧ addr % 4 = 0 then
    let r := blocks (bodyWords le) (start key.length val2) key
    finish val2 r.1 (lastWords le r.1 r.2)
  else if le = true ∧ addr % 2 = 0 then
    let r := blocks (bodyHalves le) (start key.length val2) key
    finish val2 r.1 (lastHalves le r.1 r.2)
  else
    let r := blocks bodyBytes (start key.length val2) key
    finish val2 r.1 (lastBytes r.1 r.2)

/-- Lines 445-447: aligned words. -/
def bodyWordsBe (le : Bool) (s : St) (k0 k1 k2 k3 k4 k5 k6 k7 k8 k9 k10 k11 : Byte) : St := ⟨s.a + load32 le k0 k1 k2 k3, s.b + load32 le k4 k5 k6 k7, s.c + load32 le k8 k9 k10 k11⟩

/-- Lines 485-501, the switch. -/
def lastWordsBe (le : Bool) (s : St) : List Byte → Option St
  | [k0, k1, k2, k3, k4, k5, k6, k7, k8, k9, k10, k11] => some ⟨s.a + load32 le k0 k1 k2 k3, s.b + load32 le k4 k5 k6 k7, s.c + load32 le k8 k9 k10 k11⟩
  | [k0, k1, k2, k3, k4, k5, k6, k7, k8, k9, k10] => some ⟨s.a + load32 le k0 k1 k2 k3, s.b + load32 le k4 k5 k6 k7, s.c + sh k10 8 + sh k9 16 + sh k8 24⟩
  | [k0, k1, k2, k3, k4, k5, k6, k7, k8, k9] => some ⟨s.a + load32 le k0 k1 k2 k3, s.b + load32 le k4 k5 k6 k7, s.c + sh k9 16 + sh k8 24⟩
  | [k0, k1, k2, k3, k4, k5, k6, k7, k8] => some ⟨s.a + load32 le k0 k1 k2 k3, s.b + load32 le k4 k5 k6 k7, s.c + sh k8 24⟩
  | [k0, k1, k2, k3, k4, k5, k6, k7] => some ⟨s.a + load32 le k0 k1 k2 k3, s.b + load32 le k4 k5 k6 k7, s.c⟩
  | [k0, k1, k2, k3, k4, k5, k6] => some ⟨s.a + load32 le k0 k1 k2 k3, s.b + sh k6 8 + sh k5 16 + sh k4 24, s.c⟩
  | [k0, k1, k2, k3, k4, k5] => some ⟨s.a + load32 le k0 k1 k2 k3, s.b + sh k5 16 + sh k4 24, s.c⟩
  | [k0, k1, k2, k3, k4] => some ⟨s.a + load32 le k0 k1 k2 k3, s.b + sh k4 24, s.c⟩
  | [k0, k1, k2, k3] => some ⟨s.a + load32 le k0 k1 k2 k3, s.b, s.c⟩
  | [k0, k1, k2] => some ⟨s.a + sh k2 8 + sh k1 16 + sh k0 24, s.b, s.c⟩
  | [k0, k1] => some ⟨s.a + sh k1 16 + sh k0 24, s.b, s.c⟩
  | [k0] => some ⟨s.a + sh k0 24, s.b, s.c⟩
  | _ => none

/-- Lines 511-522: byte by byte. -/
def bodyBytesBe (s : St) (k0 k1 k2 k3 k4 k5 k6 k7 k8 k9 k10 k11 : Byte) : St :=
  ⟨s.a + sh k0 24 + sh k1 16 + sh k2 8 + sh k3 0, s.b + sh k4 24 + sh k5 16 + sh k6 8 + sh k7 0, s.c + sh k8 24 + sh k9 16 + sh k10 8 + sh k11 0⟩

/-- Lines 529-545, the switch. -/
def lastBytesBe (s : St) : List Byte → Option St
  | [k0, k1, k2, k3, k4, k5, k6, k7, k8, k9, k10, k11] =>
    some ⟨s.a + sh k3 0 + sh k2 8 + sh k1 16 + sh k0 24, s.b + sh k7 0 + sh k6 8 + sh k5 16 + sh k4 24, s.c + sh k11 0 + sh k10 8 + sh k9 16 + sh k8 24⟩
  | [k0, k1, k2, k3, k4, k5, k6, k7, k8, k9, k10] =>
    some ⟨s.a + sh k3 0 + sh k2 8 + sh k1 16 + sh k0 24, s.b + sh k7 0 + sh k6 8 + sh k5 16 + sh k4 24, s.c + sh k10 8 + sh k9 16 + sh k8 24⟩
  | [k0, k1, k2, k3, k4, k5, k6, k7, k8, k9] =>
    some ⟨s.a + sh k3 0 + sh k2 8 + sh k1 16 + sh k0 24, s.b + sh k7 0 + sh k6 8 + sh k5 16 + sh k4 24, s.c + sh k9 16 + sh k8 24⟩
  | [k0, k1, k2, k3, k4, k5, k6, k7, k8] =>
    some ⟨s.a + sh k3 0 + sh k2 8 + sh k1 16 + sh k0 24, s.b + sh k7 0 + sh k6 8 + sh k5 16 + sh k4 24, s.c + sh k8 24⟩
  | [k0, k1, k2, k3, k4, k5, k6, k7] => some ⟨s.a + sh k3 0 + sh k2 8 + sh k1 16 + sh k0 24, s.b + sh k7 0 + sh k6 8 + sh k5 16 + sh k4 24, s.c⟩
  | [k0, k1, k2, k3, k4, k5, k6] => some ⟨s.a + sh k3 0 + sh k2 8 + sh k1 16 + sh k0 24, s.b + sh k6 8 + sh k5 16 + sh k4 24, s.c⟩
  | [k0, k1, k2, k3, k4, k5] => some ⟨s.a + sh k3 0 + sh k2 8 + sh k1 16 + sh k0 24, s.b + sh k5 16 + sh k4 24, s.c⟩
  | [k0, k1, k2, k3, k4] => some ⟨s.a + sh k3 0 + sh k2 8 + sh k1 16 + sh k0 24, s.b + sh k4 24, s.c⟩
  | [k0, k1, k2, k3] => some ⟨s.a + sh k3 0 + sh k2 8 + sh k1 16 + sh k0 24, s.b, s.c⟩
  | [k0, k1, k2] => some ⟨s.a + sh k2 8 + sh k1 16 + sh k0 24, s.b, s.c⟩
  | [k0, k1] => some ⟨s.a + sh k1 16 + sh k0 24, s.b, s.c⟩
  | [k0] => some ⟨s.a + sh k0 24, s.b, s.c⟩
  | _ => none

/-- Lines 429-551 `hashbig`. -/
def hashbig (be : Bool) (addr : Nat) (key : List Byte) (val2 : W) : W × W :=
  if be = true ∧ addr % 4 = 0 then
    let r := blocks (bodyWordsBe !be) (start key.length val2) key
    finish val2 r.1 (lastWordsBe (!be) r.1 r.2)
  else
    let r := blocks bodyBytesBe (start key.length val2) key
    finish val2 r.1 (lastBytesBe r.1 r.2)

/-- Lines 665 and 703: `base + (base >> 32)` converted to 32 bits. -/
def fold64 (base : BitVec 64) : W := (base + base >>> 32).setWidth 32

/-- Lines 593, 668 and 711: `((uint64_t)hi << 32) | lo`. -/
def join64 (hi lo : W) : BitVec 64 := hi.setWidth 64 <<< 32 ||| lo.setWidth 64

/-- Lines 701-712 `hash64_any`. -/
def hash64Any (le : Bool) (addr : Nat) (key : List Byte) (base : BitVec 64) : BitVec 64 :=
  if le = true then join64 (hashlittle le addr key (fold64 base)).2 (hashlittle le addr key (fold64 base)).1
  else join64 (hashbig true addr key (fold64 base)).2 (hashbig true addr key (fold64 base)).1

/-- Lines 671-677 `hash_any`. -/
def hashAny (le : Bool) (addr : Nat) (key : List Byte) (base : W) : W :=
  if le = true then (hashlittle le addr key base).1 else (hashbig true addr key base).1

/-- Lines 663-669 `hash64_stable_8`. -/
def hash64Stable8 (le : Bool) (addr : Nat) (key : List Byte) (base : BitVec 64) : BitVec 64 :=
  join64 (hashlittle le addr key (fold64 base)).2 (hashlittle le addr key (fold64 base)).1

/-- Lines 199-221, the loop and the switch of `hash_u32`. -/
def u32Rest : St → List W → W
  | s, k0 :: k1 :: k2 :: k3 :: r => u32Rest (mix ⟨s.a + k0, s.b + k1, s.c + k2⟩) (k3 :: r)
  | s, [k0, k1, k2] => (final ⟨s.a + k0, s.b + k1, s.c + k2⟩).c
  | s, [k0, k1] => (final ⟨s.a + k0, s.b + k1, s.c⟩).c
  | s, [k0] => (final ⟨s.a + k0, s.b, s.c⟩).c
  | s, [] => s.c

/-- Lines 189-222 `hash_u32`. -/
def hashU32 (key : List W) (initval : W) : W :=
  let i := (0xdeadbeef : W) + BitVec.ofNat 32 key.length <<< 2 + initval
  u32Rest ⟨i, i, i⟩ key

/-- Lines 563, 602 and 632: the initial value of the other functions, `0xdeadbeef + ((uint32_t)n*size) + (base >> 32) + base`, converted to 32 bits. -/
def stableStart (n size : Nat) (base : BitVec 64) : St :=
  let i : W := ((0xdeadbeef : BitVec 64) + (BitVec.ofNat 32 n * BitVec.ofNat 32 size).setWidth 64 + base >>> 32 + base).setWidth 32
  ⟨i, i, i⟩

/-- Lines 604-621: the loop of `hash64_stable_32`, and its switch, which has no case 3; `none` is `return c`. -/
def stable32Rest : St → List W → W × Option St
  | s, k0 :: k1 :: k2 :: k3 :: r => stable32Rest (mix ⟨s.a + k0, s.b + k1, s.c + k2⟩) (k3 :: r)
  | s, [k0, k1] => (s.c, some ⟨s.a + k0, s.b + k1, s.c⟩)
  | s, [k0] => (s.c, some ⟨s.a + k0, s.b, s.c⟩)
  | s, [] => (s.c, none)
  | s, [_, _, _] => (s.c, some s)

/-- Lines 592-593, 622-623 and 659-660, the end of the functions: `final(a,b,c); return ((uint64_t)b << 32) | c`, or `return c`. -/
def stableEnd : W × Option St → BitVec 64
  | (_, some s) => join64 (final s).b (final s).c
  | (c, none) => c.setWidth 64

/-- Lines 596-624 `hash64_stable_32`. -/
def hash64Stable32 (key : List W) (base : BitVec 64) : BitVec 64 := stableEnd (stable32Rest (stableStart key.length 4 base) key)

/-- Lines 566-572, the halves of an element: `(uint32_t)k` and `(uint32_t)(k >> 32)`. -/
def lo (k : BitVec 64) : W := k.setWidth 32
/-- Lines 567-572. -/
def hi (k : BitVec 64) : W := (k >>> 32).setWidth 32

/-- Lines 565-591: the loop of `hash64_stable_64`, and its switch, which has no case 3. -/
def stable64Rest : St → List (BitVec 64) → W × Option St
  | s, k0 :: k1 :: k2 :: k3 :: r =>
    let s := mix ⟨s.a + lo k0, s.b + hi k0, s.c + lo k1⟩
    stable64Rest (mix ⟨s.a + hi k1, s.b + lo k2, s.c + hi k2⟩) (k3 :: r)
  | s, [k0, k1] =>
    let s := mix ⟨s.a + lo k0, s.b + hi k0, s.c + lo k1⟩
    (s.c, some ⟨s.a + hi k1, s.b, s.c⟩)
  | s, [k0] => (s.c, some ⟨s.a + lo k0, s.b + hi k0, s.c⟩)
  | s, [] => (s.c, none)
  | s, [_, _, _] => (s.c, some s)

/-- Lines 557-594 `hash64_stable_64`. -/
def hash64Stable64 (key : List (BitVec 64)) (base : BitVec 64) : BitVec 64 := stableEnd (stable64Rest (stableStart key.length 8 base) key)

/-- Lines 635-654: an `uint16_t` converted to 32 bits and shifted. -/
def sh16 (k : BitVec 16) (n : Nat) : W := k.setWidth 32 <<< n

/-- Lines 634-658: the loop of `hash64_stable_16`, and its switch, which has no case 6. -/
def stable16Rest : St → List (BitVec 16) → W × Option St
  | s, k0 :: k1 :: k2 :: k3 :: k4 :: k5 :: k6 :: r =>
    stable16Rest (mix ⟨s.a + (sh16 k0 0 + sh16 k1 16), s.b + (sh16 k2 0 + sh16 k3 16), s.c + (sh16 k4 0 + sh16 k5 16)⟩) (k6 :: r)
  | s, [k0, k1, k2, k3, k4] => (s.c, some ⟨s.a + sh16 k1 16 + sh16 k0 0, s.b + sh16 k3 16 + sh16 k2 0, s.c + sh16 k4 0⟩)
  | s, [k0, k1, k2, k3] => (s.c, some ⟨s.a + sh16 k1 16 + sh16 k0 0, s.b + sh16 k3 16 + sh16 k2 0, s.c⟩)
  | s, [k0, k1, k2] => (s.c, some ⟨s.a + sh16 k1 16 + sh16 k0 0, s.b + sh16 k2 0, s.c⟩)
  | s, [k0, k1] => (s.c, some ⟨s.a + sh16 k1 16 + sh16 k0 0, s.b, s.c⟩)
  | s, [k0] => (s.c, some ⟨s.a + sh16 k0 0, s.b, s.c⟩)
  | s, [] => (s.c, none)
  | s, [_, _, _, _, _, _] => (s.c, some s)

/-- Lines 626-661 `hash64_stable_16`. -/
def hash64Stable16 (key : List (BitVec 16)) (base : BitVec 64) : BitVec 64 := stableEnd (stable16Rest (stableStart key.length 2 base) key)

/-- Lines 679-682 `hash_stable_64`: the low half. -/
def hashStable64 (key : List (BitVec 64)) (base : W) : W := (hash64Stable64 key (base.setWidth 64)).setWidth 32

/-- Lines 684-687 `hash_stable_32`. -/
def hashStable32 (key : List W) (base : W) : W := (hash64Stable32 key (base.setWidth 64)).setWidth 32

/-- Lines 689-692 `hash_stable_16`. -/
def hashStable16 (key : List (BitVec 16)) (base : W) : W := (hash64Stable16 key (base.setWidth 64)).setWidth 32

/-- Lines 694-697 `hash_stable_8`. -/
def hashStable8 (le : Bool) (addr : Nat) (key : List Byte) (base : W) : W := (hashlittle le addr key base).1

end Hash
