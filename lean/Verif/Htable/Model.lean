/-!
Model of qtrace-bbv/ccan/htable/htable.c and of the typed functions of htable_type.h (line numbers are of htable.c unless
said otherwise).  Table words, pointers and hashes are 64-bit words; `hash p` is the `rehash` function applied to the
element `p` points to, which also gives the hash passed to `add` and `del` (htable_type.h:58-62, 81-89).

`none` stands for undefined behaviour (a shift past the sign bit of `int`, an access outside the table) or for a loop
that does not end; the theorems show neither happens.  Simplifications: allocation never fails; counters are natural
numbers; an unallocated table, which the code lets point at `perfect_bit` (53), is the one-word table `[0]`: that word is
zero as long as the table is unallocated, and `double_table` (208) does not read it.
-/
namespace Htable

abbrev Word := BitVec 64

/-- htable.h:15-24 `struct htable`. -/
structure Ht where
  bits : Nat
  elems : Nat
  deleted : Nat
  max : Nat
  maxDel : Nat
  mask : Word
  cbits : Word
  perfect : Word
  table : List Word
deriving DecidableEq

/-- 14-18 `get_extra_ptr_bits`. -/
def Ht.extra (ht : Ht) (e : Word) : Word := e &&& ht.mask
/-- 20-23 `get_raw_ptr`. -/
def Ht.raw (ht : Ht) (e : Word) : Word := (e &&& ~~~ ht.mask) ||| ht.cbits
/-- 25-29 `make_hval`. -/
def Ht.mkHval (ht : Ht) (p b : Word) : Word := (p &&& ~~~ ht.mask) ||| b
/-- 31-34 `entry_is_valid`. -/
def valid (e : Word) : Bool := e > 1
/-- 36-44 `get_hash_ptr_bits`. -/
def Ht.hashBits (ht : Ht) (h : Word) : Word := (h ^^^ (h >>> ht.bits)) &&& ht.mask &&& ~~~ ht.perfect
/-- Number of words of the table, `1 << bits`. -/
def Ht.size (ht : Ht) : Nat := 2 ^ ht.bits
/-- 104-107 `hash_bucket`. -/
def Ht.bucket (ht : Ht) (h : Word) : Nat := h.toNat % ht.size

/-- 46-54 `htable_init`, htable.h:43-44. -/
def init : Ht :=
  { bits := 0, elems := 0, deleted := 0, max := 0, maxDel := 0, mask := -1, cbits := 0, perfect := 0, table := [0] }

/-- 57-61 `htable_adjust_capacity`. -/
def Ht.adjust (ht : Ht) : Ht := { ht with max := 3 * 2 ^ ht.bits / 4, maxDel := 9 * 2 ^ ht.bits / 10 }

/-- 69-73: the loop that picks the number of bits. -/
def sizeBits (expect : Nat) : (fuel : Nat) → (bits : Nat) → Nat
  | 0, b => b
  | fuel + 1, b => if 3 * 2 ^ b / 4 < expect then (if b = 30 then b else sizeBits expect fuel (b + 1)) else b

/-- 63-82 `htable_init_sized`. -/
def initSized (expect : Nat) : Ht :=
  let bits := sizeBits expect 30 1
  { init with bits := bits, table := List.replicate (2 ^ bits) 0 }.adjust

/-- 114-122: the loop of `htable_val`. -/
def Ht.valLoop (ht : Ht) : (fuel : Nat) → (off : Nat) → (h2 perfect : Word) → Option (Option (Nat × Word))
  | 0, _, _, _ => none
  | fuel + 1, off, h2, perfect =>
    match ht.table[off]? with
    | none => none
    | some e =>
      if e = 0 then some none
      else if e ≠ 1 ∧ ht.extra e = h2 then some (some (off, ht.raw e))
      else ht.valLoop fuel ((off + 1) % ht.size) (h2 &&& ~~~ perfect) perfect

/-- 109-112 `htable_val`. -/
def Ht.val (ht : Ht) (off : Nat) (h perfect : Word) : Option (Option (Nat × Word)) :=
  ht.valLoop (ht.size + 1) off (ht.hashBits h ||| perfect) perfect

/-- 125-130 `htable_firstval`: position and pointer. -/
def Ht.firstval (ht : Ht) (h : Word) : Option (Option (Nat × Word)) := ht.val (ht.bucket h) h ht.perfect

/-- 132-137 `htable_nextval`. -/
def Ht.nextval (ht : Ht) (off : Nat) (h : Word) : Option (Option (Nat × Word)) := ht.val ((off + 1) % ht.size) h 0

/-- The loop over the matches of a hash that stops at the first one with property `q`: htable_type.h:97-103 (`get`, with
`q` the equality with the key) and htable.c:308-313 (`del`, with `q` the equality with the pointer). -/
def Ht.searchLoop (ht : Ht) (h : Word) (q : Word → Bool) :
    (fuel : Nat) → Option (Option (Nat × Word)) → Option (Option (Nat × Word))
  | 0, _ => none
  | _, none => none
  | _, some none => some none
  | fuel + 1, some (some c) => if q c.2 then some (some c) else ht.searchLoop h q fuel (ht.nextval c.1 h)

def Ht.search (ht : Ht) (h : Word) (q : Word → Bool) : Option (Option (Nat × Word)) :=
  ht.searchLoop h q (ht.size + 1) (ht.firstval h)

/-- htable_type.h:90-104 `get`. -/
def Ht.get (ht : Ht) (h : Word) (eq : Word → Bool) : Option (Option Word) := (ht.search h eq).map (·.map (·.2))

/-- The same loop without stopping: all matches of a hash, in order (htable_type.h:118-133, `getfirst` and `getnext`, with
an equality that is always true). -/
def Ht.matchesLoop (ht : Ht) (h : Word) : (fuel : Nat) → Option (Option (Nat × Word)) → Option (List Word)
  | 0, _ => none
  | _, none => none
  | _, some none => some []
  | fuel + 1, some (some c) => (ht.matchesLoop h fuel (ht.nextval c.1 h)).map (c.2 :: ·)

def Ht.matches (ht : Ht) (h : Word) : Option (List Word) := ht.matchesLoop h (ht.size + 1) (ht.firstval h)

/-- 139-155 `htable_first` and `htable_next`: the elements in the order of the table. -/
def Ht.iterate (ht : Ht) : List Word := (ht.table.filter valid).map ht.raw

/-- 176-179: the loop of `ht_add`. -/
def addLoop (table : List Word) (size : Nat) : (fuel : Nat) → (i : Nat) → (perfect : Word) → Option (Nat × Word)
  | 0, _, _ => none
  | fuel + 1, i, perfect =>
    match table[i]? with
    | none => none
    | some e => if valid e then addLoop table size fuel ((i + 1) % size) 0 else some (i, perfect)

/-- 169-181 `ht_add`. -/
def Ht.htAdd (ht : Ht) (p h : Word) : Option Ht :=
  (addLoop ht.table ht.size ht.size (ht.bucket h) ht.perfect).map fun x =>
    { ht with table := ht.table.set x.1 (ht.mkHval p (ht.hashBits h ||| x.2)) }

/-- 200-205: the lowest bit of the mask. -/
def lowestBit (mask : Word) : (fuel : Nat) → (i : Nat) → Word
  | 0, _ => 0
  | fuel + 1, i => if mask.getLsbD i then BitVec.twoPow 64 i else lowestBit mask fuel (i + 1)

/-- 209-214: the loop of `double_table`. -/
def Ht.addAll (hash : Word → Word) : Ht → List Word → Option Ht
  | ht, [] => some ht
  | ht, e :: l =>
    if valid e then (ht.htAdd (ht.raw e) (hash (ht.raw e))).bind fun ht => ht.addAll hash l
    else ht.addAll hash l

/-- 183-219 `double_table`. -/
def Ht.double (hash : Word → Word) (ht : Ht) : Option Ht :=
  if ht.bits + 1 ≥ 31 then none
  else
    let perfect := if ht.perfect = 0 ∧ ht.mask ≠ 0 then lowestBit ht.mask 64 0 else ht.perfect
    let new := { ht with bits := ht.bits + 1, perfect := perfect, table := List.replicate (2 ^ (ht.bits + 1)) 0 }.adjust
    (new.addAll hash ht.table).map fun ht => { ht with deleted := 0 }

/-- 227: the first empty word. -/
def firstEmpty : List Word → Option Nat
  | [] => none
  | e :: l => if e = 0 then some 0 else (firstEmpty l).map (· + 1)

/-- 229-241: the loop of `rehash_table`; `n` turns are left. -/
def Ht.rehashLoop (hash : Word → Word) (start : Nat) : (n : Nat) → (i : Nat) → Ht → Option Ht
  | 0, _, ht => some ht
  | n + 1, i, ht =>
    let h := (i + start) % ht.size
    match ht.table[h]? with
    | none => none
    | some e =>
      if e = 0 then ht.rehashLoop hash start n (i + 1)
      else if e = 1 then { ht with table := ht.table.set h 0 }.rehashLoop hash start n (i + 1)
      else if e &&& ht.perfect = 0 then
        ({ ht with table := ht.table.set h 0 }.htAdd (ht.raw e) (hash (ht.raw e))).bind fun ht =>
          ht.rehashLoop hash start n (i + 1)
      else ht.rehashLoop hash start n (i + 1)

/-- 221-243 `rehash_table`. -/
def Ht.rehash (hash : Word → Word) (ht : Ht) : Option Ht :=
  (firstEmpty ht.table).bind fun start =>
    (ht.rehashLoop hash start ht.size 0).map fun ht => { ht with deleted := 0 }

/-- 256-259: the highest bit of the pointer (0 if there is none). -/
def topBit (p : Word) : (i : Nat) → Nat
  | 0 => 0
  | i + 1 => if p.getLsbD (i + 1) then i + 1 else topBit p i

/-- 246-286 `update_common`. -/
def Ht.updateCommon (ht : Ht) (p : Word) : Ht :=
  if ht.elems = 0 then
    let mask := ~~~ (BitVec.twoPow 64 (topBit p 63))
    { ht with mask := mask, cbits := p &&& mask, perfect := 1 }
  else
    let maskdiff := ht.cbits ^^^ (p &&& ht.mask)
    let bitsdiff := ht.cbits &&& maskdiff
    { ht with
      table := ht.table.map fun e => if valid e then (e &&& ~~~ maskdiff) ||| bitsdiff else e
      mask := ht.mask &&& ~~~ maskdiff
      cbits := ht.cbits &&& ~~~ maskdiff
      perfect := ht.perfect &&& ~~~ maskdiff }

/-- 290-291: grow. -/
def Ht.grow (hash : Word → Word) (ht : Ht) : Option Ht :=
  if ht.elems + 1 > ht.max then ht.double hash else some ht

/-- 292-293: clean up. -/
def Ht.clean (hash : Word → Word) (ht : Ht) : Option Ht :=
  if ht.elems + 1 + ht.deleted > ht.maxDel then ht.rehash hash else some ht

/-- 295-300: place the element. -/
def Ht.place (hash : Word → Word) (ht : Ht) (p : Word) : Option Ht :=
  let ht := if p &&& ht.mask ≠ ht.cbits then ht.updateCommon p else ht
  (ht.htAdd p (hash p)).map fun ht => { ht with elems := ht.elems + 1 }

/-- 288-301 `htable_add` (the assertion of 294 is `p ≠ 0`). -/
def Ht.add (hash : Word → Word) (ht : Ht) (p : Word) : Option Ht :=
  (ht.grow hash).bind fun ht => (ht.clean hash).bind fun ht => if p = 0 then none else ht.place hash p

/-- 303-325 `htable_del`, `htable_delval`. -/
def Ht.del (hash : Word → Word) (ht : Ht) (p : Word) : Option (Bool × Ht) :=
  match ht.search (hash p) (· == p) with
  | none => none
  | some none => some (false, ht)
  | some (some c) =>
    match ht.table[c.1]? with
    | none => none
    | some e =>
      if valid e then
        some (true, { ht with elems := ht.elems - 1, table := ht.table.set c.1 1, deleted := ht.deleted + 1 })
      else none

/-- A call that changes the table. -/
inductive Op where
  | add (p : Word)
  | del (p : Word)

/-- A history of calls, with the results of the deletions. -/
def run (hash : Word → Word) : Ht → List Op → Option (List Bool × Ht)
  | ht, [] => some ([], ht)
  | ht, .add p :: l => (ht.add hash p).bind fun ht => run hash ht l
  | ht, .del p :: l => (ht.del hash p).bind fun x => (run hash x.2 l).map fun y => (x.1 :: y.1, y.2)

end Htable
