import Verif.Htable.Model
/-!
The calls of qtrace-bbv/ccan/htable that Model.lean leaves out: failed allocations, clearing, copying, walking with an
iterator in both directions, deleting at the iterator, deleting by key.  Line numbers are of htable.c unless said
otherwise.

`mem` tells whether the allocation succeeds, if the call needs one.  `none` is undefined behaviour (an access outside the
table, a shift past the sign bit) or a failed assertion.  A copy is a table of its own: `malloc` gives fresh memory (93).
-/
namespace Htable

/-- 63-82 `htable_init_sized` with its answer.  If there is no memory the table is the word `perfect_bit` (77), but `bits`
(69) stays what it was set to and the limits stay 0. -/
def initSizedM (expect : Nat) (mem : Bool) : Bool × Ht :=
  if mem then (true, initSized expect) else (false, { init with bits := sizeBits expect 30 1 })

/-- 84-89 `htable_clear`. -/
def Ht.clear (_ : Ht) : Ht := init

/-- 91-102 `htable_copy`: the copy, if there is memory for it.  `memcpy` reads `1 << bits` words. -/
def Ht.copy (mem : Bool) (ht : Ht) : Option (Option Ht) :=
  if mem = false then some none
  else if ht.table.length < ht.size then none
  else some (some { ht with table := ht.table.take ht.size })

/-- 288-301 `htable_add` with its answer.  188: the size of the table is computed before memory is asked for. -/
def Ht.addM (hash : Word → Word) (mem : Bool) (ht : Ht) (p : Word) : Option (Bool × Ht) :=
  if ht.elems + 1 > ht.max ∧ ht.bits + 1 < 31 ∧ mem = false then some (false, ht)
  else (ht.add hash p).map fun ht => (true, ht)

/-- 317-325 `htable_delval`. -/
def Ht.delval (ht : Ht) (off : Nat) : Option Ht :=
  if off < ht.size then
    match ht.table[off]? with
    | none => none
    | some e =>
      if valid e then some { ht with elems := ht.elems - 1, table := ht.table.set off 1, deleted := ht.deleted + 1 }
      else none
  else none

/-- htable_type.h:134-141 `delkey`; `x` is the hash of the key and `eq` tells which elements have it. -/
def Ht.delkey (hash : Word → Word) (ht : Ht) (x : Word) (eq : Word → Bool) : Option (Bool × Ht) :=
  match ht.get x eq with
  | none => none
  | some none => some (false, ht)
  | some (some p) => ht.del hash p

/-! ### Iterators -/

/-- The loop of 141-145 and 150-154: the iterator after it, and the element found. -/
def Ht.scanUp (ht : Ht) : (fuel : Nat) → (off : Nat) → Option (Nat × Option Word)
  | 0, _ => none
  | fuel + 1, off =>
    if off < ht.size then
      match ht.table[off]? with
      | none => none
      | some e => if valid e then some (off, some (ht.raw e)) else ht.scanUp fuel (off + 1)
    else some (off, none)

/-- 139-146 `htable_first`. -/
def Ht.first (ht : Ht) : Option (Nat × Option Word) := ht.scanUp (ht.size + 1) 0

/-- 148-155 `htable_next`. -/
def Ht.next (ht : Ht) (off : Nat) : Option (Nat × Option Word) := ht.scanUp (ht.size + 1) (off + 1)

/-- 157-166 `htable_prev`. -/
def Ht.prev (ht : Ht) : (off : Nat) → Option (Nat × Option Word)
  | 0 => some (0, none)
  | off + 1 =>
    match ht.table[off]? with
    | none => none
    | some e => if valid e then some (off, some (ht.raw e)) else ht.prev off

/-- `for (c = first(); c; c = next()) if (q(c)) delval();` — the elements given, with the position of the iterator at
each, the position at the end, and the table. -/
def Ht.sweepLoop (q : Word → Bool) : (fuel : Nat) → Ht → Option (Nat × Option Word) → Option (List (Nat × Word) × Nat × Ht)
  | 0, _, _ => none
  | _, _, none => none
  | _, ht, some (off, none) => some ([], off, ht)
  | fuel + 1, ht, some (off, some p) =>
    if q p then
      (ht.delval off).bind fun ht => (ht.sweepLoop q fuel (ht.next off)).map fun r => ((off, p) :: r.1, r.2)
    else (ht.sweepLoop q fuel (ht.next off)).map fun r => ((off, p) :: r.1, r.2)

def Ht.sweep (q : Word → Bool) (ht : Ht) : Option (List (Nat × Word) × Nat × Ht) := ht.sweepLoop q (ht.size + 1) ht.first

/-- `while ((c = prev()))` — the elements given. -/
def Ht.backLoop (ht : Ht) : (fuel : Nat) → Option (Nat × Option Word) → Option (List (Nat × Word))
  | 0, _ => none
  | _, none => none
  | _, some (_, none) => some []
  | fuel + 1, some (off, some p) => (ht.backLoop fuel (ht.prev off)).map ((off, p) :: ·)

def Ht.back (ht : Ht) (off : Nat) : Option (List (Nat × Word)) := ht.backLoop (off + 1) (ht.prev off)

/-! ### Histories -/

/-- A call.  After `copy` the history goes on with the copy, if it was made. -/
inductive Call where
  | add (p : Word) (mem : Bool)
  | del (p : Word)
  | delkey (x : Word) (eq : Word → Bool)
  | clear
  | copy (mem : Bool)
  | sweep (q : Word → Bool)

/-- What a call tells: its result, or the elements given by the loop. -/
inductive Ans where
  | bool (b : Bool)
  | list (l : List Word)
  | nothing
deriving DecidableEq

def Ht.call (hash : Word → Word) (ht : Ht) : Call → Option (Ans × Ht)
  | .add p mem => (ht.addM hash mem p).map fun r => (.bool r.1, r.2)
  | .del p => (ht.del hash p).map fun r => (.bool r.1, r.2)
  | .delkey x eq => (ht.delkey hash x eq).map fun r => (.bool r.1, r.2)
  | .clear => some (.nothing, ht.clear)
  | .copy mem => (ht.copy mem).map fun r => (.bool r.isSome, r.getD ht)
  | .sweep q => (ht.sweep q).map fun r => (.list (r.1.map (·.2)), r.2.2)

def Ht.calls (hash : Word → Word) : Ht → List Call → Option (List Ans × Ht)
  | ht, [] => some ([], ht)
  | ht, c :: l => (ht.call hash c).bind fun r => (r.2.calls hash l).map fun r' => (r.1 :: r'.1, r'.2)

end Htable
