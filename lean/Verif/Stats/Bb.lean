import Verif.Stats.QSort
/-!
Model of qtlib/bb.c: how often each address was executed, and the blocks that are printed.
-/
namespace Bb
open Stats (QSort)

/-- bb.c:47-52 `struct bbe`. -/
structure Bbe where
  ea : BitVec 64 := 0
  size : BitVec 64 := 0
  hit : BitVec 64 := 0
  valid : Bool := false
deriving Repr, DecidableEq

/-- bb.c:53-59 `struct bb_cache`.  The length of `arr` is the field `size`.  The hash table is a function from keys to values: it is only searched and
added to, which Htable/Map.lean shows to behave like this. -/
structure Cache where
  arr : List Bbe
  next : Nat
  num : BitVec 64
  index : BitVec 64 → Option Nat

/-- bb.c:124-136, 152-155 `bb_init`: one entry.  Memory is assumed to be available. -/
def init : Cache := { arr := [{}], next := 0, num := 0, index := fun _ => none }

/-- bb.c:138-150 `bb_allocate`: the array is doubled; `none` if the new size does not fit in an `int`. -/
def grow (s : Cache) : Option Cache := if s.arr.length * 2 < 2 ^ 31 then some { s with arr := s.arr ++ List.replicate s.arr.length {} } else none

/-- bb.c:226-230: the address is known; `none` is an access outside the array. -/
def hitAt (s : Cache) (i : Nat) : Option Cache :=
  match s.arr[i]? with
  | none => none
  | some t => some { s with arr := s.arr.set i { t with hit := t.hit + 1 } }

/-- bb.c:235-248: a new entry. -/
def enter (s : Cache) (ea : BitVec 64) : Option Cache :=
  match s.arr[s.next]? with
  | none => none
  | some t => some { s with
      arr := s.arr.set s.next { t with size := 1, ea := ea, valid := true, hit := 1 }
      index := fun a => if a = ea then some s.next else s.index a
      next := s.next + 1 }

/-- bb.c:232-233. -/
def room (s : Cache) : Option Cache := if s.arr.length = s.next then grow s else some s

/-- bb.c:231-249: the address is not known. -/
def add (s : Cache) (ea : BitVec 64) : Option Cache :=
  match room s with
  | none => none
  | some s => enter s ea

/-- bb.c:216-249 `bb_ea_log`. -/
def log (s : Cache) (ea : BitVec 64) : Option Cache :=
  let s := { s with num := s.num + 1 }
  match s.index ea with
  | some i => hitAt s i
  | none => add s ea

/-- A trace. -/
def run (s : Cache) : List (BitVec 64) → Option Cache
  | [] => some s
  | ea :: l =>
    match log s ea with
    | none => none
    | some s => run s l

/-- The entries in use. -/
def Cache.entries (s : Cache) : List Bbe := s.arr.take s.next

/-! ### Printing -/

/-- bb.c:64-67 `bb_instruction_num`. -/
def Bbe.num (t : Bbe) : BitVec 64 := t.size * t.hit

/-- bb.c:78-95 `bb_compare_ea`. -/
def compareEa (a b : Bbe) : Int :=
  if a.ea < b.ea then -1 else if a.ea > b.ea then 1 else if a.size < b.size then -1 else if a.size > b.size then 1 else 0

/-- bb.c:97-117 `bb_compare_num`. -/
def compareNum (a b : Bbe) : Int :=
  if a.valid && !b.valid then -1 else if !a.valid && b.valid then 1 else if a.num > b.num then -1 else if a.num < b.num then 1 else 0

/-- bb.c:171: `abs` of the 64 bit difference converted to `int`; `none` where `abs` is undefined. -/
def distance (a b : BitVec 64) : Option Nat :=
  let d := ((a - b).setWidth 32).toInt
  if d = -2 ^ 31 then none else some d.natAbs

/-- bb.c:171: the condition, where the second part is evaluated only if the first holds. -/
def joins (t head : Bbe) (ea : BitVec 64) : Option Bool :=
  if t.ea = ea + 4 then
    match distance t.hit head.hit with
    | none => none
    | some d => some (decide (d < 4))
  else some false

/-- bb.c:169-179: the loop, with `ttest` pointing to `head`; gives the entry `head` as it is at the end, and the entries after it. -/
def coalesceFrom (head : Bbe) (ea : BitVec 64) : List Bbe → Option (Bbe × List Bbe)
  | [] => some (head, [])
  | t :: l =>
    match joins t head ea with
    | none => none
    | some true =>
      match coalesceFrom { head with size := head.size + 1 } t.ea l with
      | none => none
      | some (h, r) => some (h, { t with valid := false } :: r)
    | some false =>
      match coalesceFrom t t.ea l with
      | none => none
      | some (h, r) => some (head, h :: r)

/-- bb.c:166-179.  Without entries only the unused entry 0 is read. -/
def coalesce : List Bbe → Option (List Bbe)
  | [] => some []
  | t :: l =>
    match coalesceFrom t t.ea l with
    | none => none
    | some (h, r) => some (h :: r)

/-- bb.c:182-184: `bb.next` becomes the position of the first entry that is not valid. -/
def trim (l : List Bbe) : List Bbe := l.takeWhile (·.valid)

/-- bb.c:188-212 `bb_dump`: `out` may be printed.  There is no `out` if the code has no defined behaviour. -/
def Dumps (s : Cache) (out : List Bbe) : Prop :=
  ∃ a b c, QSort compareEa s.entries a ∧ coalesce a = some b ∧ QSort compareNum b c ∧ QSort compareNum (trim c) out

end Bb
