/-! # Model of the intrusive linked lists: qtrace-bbv/ccan/list/list.h and list.c

A node or a list head is a pair of pointers in memory; the conversion between a node and the structure around it (`off`,
`container_of`, list.h:809-817) is a constant offset and left out, so an element is the address of its node.  A dereference of
an address where no object lives is undefined behaviour and ends the program as `dead`.  The debug variants
(`CCAN_LIST_DEBUG`, off: list.h:4) are left out, but `list_check` itself is modelled. -/

namespace Clist

abbrev Addr := Nat

/-- list.h:24-27 `struct list_node`, for every address: whether an object lives there and its two pointers.  A `struct
list_head` (list.h:41-44) is a node. -/
structure Mem where
  live : Addr → Bool
  next : Addr → Addr
  prev : Addr → Addr

inductive Fault where
  /-- An access to an address without a live object: undefined behaviour. -/
  | dead
  /-- A failed `assert`. -/
  | abort
  deriving DecidableEq

/-- A function with one value changed. -/
def upd (f : Addr → Addr) (a v : Addr) : Addr → Addr := fun b => if b = a then v else f b

/-- `a->next`. -/
def getNext (m : Mem) (a : Addr) : Except Fault Addr := if m.live a then .ok (m.next a) else .error .dead

/-- `a->prev`. -/
def getPrev (m : Mem) (a : Addr) : Except Fault Addr := if m.live a then .ok (m.prev a) else .error .dead

/-- `a->next = v`. -/
def setNext (m : Mem) (a v : Addr) : Except Fault Mem :=
  if m.live a then .ok { m with next := upd m.next a v } else .error .dead

/-- `a->prev = v`. -/
def setPrev (m : Mem) (a v : Addr) : Except Fault Mem :=
  if m.live a then .ok { m with prev := upd m.prev a v } else .error .dead

/-- Memory before anything is allocated. -/
def Mem.empty : Mem := { live := fun _ => false, next := fun _ => 0, prev := fun _ => 0 }

/-- An allocation at `a`, with whatever the two pointers contain then. -/
def alloc (m : Mem) (a next prev : Addr) : Mem :=
  { live := fun b => if b = a then true else m.live b, next := upd m.next a next, prev := upd m.prev a prev }

/-- `free`. -/
def free (m : Mem) (a : Addr) : Mem := { m with live := fun b => if b = a then false else m.live b }

/-- list.h:143-146 `list_head_init`: prev first. -/
def headInit (m : Mem) (h : Addr) : Except Fault Mem := do
  let m ← setPrev m h h
  setNext m h h

/-- list.h:155-158 `list_node_init`. -/
def nodeInit (m : Mem) (n : Addr) : Except Fault Mem := headInit m n

/-- list.h:178-188 `list_add_after_`. -/
def addAfter (m : Mem) (p n : Addr) : Except Fault Mem := do
  let pn ← getNext m p
  let m ← setNext m n pn
  let m ← setPrev m n p
  let pn ← getNext m p
  let m ← setPrev m pn n
  setNext m p n

/-- list.h:204-209 `list_add_`. -/
def add (m : Mem) (h n : Addr) : Except Fault Mem := addAfter m h n

/-- list.h:227-237 `list_add_before_`. -/
def addBefore (m : Mem) (p n : Addr) : Except Fault Mem := do
  let m ← setNext m n p
  let pp ← getPrev m p
  let m ← setPrev m n pp
  let pp ← getPrev m p
  let m ← setNext m pp n
  setPrev m p n

/-- list.h:250-255 `list_add_tail_`. -/
def addTail (m : Mem) (h n : Addr) : Except Fault Mem := addBefore m h n

/-- list.h:267-271 `list_empty_`. -/
def isEmpty (m : Mem) (h : Addr) : Except Fault Bool := do
  let n ← getNext m h
  return n == h

/-- list.h:324-333 `list_del_`: the pointers of the node itself stay. -/
def del (m : Mem) (n : Addr) : Except Fault Mem := do
  let nn ← getNext m n
  let np ← getPrev m n
  let m ← setPrev m nn np
  let np ← getPrev m n
  let nn ← getNext m n
  setNext m np nn

/-- list.h:350-354 `list_del_init_`. -/
def delInit (m : Mem) (n : Addr) : Except Fault Mem := do
  let m ← del m n
  nodeInit m n

/-- list.h:370-384 `list_del_from`. -/
def delFrom (m : Mem) (h n : Addr) : Except Fault Mem := do
  if ← isEmpty m h then .error .abort else del m n

/-- list.h:405-417 `list_swap_`. -/
def swap (m : Mem) (o n : Addr) : Except Fault Mem := do
  let on ← getNext m o
  let m ← setNext m n on
  let op ← getPrev m o
  let m ← setPrev m n op
  let nn ← getNext m n
  let m ← setPrev m nn n
  let np ← getPrev m n
  setNext m np n

/-- list.h:451-456 `list_top_`: `none` for NULL. -/
def top (m : Mem) (h : Addr) : Except Fault (Option Addr) := do
  if ← isEmpty m h then return none
  else return some (← getNext m h)

/-- list.h:475-484 `list_pop_`. -/
def pop (m : Mem) (h : Addr) : Except Fault (Option Addr × Mem) := do
  if ← isEmpty m h then return (none, m)
  else
    let n ← getNext m h
    let m ← del m n
    return (some n, m)

/-- list.h:503-508 `list_tail_`. -/
def tail (m : Mem) (h : Addr) : Except Fault (Option Addr) := do
  if ← isEmpty m h then return none
  else return some (← getPrev m h)

/-- list.h:834-841 `list_entry_or_null`. -/
def entryOrNull (h n : Addr) : Option Addr := if n = h then none else some n

/-- list.h:598-602 `list_next`. -/
def nextEntry (m : Mem) (h i : Addr) : Except Fault (Option Addr) := do return entryOrNull h (← getNext m i)

/-- list.h:617-621 `list_prev`. -/
def prevEntry (m : Mem) (h i : Addr) : Except Fault (Option Addr) := do return entryOrNull h (← getPrev m i)

/-- list.h:640-656 `list_append_list_`. -/
def appendList (m : Mem) (to frm : Addr) : Except Fault Mem := do
  let fromTail ← getPrev m frm
  let toTail ← getPrev m to
  let m ← setPrev m to fromTail
  let m ← setNext m fromTail to
  let m ← setNext m toTail frm
  let m ← setPrev m frm toTail
  let m ← del m frm
  headInit m frm

/-- list.h:672-688 `list_prepend_list_`. -/
def prependList (m : Mem) (to frm : Addr) : Except Fault Mem := do
  let fromTail ← getPrev m frm
  let toHead ← getNext m to
  let m ← setNext m to frm
  let m ← setPrev m frm to
  let m ← setPrev m toHead fromTail
  let m ← setNext m fromTail toHead
  let m ← del m frm
  headInit m frm

/-- list.h:691-696 `list_for_each_off_dir_` with a body that reads only: the elements visited, by the pointer `dir`.  `none`
if the loop is still running after `fuel` elements. -/
def visit (m : Mem) (dir : Mem → Addr → Except Fault Addr) (h : Addr) : Nat → Addr → Except Fault (Option (List Addr))
  | fuel, i =>
    if i = h then .ok (some [])
    else match fuel with
      | 0 => .ok none
      | fuel + 1 => do
        let j ← dir m i
        let r ← visit m dir h fuel j
        return r.map (i :: ·)

/-- list.h:737-738 `list_for_each_off`, list.h:523-524 `list_for_each`. -/
def forEach (m : Mem) (h : Addr) (fuel : Nat) : Except Fault (Option (List Addr)) := do
  let i ← getNext m h
  visit m getNext h fuel i

/-- list.h:748-749 `list_for_each_rev_off`, list.h:539-540 `list_for_each_rev`. -/
def forEachRev (m : Mem) (h : Addr) (fuel : Nat) : Except Fault (Option (List Addr)) := do
  let i ← getPrev m h
  visit m getPrev h fuel i

/-- list.h:698-706 `list_for_each_safe_off_dir_` with the body: unlink and free the elements of `rm`.  The memory after the
loop; `none` if it is still running after `fuel` elements. -/
def sweep (rm : Addr → Bool) (h : Addr) : Nat → Mem → Addr → Addr → Except Fault (Option Mem)
  | fuel, m, i, nxt =>
    if i = h then .ok (some m)
    else match fuel with
      | 0 => .ok none
      | fuel + 1 =>
        if rm i then do
          let m ← del m i
          let m := free m i
          let n ← getNext m nxt
          sweep rm h fuel m nxt n
        else do
          let n ← getNext m nxt
          sweep rm h fuel m nxt n

/-- list.h:767-768 `list_for_each_safe_off` with that body. -/
def forEachSafe (rm : Addr → Bool) (m : Mem) (h : Addr) (fuel : Nat) : Except Fault (Option Mem) := do
  let i ← getNext m h
  let n ← getNext m i
  sweep rm h fuel m i n

/-- list.h:691-696 `list_for_each_off_dir_` with the body: unlink and free the elements of `rm`. -/
def sweepUnsafe (rm : Addr → Bool) (h : Addr) : Nat → Mem → Addr → Except Fault (Option Mem)
  | fuel, m, i =>
    if i = h then .ok (some m)
    else match fuel with
      | 0 => .ok none
      | fuel + 1 =>
        if rm i then do
          let m ← del m i
          let m := free m i
          let n ← getNext m i
          sweepUnsafe rm h fuel m n
        else do
          let n ← getNext m i
          sweepUnsafe rm h fuel m n

/-- list.c:26-28: the loop of `list_check_node`: the last node before coming back, or the finding of a corrupt link. -/
def checkLoop (m : Mem) (node : Addr) : Nat → Addr → Addr → Except Fault (Option (Option Addr))
  | fuel, p, n =>
    if n = node then .ok (some (some p))
    else match fuel with
      | 0 => .ok none
      | fuel + 1 => do
        let np ← getPrev m n
        if np ≠ p then return some none
        else
          let nn ← getNext m n
          checkLoop m node fuel n nn

/-- list.c:20-36 `list_check_node`: `some true` for a sound ring, `some false` for `corrupt` (list.c:6-18). -/
def check (m : Mem) (node : Addr) (fuel : Nat) : Except Fault (Option Bool) := do
  let n ← getNext m node
  match ← checkLoop m node fuel node n with
  | none => return none
  | some none => return some false
  | some (some p) => do
    let np ← getPrev m node
    return some (np == p)

end Clist
