/-! # Symbol tables (`/repo/qtdis/qtdis.c`, `/repo/ptracer/ascii.c`)

A symbol is its value (`bfd_asymbol_value`, the address of its section added) and its name; what binutils reads from the
file is the input. -/

namespace Sym

structure Symbol where
  value : BitVec 64
  name : String
  deriving DecidableEq, Repr

/-- `symcmp`, qtdis.c:98-104 and ascii.c:27-33. -/
def symcmp (a b : Symbol) : Int := if a.value > b.value then 1 else 0

/-- `KERNEL_START`, qtdis.c:106. -/
def kernelStart : BitVec 64 := 0xc000000000000000

/-- One round of the loop of qtdis.c:134-142; `src` is `syms + i`. -/
def compactStep (x : List Symbol × Nat) (i : Nat) : List Symbol × Nat :=
  match x.1[i]? with
  | some s => if s.value ≥ kernelStart then (x.1.set x.2 s, x.2 + 1) else x
  | none => x

/-- qtdis.c:126-143: the array after the loop, and `symcount`. -/
def compact (syms : List Symbol) : List Symbol × Nat := (List.range syms.length).foldl compactStep (syms, 0)

/-- qtdis.c:108-145 `build_symtab` up to the sort: the symbols `qsort` is given. -/
def toSort (start : BitVec 64) (syms : List Symbol) : List Symbol :=
  if start = kernelStart then (compact syms).1.take (compact syms).2 else syms

/-- Outcome of a lookup. -/
inductive Found where
  | none
  | sym (s : Symbol)
  /-- a read outside the array -/
  | oob
  deriving DecidableEq, Repr

/-- The binary search, qtdis.c:157-172 and ascii.c:88-103, with `fuel` rounds left; `none` is a read outside the array. -/
def search (syms : List Symbol) (addr : BitVec 64) : (fuel left right : Nat) → Option Nat
  | 0, left, _ => some left
  | fuel + 1, left, right =>
    if left + 1 < right then
      match syms[(right + left) / 2]? with
      | none => none
      | some s =>
        if s.value > addr then search syms addr fuel left ((right + left) / 2)
        else if s.value < addr then search syms addr fuel ((right + left) / 2) right
        else some ((right + left) / 2)
    else some left

/-- qtdis.c:148-175 `symfind`, and ascii.c:82-105. -/
def symfind (syms : List Symbol) (addr : BitVec 64) : Found :=
  match syms.head?, syms.getLast? with
  | some first, some last =>
    if addr < first.value ∨ addr > last.value then .none
    else
      match search syms addr syms.length 0 syms.length with
      | none => .oob
      | some i => match syms[i]? with
        | some s => .sym s
        | none => .oob
  | _, _ => .none

/-- An entry of `sym_tables`, ascii.c:18-23. -/
structure Table where
  syms : List Symbol
  base : BitVec 64
  offset : BitVec 64
  deriving DecidableEq, Repr

/-- One round of ascii.c:61-72, with the chosen entry in place of `found` and the index `nearest`. -/
def nearestStep (addr : BitVec 64) (best : Option Table) (t : Table) : Option Table :=
  if t.base > addr then best
  else
    match best with
    | none => some t
    | some b => if t.base > b.base then some t else best

/-- ascii.c:60-75. -/
def nearest (tables : List Table) (addr : BitVec 64) : Option Table := tables.foldl (nearestStep addr) none

/-- ascii.c:50-106 `symfind`: the symbol, and `*base_offset`. -/
def symfindIn (tables : List Table) (addr : BitVec 64) : Option (Found × BitVec 64) :=
  match nearest tables addr with
  | none => none
  | some t => some (symfind t.syms (addr - t.offset), t.offset)

/-- What is printed for an address: the address, and if a symbol is found its name and the distance
(qtdis.c:196-215 `__print_address`, ascii.c:184-197). -/
def printAddress (tables : List Table) (vma : BitVec 64) : Option (String × BitVec 64) :=
  match symfindIn tables vma with
  | some (.sym s, off) => some (s.name, (vma - off) - s.value)
  | _ => none

/-- A line of `/proc/pid/maps`: start, end, whether executable, and the symbols of the file if it can be opened and has a
known format (ascii.c:108-132 `syminit`: no table is made otherwise). -/
structure Mapping where
  start : BitVec 64
  stop : BitVec 64
  exec : Bool
  syms : Option (List Symbol)

/-- `MAX_SYMS`, ascii.c:16. -/
def maxTables : Nat := 256

/-- ascii.c:152-177: the loop of `initialise_mem_map`.  `first` is true until an executable mapping has been seen; `none` is a
store behind the 256 entries of `sym_tables`. -/
def memMap : (first : Bool) → List Table → List Mapping → Option (List Table)
  | _, ts, [] => some ts
  | first, ts, m :: ms =>
    if m.exec then
      match m.syms with
      | none => memMap false ts ms
      | some syms =>
        if ts.length < maxTables then
          memMap false (ts ++ [{ syms := syms, base := m.start, offset := if first then 0 else m.start }]) ms
        else none
    else memMap first ts ms

/-- ascii.c:136-180 `initialise_mem_map`. -/
def tablesOf (ms : List Mapping) : Option (List Table) := memMap true [] ms

end Sym
