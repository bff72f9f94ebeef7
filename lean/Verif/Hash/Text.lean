import Verif.Hash.Props

/-! Hashes of strings and pointers, ccan/hash/hash.h. -/
namespace Hash

/-- A `char` as it is added to a number of 32 bits: signed on some machines, unsigned on others. -/
def charVal (signed : Bool) (c : Byte) : W := if signed = true then c.signExtend 32 else c.setWidth 32

/-- hash.h:137-138: the loop of `hash_string` on memory; `none`: the memory ends before the string does. -/
def stringLoop (signed : Bool) : W → List Byte → Option W
  | _, [] => none
  | ret, c :: r => if c = 0 then some ret else stringLoop signed (ret <<< 5 - ret + charVal signed c) r

/-- `hash_string`, hash.h:130-141. -/
def hashString (signed : Bool) (mem : List Byte) : Option W := stringLoop signed 0 mem

/-- The words of a pointer of 8 bytes in memory, hash.h:304-308. -/
def pointerWords (le : Bool) (p : BitVec 64) : List W :=
  if le = true then [p.setWidth 32, (p >>> 32).setWidth 32] else [(p >>> 32).setWidth 32, p.setWidth 32]

/-- `hash_pointer`, hash.h:300-312; the size of a pointer is a multiple of four. -/
def hashPointer (le : Bool) (p : BitVec 64) (base : W) : W := hashU32 (pointerWords le p) base

end Hash
