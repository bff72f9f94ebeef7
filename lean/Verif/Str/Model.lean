/-! Model of the string helpers of qtrace-bbv/ccan/str. -/
namespace Str

abbrev Byte := BitVec 8

/-- `strlen` of the C library: the number of bytes before the first 0.  `none`: there is no 0 in the array, and the function reads behind its end. -/
def strlen : List Byte → Option Nat
  | [] => none
  | b :: rest => if b = 0#8 then some 0 else (strlen rest).map (· + 1)

/-- `strcmp` of the C library, byte by byte as unsigned char; only the sign of the result is promised. -/
def strcmp : List Byte → List Byte → Option Int
  | a :: as, b :: bs => if a ≠ b then some ((a.toNat : Int) - b.toNat) else if a = 0#8 then some 0 else strcmp as bs
  | _, _ => none

/-- `strncmp` of the C library: at most `n` bytes are compared, none behind a 0. -/
def strncmp : Nat → List Byte → List Byte → Option Int
  | 0, _, _ => some 0
  | n + 1, a :: as, b :: bs => if a ≠ b then some ((a.toNat : Int) - b.toNat) else if a = 0#8 then some 0 else strncmp n as bs
  | _ + 1, _, _ => none

/-- `strstr` of the C library: where the bytes `t` (the second string without its 0) stand first in the string; `some none` is NULL. -/
def strstr (t : List Byte) : List Byte → Option (Option Nat)
  | [] => none
  | b :: rest => if t.isPrefixOf (b :: rest) then some (some 0) else if b = 0#8 then some none else (strstr t rest).map (Option.map (· + 1))

/-- streq, str.h:21. -/
def streq (a b : List Byte) : Option Bool := (strcmp a b).map (· == 0)

/-- strstarts, str.h:32. -/
def strstarts (str pre : List Byte) : Option Bool := do
  let n ← strlen pre
  let r ← strncmp n str pre
  return r == 0

/-- strends, str.h:43-49. -/
def strends (str post : List Byte) : Option Bool := do
  let n ← strlen str
  let m ← strlen post
  if n < m then return false
  streq (str.drop (n - m)) post

/-- The state of strcount: the loop goes on with the rest of the haystack, or the function has returned, or it has read behind the end of an array. -/
inductive Out where
  | running (hay : List Byte) (i : BitVec 64)
  | ended (i : BitVec 64)
  | fault
deriving DecidableEq, Repr

/-- One turn of the loop of strcount, str.c:8-11. -/
def turn (t : List Byte) : Out → Out
  | .running hay i =>
    match strstr t hay with
    | none => .fault
    | some none => .ended i
    | some (some k) => .running (hay.drop (k + t.length)) (i + 1#64)
  | o => o

/-- Some number of turns. -/
def turns (t : List Byte) : Nat → Out → Out
  | 0, o => o
  | n + 1, o => turns t n (turn t o)

/-- strcount after some number of turns, str.c:4-13. -/
def strcount (n : Nat) (hay needle : List Byte) : Out :=
  match strlen needle with
  | none => .fault
  | some nlen => turns (needle.take nlen) n (.running hay 0#64)

/-- STR_MAX_CHARS, str.h:90-92, of a type of `size` bytes (CHAR_BIT is 8).  The type check adds 0. -/
def maxChars (size : Nat) : Nat := (size * 8 + 8) / 9 * 3 + 2

/-- cisalnum to cisxdigit, str.h:110-162, with the argument check of debug.c:10-95 (CCAN_STR_DEBUG): `none` is the failed assertion `i >= -1 && i < 256`. -/
def checked (is : Int → Bool) (i : Int) : Option Bool := if -1 ≤ i ∧ i < 256 then some (is i) else none

/-- The argument is converted to unsigned char: a char is its eight bits, whether the type is signed or not. -/
def cis (is : Int → Bool) (c : Byte) : Option Bool := checked is (c.toNat : Int)

end Str
