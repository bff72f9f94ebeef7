import Verif.Dis.Symbols
/-! # Reading /proc/pid/maps (`/repo/ptracer/ascii.c`)

The library functions `fgets` and `sscanf` are modelled as far as this program uses them.  Line numbers are of ascii.c. -/

namespace Sym

/-- `isspace` of the C library. -/
def isSpace (c : Char) : Bool := c = ' ' ∨ c = '\t' ∨ c = '\n' ∨ c = '\x0b' ∨ c = '\x0c' ∨ c = '\x0d'

/-- The value of a hexadecimal digit. -/
def hexDigit (c : Char) : Option Nat :=
  if '0' ≤ c ∧ c ≤ '9' then some (c.toNat - 48)
  else if 'a' ≤ c ∧ c ≤ 'f' then some (c.toNat - 87)
  else if 'A' ≤ c ∧ c ≤ 'F' then some (c.toNat - 55)
  else none

def hexValue (l : List Char) : Nat := l.foldl (fun a c => 16 * a + (hexDigit c).getD 0) 0

/-- The sign of a number. -/
def sign (s : List Char) : Bool × List Char :=
  if s.head? = some '-' then (true, s.tail) else if s.head? = some '+' then (false, s.tail) else (false, s)

/-- The prefix of a hexadecimal number. -/
def skip0x (s : List Char) : List Char :=
  if s.head? = some '0' ∧ (s.tail.head? = some 'x' ∨ s.tail.head? = some 'X') then s.tail.tail else s

/-- `%lx` of `sscanf` (line 160): spaces, a sign, `0x`, digits; too large numbers become the largest.  The rest of the input, or `none` if
there is no number. -/
def scanHex (s : List Char) : Option (BitVec 64 × List Char) :=
  let (neg, t) := sign (s.dropWhile isSpace)
  let t := skip0x t
  let d := t.takeWhile (fun c => (hexDigit c).isSome)
  if d = [] then none
  else
    let v := BitVec.ofNat 64 (min (hexValue d) (2 ^ 64 - 1))
    some (if neg then -v else v, t.dropWhile (fun c => (hexDigit c).isSome))

/-- `%s` and `%*s` (line 160): a word and the rest. -/
def scanWord (s : List Char) : Option (List Char × List Char) :=
  let t := s.dropWhile isSpace
  let w := t.takeWhile (fun c => !isSpace c)
  if w = [] then none else some (w, t.dropWhile (fun c => !isSpace c))

/-- 152-155: the variables of a turn of the loop.  The arrays are functions of the index. -/
structure Locals where
  start : BitVec 64
  stop : BitVec 64
  perm : Nat → Char
  library : Nat → Char

/-- A string stored in an array, with the zero behind it. -/
def storeStr (w : List Char) (a : Nat → Char) : Nat → Char := fun i => if i < w.length then w[i]?.getD '\x00' else if i = w.length then '\x00' else a i

/-- `BUFSIZE`, line 134. -/
def bufSize : Nat := 2048

/-- The string in an array of `BUFSIZE` characters; `none` if there is no end. -/
def stringIn (a : Nat → Char) : Option (List Char) :=
  match (List.range bufSize).find? (fun i => a i = '\x00') with
  | none => none
  | some n => some ((List.range n).map a)

/-- `%*s` three times and `%s`, for `library`. -/
def scanPath (l : Locals) (s : List Char) : Locals :=
  match ((scanWord s).bind fun x => (scanWord x.2).bind fun x => (scanWord x.2).bind fun x => scanWord x.2) with
  | none => l
  | some (w, _) => { l with library := storeStr w l.library }

/-- ` %s` for `perm`, and what follows. -/
def scanPerm (l : Locals) (s : List Char) : Locals :=
  match scanWord s with
  | none => l
  | some (w, s) => scanPath { l with perm := storeStr w l.perm } s

/-- `-%lx` for `end`, and what follows. -/
def scanStop (l : Locals) (s : List Char) : Locals :=
  if s.head? = some '-' then
    match scanHex s.tail with
    | none => l
    | some (b, s) => scanPerm { l with stop := b } s
  else l

/-- 160-161: `sscanf(buf, "%lx-%lx %s %*s %*s %*s %s", &start, &end, perm, library)`; what is not found is left as it was. -/
def scanLine (l : Locals) (buf : List Char) : Locals :=
  match scanHex (buf.takeWhile (· ≠ '\x00')) with
  | none => l
  | some (a, s) => scanStop { l with start := a } s

/-- `fgets` with room for `n` characters: what is read, and what is left of the file. -/
def getLine : Nat → List Char → List Char × List Char
  | 0, s => ([], s)
  | _ + 1, [] => ([], [])
  | n + 1, c :: s => if c = '\n' then ([c], s) else (c :: (getLine n s).1, (getLine n s).2)

/-- 108-132 `syminit`, for the symbols of the file with that name, if it can be opened and has a known format. `none` is a store behind the
entries of `sym_tables`. -/
def syminit (syms : Option (List Symbol)) (base offset : BitVec 64) (ts : List Table) : Option (List Table) :=
  match syms with
  | none => some ts
  | some syms => if ts.length < maxTables then some (ts ++ [{ syms := syms, base := base, offset := offset }]) else none

/-- 163-176: one line; `none` is a memory error. -/
def useLine (files : List Char → Option (List Symbol)) (l : Locals) (first : Bool) (ts : List Table) : Option (Bool × List Table) :=
  if l.perm 2 ≠ 'x' then some (first, ts)
  else
    match stringIn l.library with
    | none => none
    | some name => (syminit (files name) l.start (if first then 0 else l.start) ts).map fun ts => (false, ts)

/-- 151-177: the loop.  The variables of turn `k` begin as `junk k`: they are not initialised. -/
def readMaps (junk : Nat → Locals) (files : List Char → Option (List Symbol)) : Nat → Nat → Bool → List Table → List Char → Option (List Table)
  | 0, _, _, ts, _ => some ts
  | _ + 1, _, _, ts, [] => some ts
  | n + 1, k, first, ts, c :: s =>
    match useLine files (scanLine (junk k) (getLine (bufSize - 1) (c :: s)).1) first ts with
    | none => none
    | some (first, ts) => readMaps junk files n (k + 1) first ts (getLine (bufSize - 1) (c :: s)).2

/-- 136-180 `initialise_mem_map`, for the contents of the file. -/
def initMaps (junk : Nat → Locals) (files : List Char → Option (List Symbol)) (text : List Char) : Option (List Table) :=
  readMaps junk files (text.length + 1) 0 true [] text

end Sym
