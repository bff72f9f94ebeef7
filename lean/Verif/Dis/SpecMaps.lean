import Verif.Dis.Symbols
import Verif.Ptracer.AsciiLog
/-! # The format of /proc/pid/maps -/

namespace Sym.Spec

/-- A mapping as the operating system describes it.  `path` is empty for anonymous memory. -/
structure Entry where
  start : BitVec 64
  stop : BitVec 64
  read : Bool
  write : Bool
  exec : Bool
  shared : Bool
  offset : BitVec 64
  major : Nat
  minor : Nat
  inode : Nat
  path : List Char
  deriving DecidableEq

/-- The permissions. -/
def Entry.perm (e : Entry) : List Char :=
  [if e.read then 'r' else '-', if e.write then 'w' else '-', if e.exec then 'x' else '-', if e.shared then 's' else 'p']

/-- What comes before the path: it begins in column 73, or one further space behind. -/
def Entry.head (e : Entry) : List Char :=
  Ptr.Log.fmtPad 8 e.start.toNat ++ ['-'] ++ Ptr.Log.fmtPad 8 e.stop.toNat ++ [' '] ++ e.perm ++ [' '] ++ Ptr.Log.fmtPad 8 e.offset.toNat ++ [' '] ++
  Ptr.Log.fmtPad 2 e.major ++ [':'] ++ Ptr.Log.fmtPad 2 e.minor ++ [' '] ++ Nat.toDigits 10 e.inode ++ [' ']

/-- A line of the file. -/
def Entry.line (e : Entry) : List Char :=
  if e.path = [] then e.head ++ ['\n'] else e.head ++ List.replicate (72 - e.head.length) ' ' ++ [' '] ++ e.path ++ ['\n']

def text (es : List Entry) : List Char := es.flatMap Entry.line

/-- Names without white space. -/
def Plain (path : List Char) : Prop := ∀ c ∈ path, c ≠ ' ' ∧ c ≠ '\t' ∧ c ≠ '\n' ∧ c ≠ '\x0b' ∧ c ≠ '\x0c' ∧ c ≠ '\x0d' ∧ c ≠ '\x00'

/-- The lines that the program reads as they are meant: they fit in the buffer, and an executable mapping has a name without white space. -/
def Readable (e : Entry) : Prop :=
  e.line.length < 2048 ∧ (∀ c ∈ e.path, c ≠ '\n' ∧ c ≠ '\x00') ∧ (e.exec = true → e.path ≠ [] ∧ Plain e.path)

/-- The mapping, with the symbols of the file. -/
def Entry.mapping (files : List Char → Option (List Symbol)) (e : Entry) : Mapping :=
  { start := e.start, stop := e.stop, exec := e.exec, syms := files e.path }

end Sym.Spec
